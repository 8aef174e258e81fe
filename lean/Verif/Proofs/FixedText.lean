import Verif.Model.FixedText
import Verif.Proofs.TypeableList
import Verif.Proofs.StoredNumber
import Verif.Props.Real

/-! Numbers printed with a fixed number of decimals. -/

namespace Verif

open Spec Ent

/-- The literal printed by `.Nf`. -/
def fixedLit (places : Nat) (d : PyDec) : Literal where
  sign := if d.neg then .minus else .none
  int := fixInt places (decRescale places d)
  frac := if places = 0 then none else some (fixFrac places (decRescale places d))
  exp := none

theorem fixedLit_render (places : Nat) (d : PyDec) : (fixedLit places d).render = decFormat places d := by
  have hsg : (if d.neg = true then Sign.minus else Sign.none).str = if d.neg = true then ['-'] else [] := by
    cases d.neg <;> rfl
  have h3 := (natRepr_spec (decRescale 0 d)).2.2
  unfold decFormat
  by_cases h : places = 0
  · subst h
    have hl : 0 < (natRepr (decRescale 0 d)).length := List.length_pos_iff.mpr h3
    simp only [fixedLit, Literal.render, Literal.fracStr, Literal.expStr, if_pos, hsg, List.append_nil, fixInt]
    rw [show 0 + 1 - (natRepr (decRescale 0 d)).length = 0 by omega]
    simp
  · rw [if_neg h]
    simp only [fixedLit, Literal.render, Literal.fracStr, Literal.expStr, if_neg h, hsg, List.append_nil]
    unfold decFixed fixInt fixFrac
    simp only [List.append_assoc]

theorem fixedLit_printed (places : Nat) (d : PyDec) : Printed (fixedLit places d) := by
  obtain ⟨h1, h2, h3, h4, h5, h6⟩ := fix_spec places (decRescale places d)
  refine ⟨⟨(digits_iff _).1 h1, fun f hf => ?_, fun m s x hx => by cases hx⟩, ?_, h4, rfl, ?_⟩
  · simp only [fixedLit] at hf
    split at hf
    · cases hf
    · cases hf; exact (digits_iff _).1 h2
  · unfold Literal.NoLeadingZeros
    rw [digitsValue_eq]
    exact h6
  · simp only [fixedLit]
    cases d.neg <;> simp

theorem fixedLit_frac (places : Nat) (d : PyDec) : (fixedLit places d).fracDigits.length = places ∧
    (fixedLit places d).coeff = decRescale places d := by
  obtain ⟨-, -, h3, -, h5, -⟩ := fix_spec places (decRescale places d)
  have hfd : (fixedLit places d).fracDigits = fixFrac places (decRescale places d) := by
    simp only [Literal.fracDigits, fixedLit]
    split
    · next h =>
      subst h
      exact (List.length_eq_zero_iff.1 h3).symm
    · rfl
  rw [Literal.coeff, hfd, digitsValue_eq]
  exact ⟨h3, h5⟩

theorem fixedLit_magnitude (places : Nat) (d : PyDec) : (fixedLit places d).magnitude = (decRescale places d : ℚ) * 10 ^ (-(places : Int)) := by
  obtain ⟨h1, h2⟩ := fixedLit_frac places d
  unfold Literal.magnitude Literal.scale
  rw [h1, h2]
  have : (fixedLit places d).expValue = 0 := rfl
  rw [this, zero_sub]

theorem fixedLit_rounds (places : Nat) (d : PyDec) : RoundsAt places d.value (fixedLit places d).value := by
  obtain ⟨h1, h2⟩ := decRescale_spec places d
  have hp : (0 : ℚ) < 10 ^ places := by positivity
  have hm : (fixedLit places d).magnitude * 10 ^ places = (decRescale places d : ℚ) := by
    rw [fixedLit_magnitude, zpow_neg, zpow_natCast, mul_assoc, inv_mul_cancel₀ hp.ne', mul_one]
  have hsg : (fixedLit places d).sgn = if d.neg then -1 else 1 := by
    unfold Literal.sgn; simp only [fixedLit]; by_cases h : d.neg = true <;> simp [h, Sign.isNeg]
  have hdv : d.value = ((if d.neg then -1 else 1 : Int) : ℚ) * d.mag := rfl
  refine ⟨(fixedLit places d).sgn * (decRescale places d : Int), ?_, ?_⟩
  · unfold Literal.value
    rw [mul_assoc, hm]; push_cast; rfl
  · have hab : 2 * |d.value - (fixedLit places d).value| * 10 ^ places = 2 * |d.mag * 10 ^ places - (decRescale places d : ℚ)| := by
      rw [← hm, ← sub_mul, abs_mul, abs_of_pos hp, mul_assoc]
      congr 2
      unfold Literal.value
      rw [hdv, hsg, ← mul_sub, abs_mul]
      cases d.neg <;> simp
    rw [hab]
    refine ⟨h1, fun h => ?_⟩
    have := h2 h
    rw [hsg]
    cases d.neg <;> simp <;> omega

theorem typeable_lit {l : Literal} (h : Printed l) : typeableReal l.render = l.calc := by
  unfold typeableReal
  rw [replace_keys, keys_lit h, sqrtSub_none (lit_no_root h), lit_squash h]

theorem value_magnitude (l : Literal) : |l.value| = l.magnitude := by
  have h0 : 0 ≤ l.magnitude := mul_nonneg (by positivity) (ten_zpow_pos _).le
  rw [Literal.value, abs_mul, abs_of_nonneg h0]
  unfold Literal.sgn; split <;> simp

/-- A literal of at most 14 digits loads as its value. -/
theorem load_short {l : Literal} (hv : l.Valid) (hz : l.NoLeadingZeros) {s : Str} (hs : squash s = l.render) {n : Nat} {k : Int}
    (hmag : l.magnitude = (n : ℚ) * 10 ^ k) (hn : n < 10 ^ 14) (hr : l.magnitude = 0 ∨ InExponentRange l.magnitude)
    (b0 : UInt8) (rest : Bytes) (hl : rest.length = 8) :
    ∃ b' c e, realLoadString s ⟨true, b0 :: rest⟩ = ⟨.ok (), ⟨true, b'⟩, []⟩ ∧ b'.length = 9 ∧
      realDecimal ⟨true, b'⟩ = .ok (c, e) ∧ (c : ℚ) * 10 ^ e = l.value := by
  obtain ⟨g0, g1, -⟩ := C15_load_decimal l hv hz s hs b0 rest hl
  rcases hr with hr | hr
  · obtain ⟨b', h1, h2, h3, -⟩ := g0 hr
    exact ⟨b', 0, -13, h1, h2, h3, by rw [Literal.value, hr]; simp⟩
  · obtain ⟨b', m, e, h1, h2, h3, h4, -, -⟩ := g1 hr
    refine ⟨b', _, e, h1, h2, h4, ?_⟩
    have hex : l.magnitude = (m : ℚ) * 10 ^ e := by
      obtain ⟨g1, g2, g3, g4⟩ := h3
      by_cases hje : e ≤ k
      · have : l.magnitude = ((n * 10 ^ (k - e).toNat : Nat) : ℚ) * 10 ^ e := by
          rw [hmag]
          nth_rewrite 1 [show k = ((k - e).toNat : Int) + e by omega]
          rw [ten_zpow_add, zpow_natCast]
          push_cast
          ring
        rw [this] at g3 g4 ⊢
        have hp := ten_zpow_pos e
        have a := le_of_mul_le_mul_right g3 hp
        have b := lt_of_mul_lt_mul_right g4 hp.le
        have a' : m ≤ n * 10 ^ (k - e).toNat := by exact_mod_cast a
        have b' : n * 10 ^ (k - e).toNat < m + 1 := by exact_mod_cast b
        rw [show n * 10 ^ (k - e).toNat = m by omega]
      · exfalso
        have l1 : (10 : ℚ) ^ (13 + e) ≤ (n : ℚ) * 10 ^ k := by
          rw [← hmag]; exact (truncates14_bounds ⟨g1, g2, g3, g4⟩).1
        have l2 : (10 : ℚ) ^ (14 + k) ≤ 10 ^ (13 + e) := ten_zpow_le.mpr (by omega)
        have l3 := le_trans l2 l1
        rw [ten_zpow_add] at l3
        have l4 := le_of_mul_le_mul_right l3 (ten_zpow_pos _)
        rw [show (14 : Int) = ((14 : Nat) : Int) from rfl, zpow_natCast] at l4
        have : 10 ^ 14 ≤ n := by exact_mod_cast l4
        omega
    rw [Literal.value, hex]; push_cast; ring

/-- The rounded number has at most 14 digits. -/
theorem rescale_lt {places : Nat} {d : PyDec} (h : |d.value| * 10 ^ places ≤ 10 ^ 14 - 1) : decRescale places d < 10 ^ 14 := by
  obtain ⟨h1, -⟩ := decRescale_spec places d
  have hv : |d.value| = d.mag := by
    have h0 : 0 ≤ d.mag := mul_nonneg (by positivity) (ten_zpow_pos _).le
    rw [show d.value = ((if d.neg then -1 else 1 : Int) : ℚ) * d.mag from rfl, abs_mul, abs_of_nonneg h0]
    cases d.neg <;> simp
  rw [hv] at h
  have h2 := (abs_le.1 (show |d.mag * 10 ^ places - (decRescale places d : ℚ)| ≤ 1 / 2 by linarith)).1
  have h3 : (decRescale places d : ℚ) < 10 ^ 14 := by linarith
  exact_mod_cast h3

theorem fixedLit_range {places : Nat} {d : PyDec} (hp : places ≤ 128) (hn : decRescale places d < 10 ^ 14) :
    (fixedLit places d).magnitude = 0 ∨ InExponentRange (fixedLit places d).magnitude := by
  rw [fixedLit_magnitude]
  by_cases h : decRescale places d = 0
  · left; rw [h]; simp
  · right
    have h1 : (1 : ℚ) ≤ (decRescale places d : ℚ) := by exact_mod_cast Nat.one_le_iff_ne_zero.2 h
    have h2 : (decRescale places d : ℚ) < (10 : ℚ) ^ (14 : Int) := by
      rw [show (14 : Int) = ((14 : Nat) : Int) from rfl, zpow_natCast]; exact_mod_cast hn
    have h3 := ten_zpow_pos (-(places : Int))
    constructor
    · calc (10 : ℚ) ^ (-128 : Int) ≤ 10 ^ (-(places : Int)) := ten_zpow_le.2 (by omega)
        _ = 1 * 10 ^ (-(places : Int)) := (one_mul _).symm
        _ ≤ _ := mul_le_mul_of_nonneg_right h1 h3.le
    · calc (decRescale places d : ℚ) * 10 ^ (-(places : Int)) < (10 : ℚ) ^ (14 : Int) * 10 ^ (-(places : Int)) := mul_lt_mul_of_pos_right h2 h3
        _ = 10 ^ (14 + -(places : Int)) := (ten_zpow_add _ _).symm
        _ ≤ _ := ten_zpow_le.2 (by omega)

theorem realPartDecimal_mutable (c : Cls) (k : Bool) (b : Bytes) : realPartDecimal c ⟨k, b⟩ = realPartDecimal c ⟨true, b⟩ := by
  cases c <;> rfl

theorem elemFixed_same (places : Nat) {x y : Ent} (h : SameNumber x y) : elemFixed places x = elemFixed places y := by
  have hv : ∀ {α : Type} (v : View α), viewGet v x = viewGet v y := by
    intro α v
    unfold viewGet View.get
    rw [h.2]
  have hp : complexParts' x = complexParts' y := by
    unfold complexParts' getReal getImag realClass imagClass
    simp only [hv]
  have hd : realPartDecimal y.cls x.body = realPartDecimal y.cls y.body := by
    rw [realPartDecimal_mutable _ x.body.mutable, realPartDecimal_mutable _ y.body.mutable, h.2]
  unfold elemFixed
  rw [h.1, hp, hd]

theorem elemFixedTypeable_same (places : Nat) {x y : Ent} (h : SameNumber x y) : elemFixedTypeable places x = elemFixedTypeable places y := by
  unfold elemFixedTypeable
  rw [elemFixed_same places h, h.1]

theorem mapE_related {f : Ent → Except PyErr Str} (hf : ∀ {x y : Ent}, SameNumber x y → f x = f y) {l es : List Ent} {ts : List Str}
    (h1 : List.Forall₂ (fun x t => f x = .ok t) l ts) (h2 : List.Forall₂ SameNumber l es) : mapE f es = .ok ts := by
  induction h1 generalizing es with
  | nil => cases h2; rfl
  | cons ha _ ih =>
    cases h2 with
    | cons hb ht =>
      rw [mapE, ← hf hb, ha, ih ht]

theorem mapE_rows {f : Ent → Except PyErr Str} (hf : ∀ {x y : Ent}, SameNumber x y → f x = f y) {l es : List (List Ent)} {ts : List (List Str)}
    (h1 : List.Forall₂ (List.Forall₂ fun x t => f x = .ok t) l ts) (h2 : List.Forall₂ (List.Forall₂ SameNumber) l es) :
    mapE (mapE f) es = .ok ts := by
  induction h1 generalizing es with
  | nil => cases h2; rfl
  | cons ha _ ih =>
    cases h2 with
    | cons hb ht =>
      rw [mapE, mapE_related hf ha hb, ih ht]

theorem lit_render {l : Literal} (h : Printed l) : l.render = l.sign.str ++ l.int ++ l.fracStr := by
  unfold Literal.render Literal.expStr
  rw [h.exp, List.append_nil]

theorem flatMap_fix {a : Char} {new s : Str} (h : a ∉ s) : replaceStr [a] new s = s := by
  rw [replaceStr_single, flatMap_replace_of_not_mem h]

theorem render_no {l : Literal} (h : Printed l) {c : Char} (hc : isDig c = false) (hd : c ≠ '.') (hm : c ≠ '-') : c ∉ l.render := by
  rw [lit_render h]
  have hf : c ∉ l.fracStr := by
    unfold Literal.fracStr
    rcases hfr : l.frac with _ | f
    · simp
    · simp [hd, digit_not (h.valid.2.1 f hfr) hc]
  have hs : c ∉ l.sign.str := by
    rcases h.sign with e | e <;> rw [e] <;> simp [Sign.str, hm]
  simp [hs, hf, digit_not h.valid.1 hc]

/-- The minus of a printed literal is typed as `~`. -/
theorem replace_minus {l : Literal} (h : Printed l) : replaceStr ['-'] ['~'] l.render = l.calc := by
  rw [calc_lit h, lit_render h, replaceStr_single, List.flatMap_append, List.flatMap_append,
    flatMap_replace_of_not_mem (digit_not h.valid.1 (by decide)), flatMap_replace_of_not_mem (printed_frac h.valid).1]
  rcases h.sign with e | e <;> rw [e] <;> rfl

/-- The text of a complex number with a fixed number of decimals, for typing. -/
theorem typeable_parts {l l' : Literal} (h : Printed l) (h' : Printed l') (s : Bool) :
    typeableComplex (l.render ++ (if s then [] else ['+']) ++ l'.render ++ ['j']) = l.calc ++ (if s then [] else ['+']) ++ l'.calc ++ ['j'] := by
  unfold typeableComplex
  have hi : 'i' ∉ l.render ++ (if s then [] else ['+']) ++ l'.render ++ ['j'] := by
    have h1 := render_no h (c := 'i') (by decide) (by decide) (by decide)
    have h2 := render_no h' (c := 'i') (by decide) (by decide) (by decide)
    cases s <;> simp [h1, h2]
  rw [flatMap_fix hi, replaceStr_single, List.flatMap_append, List.flatMap_append, List.flatMap_append, ← replaceStr_single, ← replaceStr_single,
    ← replaceStr_single, ← replaceStr_single, replace_minus h, replace_minus h', squash_append, squash_append, squash_append, lit_squash h, lit_squash h']
  cases s <;> rfl

theorem calc_no {l : Literal} (h : l.Valid) (he : l.exp = none) {c : Char} (hc : isDig c = false) (hd : c ≠ '.') (hm : c ≠ '~') (hq : c ≠ '+') :
    c ∉ l.calc := by
  have hl : l.calc = l.sign.calc ++ l.int ++ l.fracStr := by
    unfold Literal.calc
    rw [he]; simp
  rw [hl]
  have hf : c ∉ l.fracStr := by
    unfold Literal.fracStr
    rcases hfr : l.frac with _ | f
    · simp
    · simp [hd, digit_not (h.2.1 f hfr) hc]
  have hs : c ∉ l.sign.calc := by
    cases l.sign <;> simp [Sign.calc, hm, hq]
  simp [hs, hf, digit_not h.1 hc]

theorem floatFormat_lit (places : Nat) (x : PyFloat) : ∃ l : Literal, floatFormat places x = l.render ∧ Printed l ∧ l.fracDigits.length = places ∧
    (l.frac = none ↔ places = 0) ∧ l.sign = (if x.neg then .minus else .none) ∧ RoundsAt places (floatValue x) l.value := by
  refine ⟨fixedLit places (decOfFloat x.neg x.m x.q), (fixedLit_render _ _).symm, fixedLit_printed _ _, (fixedLit_frac _ _).1, ?_, ?_, ?_⟩
  · simp only [fixedLit]
    by_cases h : places = 0 <;> simp [h]
  · have : (decOfFloat x.neg x.m x.q).neg = x.neg := by unfold decOfFloat; split <;> rfl
    simp only [fixedLit, this]
  · have := fixedLit_rounds places (decOfFloat x.neg x.m x.q)
    rwa [decOfFloat_value] at this

theorem zeroSigns_value (x y : PyFloat) : floatValue (zeroSigns x y).1 = floatValue x ∧ floatValue (zeroSigns x y).2 = floatValue y := by
  unfold zeroSigns floatValue
  constructor
  · by_cases h : x.m = 0 <;> simp [h]
  · by_cases h : y.m = 0 <;> simp [h]

end Verif
