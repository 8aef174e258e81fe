import Verif.Model.RealText
import Verif.Proofs.FractionLoad

/-! The text of real numbers. -/

namespace Verif

open Spec

theorem rstrip_keep (cs : List Char) (a f : Str) (c : Char) (hc : c ∉ cs) :
    rstripChars cs (a ++ c :: f) = a ++ c :: rstripChars cs f := by
  have hb : cs.contains c = false := by simpa using hc
  unfold rstripChars
  rw [List.reverse_append, List.reverse_cons, List.append_assoc]
  have : ∀ g : Str, (g ++ ([c] ++ a.reverse)).dropWhile (cs.contains ·) =
      g.dropWhile (cs.contains ·) ++ ([c] ++ a.reverse) := by
    intro g
    induction g with
    | nil => simp [hc]
    | cons d ds ih =>
      rw [List.cons_append, List.dropWhile_cons, List.dropWhile_cons, ih]
      split <;> simp
  rw [this, List.reverse_append]
  simp

theorem rstrip_single (c : Char) (f : Str) : ∃ k, f = rstripChars [c] f ++ List.replicate k c := by
  have : ∀ g : Str, ∃ k, g = List.replicate k c ++ g.dropWhile ([c].contains ·) := by
    intro g
    induction g with
    | nil => exact ⟨0, rfl⟩
    | cons d ds ih =>
      rw [List.dropWhile_cons]
      split
      · next h =>
        obtain ⟨k, hk⟩ := ih
        refine ⟨k + 1, ?_⟩
        have : d = c := by simpa using h
        rw [List.replicate_succ, List.cons_append, ← hk, this]
      · exact ⟨0, rfl⟩
  obtain ⟨k, hk⟩ := this f.reverse
  refine ⟨k, ?_⟩
  unfold rstripChars
  rw [← List.reverse_replicate (n := k) (a := c), ← List.reverse_append, ← hk, List.reverse_reverse]

theorem rstrip_last (c : Char) (f : Str) : (rstripChars [c] f).getLast? ≠ some c := by
  unfold rstripChars
  rw [List.getLast?_reverse]
  intro h
  have := List.head?_dropWhile_not ([c].contains ·) f.reverse
  rw [h] at this
  simp at this

/-- The integer part printed. -/
def fixInt (places n : Nat) : Str :=
  (List.replicate (places + 1 - (natRepr n).length) '0' ++ natRepr n).take
    ((List.replicate (places + 1 - (natRepr n).length) '0' ++ natRepr n).length - places)

/-- The decimals printed. -/
def fixFrac (places n : Nat) : Str :=
  (List.replicate (places + 1 - (natRepr n).length) '0' ++ natRepr n).drop
    ((List.replicate (places + 1 - (natRepr n).length) '0' ++ natRepr n).length - places)

theorem fix_spec (places n : Nat) :
    (fixInt places n).all isDig = true ∧ (fixFrac places n).all isDig = true ∧ (fixFrac places n).length = places ∧
    fixInt places n ≠ [] ∧ natVal (fixInt places n ++ fixFrac places n) = n ∧
    (natVal (fixInt places n) = 0 ∨ (fixInt places n).head? ≠ some '0') := by
  obtain ⟨h1, h2, h3⟩ := natRepr_spec n
  have hl : 0 < (natRepr n).length := List.length_pos_iff.mpr h3
  have hall : (List.replicate (places + 1 - (natRepr n).length) '0' ++ natRepr n).all isDig = true := by
    rw [List.all_append, h1, Bool.and_true, List.all_eq_true]
    intro c hc; rw [List.eq_of_mem_replicate hc]; decide
  have hsub : ∀ t : Str, (∀ c ∈ t, c ∈ List.replicate (places + 1 - (natRepr n).length) '0' ++ natRepr n) → t.all isDig = true := by
    intro t ht
    rw [List.all_eq_true] at hall ⊢
    exact fun c hc => hall c (ht c hc)
  refine ⟨hsub _ (fun c hc => List.take_subset _ _ hc), hsub _ (fun c hc => List.drop_subset _ _ hc), ?_, ?_, ?_, ?_⟩
  · unfold fixFrac
    rw [List.length_drop, List.length_append, List.length_replicate]; omega
  · unfold fixInt
    intro h
    rw [List.take_eq_nil_iff, List.append_eq_nil_iff] at h
    rcases h with h | h
    · rw [List.length_append, List.length_replicate] at h; omega
    · exact h3 h.2
  · unfold fixInt fixFrac
    rw [List.take_append_drop, natVal_append, natVal_replicate_zero, h2]; simp
  · unfold fixInt
    by_cases hp : (natRepr n).length ≤ places
    · left
      have e1 : (List.replicate (places + 1 - (natRepr n).length) '0' ++ natRepr n).length - places = 1 := by
        rw [List.length_append, List.length_replicate]; omega
      obtain ⟨k, hk⟩ : ∃ k, places + 1 - (natRepr n).length = k + 1 := ⟨places - (natRepr n).length, by omega⟩
      rw [e1, hk, List.replicate_succ]
      rfl
    · have e1 : places + 1 - (natRepr n).length = 0 := by omega
      rw [e1, List.replicate_zero, List.nil_append]
      by_cases hn : n = 0
      · left
        subst hn
        rw [show natRepr 0 = ['0'] by decide] at hp ⊢
        have : places = 0 := by simp at hp; omega
        subst this; decide
      · right
        have := natRepr_head n hn
        rw [List.head?_take]
        split
        · simp
        · exact this

/-- The literal printed. -/
def plainLit (d : PyDec) : Literal where
  sign := if d.neg then .minus else .none
  int := fixInt 14 (decRescale 14 d)
  frac := if rstripChars ['0'] (fixFrac 14 (decRescale 14 d)) = [] then none
    else some (rstripChars ['0'] (fixFrac 14 (decRescale 14 d)))
  exp := none

theorem plainLit_render (d : PyDec) : (plainLit d).render = plainStr d := by
  obtain ⟨h1, h2, h3, h4, -, -⟩ := fix_spec 14 (decRescale 14 d)
  have hs : decFixed 14 d = ((if d.neg then ['-'] else []) ++ fixInt 14 (decRescale 14 d)) ++
      '.' :: fixFrac 14 (decRescale 14 d) := by
    unfold decFixed fixInt fixFrac
    simp only [List.append_assoc]
  have hsg : (if d.neg = true then Sign.minus else Sign.none).str = if d.neg = true then ['-'] else [] := by
    cases d.neg <;> rfl
  unfold plainStr
  rw [hs, rstrip_keep _ _ _ _ (by decide)]
  simp only [Literal.render, Literal.fracStr, Literal.expStr, plainLit, List.append_nil, hsg]
  generalize hF : rstripChars ['0'] (fixFrac 14 (decRescale 14 d)) = F
  have hFd : ∀ c ∈ F, isDig c = true := by
    intro c hc
    obtain ⟨k, hk⟩ := rstrip_single '0' (fixFrac 14 (decRescale 14 d))
    rw [hF] at hk
    exact List.all_eq_true.mp h2 c (by rw [hk]; exact List.mem_append_left _ hc)
  have hlast : ∀ (a : Str) (c : Char), isDig c = true → rstripChars ['.'] (a ++ [c]) = a ++ [c] := by
    intro a c hc
    rw [rstrip_keep _ _ _ _ (by rintro h; rw [List.mem_singleton] at h; subst h; revert hc; decide)]
    rfl
  by_cases hFe : F = []
  · subst hFe
    simp only [if_true, List.append_nil]
    obtain ⟨I, c, hI⟩ : ∃ I c, fixInt 14 (decRescale 14 d) = I ++ [c] :=
      ⟨_, _, (List.dropLast_concat_getLast h4).symm⟩
    have hc : isDig c = true := List.all_eq_true.mp h1 c (by rw [hI]; simp)
    have hd : c ∉ ['.'] := by rintro h; rw [List.mem_singleton] at h; subst h; revert hc; decide
    rw [hI]
    have := rstrip_keep ['.'] ((if d.neg = true then ['-'] else []) ++ I) ['.'] c hd
    rw [show rstripChars ['.'] ['.'] = [] by decide] at this
    simpa using this.symm
  · rw [if_neg hFe]
    obtain ⟨G, c, hG⟩ : ∃ G c, F = G ++ [c] := ⟨_, _, (List.dropLast_concat_getLast hFe).symm⟩
    have hc : isDig c = true := hFd c (by rw [hG]; simp)
    have := hlast ((if d.neg = true then ['-'] else []) ++ fixInt 14 (decRescale 14 d) ++ '.' :: G) c hc
    rw [hG]
    simpa using this.symm

theorem plainLit_valid (d : PyDec) : (plainLit d).Valid := by
  obtain ⟨h1, h2, h3, h4, -, -⟩ := fix_spec 14 (decRescale 14 d)
  refine ⟨(digits_iff _).mp h1, ?_, by intro m s x h; cases h⟩
  intro f hf
  simp only [plainLit] at hf
  split at hf
  · cases hf
  · cases hf
    rw [← digits_iff]
    obtain ⟨k, hk⟩ := rstrip_single '0' (fixFrac 14 (decRescale 14 d))
    rw [List.all_eq_true] at h2 ⊢
    intro c hc
    exact h2 c (by rw [hk]; exact List.mem_append_left _ hc)

theorem plainLit_noLeading (d : PyDec) : (plainLit d).NoLeadingZeros := by
  obtain ⟨-, -, -, -, -, h⟩ := fix_spec 14 (decRescale 14 d)
  rcases h with h | h
  · left; rw [digitsValue_eq]; exact h
  · right; exact h

theorem plainLit_magnitude (d : PyDec) : (plainLit d).magnitude * 10 ^ 14 = (decRescale 14 d : ℚ) := by
  obtain ⟨-, -, h3, -, h5, -⟩ := fix_spec 14 (decRescale 14 d)
  obtain ⟨k, hk⟩ := rstrip_single '0' (fixFrac 14 (decRescale 14 d))
  have hfd : (plainLit d).fracDigits = rstripChars ['0'] (fixFrac 14 (decRescale 14 d)) := by
    simp only [Literal.fracDigits, plainLit]
    split
    · next h => rw [h]; rfl
    · rfl
  unfold Literal.magnitude Literal.coeff Literal.scale Literal.expValue
  rw [hfd, digitsValue_eq]
  generalize rstripChars ['0'] (fixFrac 14 (decRescale 14 d)) = F at *
  simp only [plainLit]
  have hlen : F.length + k = 14 := by rw [← h3, hk]; simp
  rw [hk, ← List.append_assoc, natVal_append, natVal_replicate_zero, List.length_replicate] at h5
  have h6 : ((natVal (fixInt 14 (decRescale 14 d) ++ F) * 10 ^ k + 0 : Nat) : ℚ) = (decRescale 14 d : ℚ) := by
    exact_mod_cast h5
  rw [← h6]
  push_cast
  rw [add_zero, mul_assoc]
  congr 1
  rw [show (0 : Int) - (F.length : Int) = (k : Int) - ((14 : Nat) : Int) by omega, sub_eq_add_neg, ten_zpow_add,
    zpow_neg, zpow_natCast, zpow_natCast, mul_assoc, inv_mul_cancel₀ (by positivity), mul_one]

theorem decRescale_spec (places : Nat) (d : PyDec) :
    2 * |d.mag * 10 ^ places - (decRescale places d : ℚ)| ≤ 1 ∧
    (2 * |d.mag * 10 ^ places - (decRescale places d : ℚ)| = 1 → decRescale places d % 2 = 0) := by
  have hm : d.mag * 10 ^ places = d.coeff * (10 : ℚ) ^ (d.exp + places) := by
    unfold PyDec.mag; rw [ten_zpow_add, zpow_natCast, mul_assoc]
  rw [hm]
  unfold decRescale
  by_cases h : 0 ≤ d.exp + places
  · rw [if_pos h]
    obtain ⟨j, hj⟩ := Int.eq_ofNat_of_zero_le h
    rw [hj]
    simp
  · rw [if_neg h]
    obtain ⟨k, hk⟩ := Int.eq_ofNat_of_zero_le (show 0 ≤ -(d.exp + places) by omega)
    have he : d.exp + places = -(k : Int) := by omega
    simp only [hk, Int.toNat_natCast]
    have hp : 0 < 10 ^ k := Nat.pow_pos (by norm_num)
    have hdm := Nat.div_add_mod d.coeff (10 ^ k)
    have hlt := Nat.mod_lt d.coeff hp
    generalize hhi : d.coeff / 10 ^ k = hi at *
    generalize hlo : d.coeff % 10 ^ k = lo at *
    have hpq : (0 : ℚ) < 10 ^ k := by positivity
    have hx : (d.coeff : ℚ) * 10 ^ (d.exp + places) = hi + lo / 10 ^ k := by
      rw [he, zpow_neg, zpow_natCast, ← hdm]; push_cast; field_simp
    rw [hx]
    by_cases hc : 10 ^ k < 2 * lo ∨ (2 * lo = 10 ^ k ∧ hi % 2 = 1)
    · rw [if_pos hc]
      have e1 : (hi : ℚ) + lo / 10 ^ k - ((hi + 1 : Nat) : ℚ) = -((10 ^ k - lo) / 10 ^ k) := by
        push_cast; field_simp; ring
      have h0 : (0 : ℚ) ≤ (10 ^ k - lo) / 10 ^ k := by
        apply div_nonneg _ hpq.le
        rw [sub_nonneg]; exact_mod_cast hlt.le
      rw [e1, abs_neg, abs_of_nonneg h0, ← mul_div_assoc, div_le_one hpq, div_eq_one_iff_eq hpq.ne']
      have h2 : ((10 : ℚ) ^ k) ≤ 2 * lo := by
        rcases hc with hc | hc
        · exact_mod_cast hc.le
        · exact_mod_cast hc.1.ge
      constructor
      · linarith
      · intro h3
        have : (2 * lo : ℚ) = 10 ^ k := by linarith
        have : 2 * lo = 10 ^ k := by exact_mod_cast this
        rcases hc with hc | hc <;> omega
    · rw [if_neg hc]
      have h0 : (0 : ℚ) ≤ lo / 10 ^ k := by positivity
      rw [add_sub_cancel_left, abs_of_nonneg h0, ← mul_div_assoc, div_le_one hpq, div_eq_one_iff_eq hpq.ne']
      have hc1 : 2 * lo ≤ 10 ^ k := by omega
      constructor
      · exact_mod_cast hc1
      · intro h3
        have : 2 * lo = 10 ^ k := by exact_mod_cast h3
        omega

theorem plainLit_rounds (d : PyDec) : RoundsAt 14 d.value (plainLit d).value := by
  obtain ⟨h1, h2⟩ := decRescale_spec 14 d
  have hm := plainLit_magnitude d
  have hsg : (plainLit d).sgn = if d.neg then -1 else 1 := by
    unfold Literal.sgn; simp only [plainLit]; by_cases h : d.neg = true <;> simp [h, Sign.isNeg]
  have hdv : d.value = ((if d.neg then -1 else 1 : Int) : ℚ) * d.mag := rfl
  refine ⟨(plainLit d).sgn * (decRescale 14 d : Int), ?_, ?_⟩
  · unfold Literal.value
    rw [mul_assoc, hm]; push_cast; rfl
  · have hab : 2 * |d.value - (plainLit d).value| * 10 ^ 14 = 2 * |d.mag * 10 ^ 14 - (decRescale 14 d : ℚ)| := by
      rw [← hm, ← sub_mul, abs_mul, abs_of_pos (show (0 : ℚ) < 10 ^ 14 by norm_num), mul_assoc]
      congr 2
      unfold Literal.value
      rw [hdv, hsg, ← mul_sub, abs_mul]
      cases d.neg <;> simp
    rw [hab]
    refine ⟨h1, fun h => ?_⟩
    have := h2 h
    rw [hsg]
    cases d.neg <;> simp <;> omega

theorem roundsAt_exact {places : Nat} {v x : ℚ} (h : RoundsAt places v x) {n : Int} (hn : v * 10 ^ places = n) :
    x = v := by
  obtain ⟨m, hm, h1, -⟩ := h
  have hp : (0 : ℚ) < 10 ^ places := by positivity
  have h2 : 2 * |((n - m : Int) : ℚ)| ≤ 1 := by
    have : (((n - m : Int)) : ℚ) = (v - x) * 10 ^ places := by push_cast; rw [sub_mul, hn, hm]
    rw [this, abs_mul, abs_of_pos hp, ← mul_assoc]; exact h1
  have h3 : 2 * |n - m| ≤ 1 := by exact_mod_cast h2
  have h4 : n = m := by
    have h5 := abs_nonneg (n - m)
    have h6 : |n - m| = 0 := by omega
    have := abs_eq_zero.mp h6
    omega
  rw [h4, ← hm] at hn
  exact (mul_right_cancel₀ hp.ne' hn).symm

/-- What a number reads as is bounded by its digits and its exponent byte. -/
theorem realDecimal_bounds {b : Bytes} (hb : b.length = 9) (hd : AllDigits (b.drop 2)) {c e : Int} {k : Bool}
    (hr : realDecimal ⟨k, b⟩ = .ok (c, e)) : c.natAbs < 10 ^ 14 ∧ -141 ≤ e ∧ e ≤ 114 := by
  match b, hb with
  | b0 :: b1 :: rest, hb =>
    have hl : rest.length = 7 := by simpa using hb
    simp only [List.drop_succ_cons, List.drop_zero] at hd
    have hlt : bcdGet rest < 10 ^ 14 := by
      rw [← List.reverse_reverse rest, bcdGet_reverse]
      have := bcdLE_lt ((allDigits_reverse rest).mpr hd)
      rw [List.length_reverse, hl] at this
      exact lt_of_lt_of_eq this (by norm_num)
    simp only [realDecimal, realSign, sign_get _ _ _ _ hl, exponent_get _ _ _ _ hl,
      mantissa_get _ _ _ _ hl, exceptOk_bind, Except.ok.injEq, Prod.mk.injEq] at hr
    obtain ⟨hc, he⟩ := hr
    have hb1 := b1.toNat_lt
    refine ⟨?_, by omega, by omega⟩
    rw [← hc]
    generalize bcdGet rest = m at *
    split <;> simp <;> omega

/-- Loading a literal of a 14-digit value into any number. -/
theorem realLoad_exact {l : Literal} (hv : l.Valid) (hz : l.NoLeadingZeros) {s : Str} (hs : squash s = l.render)
    {c e : Int} (hval : l.value = (c : ℚ) * 10 ^ e) (h1 : 10 ^ 13 ≤ c.natAbs) (h2 : c.natAbs < 10 ^ 14)
    (h3 : -141 ≤ e) (h4 : e ≤ 114) (b0 : UInt8) (rest : Bytes) (hl : rest.length = 8) :
    ∃ b', realLoadString s ⟨true, b0 :: rest⟩ = ⟨.ok (), ⟨true, b'⟩, []⟩ ∧ b'.length = 9 ∧
      realDecimal ⟨true, b'⟩ = .ok (c, e) ∧ (b'.headD 0).toNat % 128 = b0.toNat % 128 := by
  have hp := ten_zpow_pos e
  have hmag0 : 0 ≤ l.magnitude := mul_nonneg (by positivity) (ten_zpow_pos _).le
  have hcq : ((10 ^ 13 : Nat) : ℚ) ≤ (c.natAbs : ℚ) := by exact_mod_cast h1
  have habs : |(c : ℚ)| = c.natAbs := by rw [Nat.cast_natAbs, Int.cast_abs]
  have hmag : l.magnitude = (c.natAbs : ℚ) * 10 ^ e := by
    have := congrArg abs hval
    rw [Literal.value, abs_mul, abs_mul, abs_of_nonneg hmag0, abs_of_pos hp, habs] at this
    rw [← this]
    unfold Literal.sgn; split <;> simp
  have hsg : (if l.sign.isNeg = true then -1 else 1) * (c.natAbs : Int) = c := by
    have hpos : (0 : ℚ) < l.magnitude := by rw [hmag]; apply mul_pos _ hp; push_cast at hcq ⊢; linarith
    rw [Literal.value, Literal.sgn] at hval
    rcases lt_trichotomy c 0 with h | h | h
    · have : (c : ℚ) * 10 ^ e < 0 := mul_neg_of_neg_of_pos (by exact_mod_cast h) hp
      split at hval
      · next hs => rw [if_pos hs]; omega
      · push_cast at hval; linarith
    · subst h; simp at h1
    · have : (0 : ℚ) < (c : ℚ) * 10 ^ e := mul_pos (by exact_mod_cast h) hp
      split at hval
      · push_cast at hval; linarith
      · next hs => rw [if_neg hs]; omega
  have ht : Truncates14 l.magnitude c.natAbs e := by
    refine ⟨h1, h2, hmag.ge, ?_⟩
    rw [hmag]; nlinarith
  have hrange : InExponentRange l.magnitude := (truncates14_range ht).mpr (by omega)
  refine ⟨_, realLoad_value hv hs hz ht hrange b0 rest hl, by simp, ?_, ?_⟩
  · rw [realDecimal_realBytes _ _ _ _ (by omega) h2, hsg]
    congr 2
    omega
  · have := head_realBytes b0 l.sign.isNeg (e + 13 + 0x80).toNat c.natAbs
    simpa [realBytes] using this

/-- The literal of a zero. -/
def zeroLit : Literal := ⟨.none, ['0'], none, none⟩

theorem zeroLit_valid : zeroLit.Valid := by
  refine ⟨(digits_iff _).mp (by decide), ?_, ?_⟩
  · intro f h; cases h
  · intro m s x h; cases h

theorem zeroLit_magnitude : zeroLit.magnitude = 0 := by
  rw [magnitude_eq_zero]; decide

end Verif
