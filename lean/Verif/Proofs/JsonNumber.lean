import Verif.Proofs.FloatText
import Verif.Proofs.StoredNumber
import Verif.Proofs.FractionLoad
import Verif.Spec.JsonNumber
import Verif.Props.Real
import Verif.Proofs.ComplexNumber
import Verif.Proofs.Construct

/-! Numbers through JSON. -/

namespace Verif
open Spec Ent

theorem tidy_shape {b : Bytes} (h : Tidy b) : ∃ (b0 b1 : UInt8) (rest : Bytes), b = b0 :: b1 :: rest ∧ rest.length = 7 ∧
    (b0 = 0x00 ∨ b0 = 0x80) := by
  match b, h.length, h.head with
  | b0 :: b1 :: rest, hl, hh => exact ⟨b0, b1, rest, rfl, by simpa using hl, by simpa using hh⟩

theorem nibbles_lower (x : UInt8) (xs : Bytes) (hx : 16 ≤ x.toNat) : 10 ^ (2 * xs.length + 1) ≤ decimalValue (nibbles (x :: xs)) := by
  have gen : ∀ (ys : Bytes) (a k : Nat), 10 ^ k ≤ a →
      10 ^ (k + 2 * ys.length) ≤ (nibbles ys).foldl (fun acc x => 10 * acc + x) a := by
    intro ys
    induction ys with
    | nil => intro a k h; simpa [nibbles] using h
    | cons y ys ih =>
      intro a k h
      simp only [nibbles, List.foldl_cons, List.length_cons]
      have := ih (10 * (10 * a + y.toNat / 16) + y.toNat % 16) (k + 2) (by rw [pow_add]; omega)
      refine le_trans (le_of_eq ?_) this
      congr 1; omega
  unfold decimalValue
  simp only [nibbles, List.foldl_cons]
  have := gen xs (10 * (10 * 0 + x.toNat / 16) + x.toNat % 16) 1 (by omega)
  refine le_trans (le_of_eq ?_) this
  congr 1; omega

/-- Reading the bytes as a decimal number. -/
theorem stored_real {b : Bytes} (hb : b.length = 9) : ∃ c e : Int, realDecimal ⟨true, b⟩ = .ok (c, e) ∧
    (c : ℚ) * 10 ^ e = storedNumber b ∧ c.natAbs = decimalValue (nibbles (b.drop 2)) := by
  match b, hb with
  | b0 :: b1 :: rest, hb =>
    have hl : rest.length = 7 := by simpa using hb
    refine ⟨(if ((b0.toNat / 128 : Nat) : Int) ≠ 0 then -1 else 1) * (bcdGet rest : Int), (b1.toNat : Int) - 128 - 13, by simp only [realDecimal, realSign, sign_get _ _ _ _ hl, exponent_get _ _ _ _ hl, mantissa_get _ _ _ _ hl, exceptOk_bind], ?_, ?_⟩
    · unfold storedNumber
      simp only [List.getD_cons_zero, List.getD_cons_succ, List.drop_succ_cons, List.drop_zero]
      rw [← bcdGet_spec]
      have hsgn : ((b0.toNat / 128 : Nat) : Int) ≠ 0 ↔ 128 ≤ b0.toNat := by omega
      by_cases hs : 128 ≤ b0.toNat
      · rw [if_pos (hsgn.2 hs), if_pos hs]; push_cast; ring
      · rw [if_neg (fun h => hs (hsgn.1 h)), if_neg hs]; push_cast; ring
    · simp only [List.drop_succ_cons, List.drop_zero]
      rw [← bcdGet_spec]
      split <;> omega

theorem stored_zero : storedNumber (0x00 :: 0x80 :: List.replicate 7 0x00) = 0 := by
  unfold storedNumber
  have : decimalValue (nibbles ((0x00 :: 0x80 :: List.replicate 7 0x00 : Bytes).drop 2)) = 0 := by decide +kernel
  rw [this]
  simp

theorem normal_ne {b : Bytes} (h : Tidy b) (hn : 16 ≤ (b.getD 2 0).toNat) : 10 ^ 13 ≤ decimalValue (nibbles (b.drop 2)) := by
  match b, h.length, hn with
  | b0 :: b1 :: b2 :: rest, hl, hn =>
    have hl : rest.length = 6 := by simpa using hl
    have := nibbles_lower b2 rest (by simpa using hn)
    rw [hl] at this
    simpa using this

/-- Loading any literal of the stored number into a new `TIReal` gives the stored bytes. -/
theorem load_tidy {b : Bytes} (h : Tidy b) {l : Literal} (hv : l.Valid) (hz : l.NoLeadingZeros) (hval : l.value = storedNumber b)
    (hsg : storedNumber b = 0 → l.sign.isNeg = false) {s : Str} (hs : squash s = l.render) :
    realLoadString s ⟨true, clearFull .real⟩ = ⟨.ok (), ⟨true, b⟩, []⟩ := by
  have hclear : clearFull .real = 0x00 :: List.replicate 8 0x00 := by decide
  rw [hclear]
  rcases h.normal with hn | hzero
  · obtain ⟨c, e, hr, hce, hc⟩ := stored_real h.length
    have hc13 : 10 ^ 13 ≤ c.natAbs := hc ▸ normal_ne h hn
    have hload := C17_reload b h.length h.digits c e hr hc13 l hv hz (hval.trans hce.symm) s hs
    obtain ⟨b0, b1, rest, rfl, hl, hb0⟩ := tidy_shape h
    have hm : l.magnitude ≠ 0 := by
      intro hm
      have : (c : ℚ) * 10 ^ e = 0 := by rw [hce, ← hval, Literal.value, hm, mul_zero]
      rcases mul_eq_zero.1 this with h | h
      · have : c = 0 := by exact_mod_cast h
        rw [this] at hc13; simp at hc13
      · exact (ten_zpow_pos e).ne' h
    obtain ⟨M, x, ht, -⟩ := realParse_value l hv s hs hz hm
    have hrange : InExponentRange l.magnitude := by
      by_contra hrange
      have := (C15_load_decimal l hv hz s hs b0 (b1 :: rest) (by simpa using hl)).2.2 hm hrange
      rw [hload] at this
      exact absurd this (by simp)
    rw [realLoad_value hv hs hz ht hrange _ _ (by simpa using hl)] at hload
    rw [realLoad_value hv hs hz ht hrange _ _ (by simp)]
    have hbytes : realBytes b0 l.sign.isNeg (x + 13 + 0x80).toNat M = b0 :: b1 :: rest := by
      injection hload with _ hload _; injection hload
    rw [← hbytes]
    congr 2
    unfold realBytes
    congr 3
    rcases hb0 with rfl | rfl <;> rfl
  · rw [hzero, stored_zero] at hval
    have hm : l.magnitude = 0 := by
      rw [Literal.value] at hval
      rcases mul_eq_zero.1 hval with h | h
      · unfold Literal.sgn at h; split at h <;> simp at h
      · exact h
    rw [realLoad_zero hv hs hm _ _ (by simp), hsg (by rw [hzero, stored_zero]), hzero]
    decide +kernel

theorem floatOfDec_neg (d : PyDec) : (floatOfDec d).neg = d.neg := by
  unfold floatOfDec floatOfFrac
  split <;> rfl

/-- Loading any decimal of the stored number into a new `TIReal` gives the stored bytes. -/
theorem load_tidy_decimal {b : Bytes} (h : Tidy b) {d : PyDec} (hval : d.value = storedNumber b) (hsg : d.value = 0 → d.neg = false) :
    realLoadDecimal d ⟨true, clearFull .real⟩ = ⟨.ok (), ⟨true, b⟩, []⟩ :=
  load_tidy h (decLit_valid d) (decLit_noLeading d) ((decLit_value d).trans hval)
    (fun h0 => by rw [decLit_sign]; exact hsg (hval.trans h0)) (by rw [← decLit_render]; exact squash_render _ (decLit_valid d))

theorem short_literal {l : Literal} (hv : l.Valid) (hf : l.exp = none → l.frac ≠ none) (hlen : l.render.length ≤ 6) :
    HasDigits 5 l.value := by
  refine ⟨l.coeff, l.scale, ?_, ?_⟩
  · rw [coeff_eq, ← natVal_append]
    have hall : (l.int ++ l.fracDigits).all isDig = true := by
      rw [List.all_append, (digits_iff _).2 hv.1, Bool.true_and]
      unfold Literal.fracDigits
      cases hfr : l.frac with
      | none => rfl
      | some f => exact (digits_iff _).2 (hv.2.1 f hfr)
    refine lt_of_lt_of_le (natVal_lt hall) (Nat.pow_le_pow_right (by norm_num) ?_)
    simp only [Literal.render, List.length_append] at hlen ⊢
    have h1 : l.fracDigits.length ≤ l.fracStr.length ∧ (l.frac ≠ none → l.fracDigits.length < l.fracStr.length) := by
      unfold Literal.fracDigits Literal.fracStr
      cases l.frac <;> simp
    have h2 : l.exp ≠ none → 0 < l.expStr.length := by
      unfold Literal.expStr
      cases hx : l.exp with
      | none => simp
      | some p => obtain ⟨m, s, x⟩ := p; intro _; cases m <;> simp [Marker.str]
    by_cases hx : l.exp = none
    · have := h1.2 (hf hx); omega
    · have := h2 hx; omega
  · have h0 : 0 ≤ l.magnitude := mul_nonneg (by positivity) (ten_zpow_pos _).le
    rw [Literal.value, abs_mul, abs_of_nonneg h0]
    unfold Literal.sgn Literal.magnitude
    split <;> simp

/-- What the text of a float looks like. -/
theorem float_text (d : PyDec) (hd : d.coeff < 10 ^ 14) :
    ∃ l : Literal, l.Valid ∧ l.NoLeadingZeros ∧ l.value = d.value ∧ floatStr (floatOfDec d) = l.render ∧
      ((floatStr (floatOfDec d)).length ≤ 6 → HasDigits 5 d.value) ∧ (6 < (floatStr (floatOfDec d)).length → d.value ≠ 0) := by
  obtain ⟨l, h1, h2, h3, h4, h5⟩ := floatStr_literal d hd
  refine ⟨l, h1, h2, h3, h4, ?_, ?_⟩
  · intro hlen
    by_cases h0 : d.coeff = 0
    · refine ⟨0, 0, by norm_num, ?_⟩
      unfold PyDec.value; rw [h0]; simp
    · rw [h4] at hlen
      rw [← h3]
      exact short_literal h1 h5 hlen
  · intro hlen h0
    have hc : d.coeff = 0 := by
      unfold PyDec.value at h0
      have hp := (ten_zpow_pos d.exp).ne'
      rcases mul_eq_zero.1 h0 with h | h
      · split at h <;> simp at h
      · rcases mul_eq_zero.1 h with h | h
        · exact_mod_cast h
        · exact absurd h hp
    have hm : (floatOfDec d).m = 0 := by
      unfold floatOfDec floatOfFrac
      rw [hc, Nat.zero_mul]
      rfl
    unfold floatStr at hlen
    rw [hm, if_pos rfl] at hlen
    cases hneg : (floatOfDec d).neg <;> rw [hneg] at hlen <;> simp at hlen

/-- A number through JSON: as a string, or as a float if that is exact. -/
theorem json_tidy {b : Bytes} (h : Tidy b) : ∃ j, (∀ m, jsonNumber .real ⟨m, b⟩ = .ok j) ∧
    ((∃ s, j = .str s) ∨ HasBits 53 (storedNumber b) → loadJson j ⟨true, clearFull .real⟩ = ⟨.ok (), ⟨true, b⟩, []⟩) ∧
    (∀ x, j = .float x → HasDigits 5 (storedNumber b) ∧ NearestFloat (storedNumber b) (floatValue x)) ∧ ∀ n, j ≠ .int n := by
  obtain ⟨d, h1, h2, h3, h4⟩ := stored_decimal (c := .real) (by decide) h.length h.digits
  obtain ⟨l, l1, l2, l3, l4, l5, l6⟩ := float_text d h3
  have hf : ∀ m, realFloat .real ⟨m, b⟩ = .ok (floatOfDec d) := by intro m; unfold realFloat; rw [h1]
  refine ⟨if (floatStr (floatOfDec d)).length ≤ 6 then .float (floatOfDec d) else .str (floatStr (floatOfDec d)),
    fun m => by unfold jsonNumber; rw [hf], ?_⟩
  have hneg0 : d.value = 0 → d.neg = false := by
    intro h0
    cases hn : d.neg
    · rfl
    · have hc := h4 hn
      unfold PyDec.value at h0
      rw [hn] at h0
      rcases mul_eq_zero.1 h0 with h | h
      · simp at h
      · rcases mul_eq_zero.1 h with h | h
        · exact absurd (by exact_mod_cast h) hc
        · exact absurd h (ten_zpow_pos d.exp).ne'
  split
  · rename_i hlen
    refine ⟨?_, ?_, by simp⟩
    · rintro (⟨s, hs⟩ | hbits)
      · cases hs
      · have hx : floatValue (floatOfDec d) = storedNumber b := nearest_exact (h2 ▸ floatOfDec_nearest d) hbits
        have hval : (decOfFloat (floatOfDec d).neg (floatOfDec d).m (floatOfDec d).q).value = storedNumber b := by
          rw [← hx, decOfFloat_value]
          unfold floatValue
          cases (floatOfDec d).neg <;> simp
        refine load_tidy_decimal h hval fun h0 => ?_
        have : (decOfFloat (floatOfDec d).neg (floatOfDec d).m (floatOfDec d).q).neg = (floatOfDec d).neg := by
          unfold decOfFloat; split <;> rfl
        rw [this, floatOfDec_neg]
        exact hneg0 (by rw [h2, ← hval, h0])
    · intro x hx
      cases hx
      rw [← h2]
      exact ⟨l5 hlen, floatOfDec_nearest d⟩
  · rename_i hlen
    refine ⟨?_, by simp, by simp⟩
    intro _
    show realLoadString _ _ = _
    rw [l4]
    refine load_tidy h l1 l2 (l3.trans h2) (fun h0 => absurd (h2.trans h0) (l6 (by omega))) (squash_render _ l1)

end Verif

namespace Verif
open Spec Ent

/-! ### Other floats -/

theorem stored_bounds {b : Bytes} (h : Tidy b) (hn : 16 ≤ (b.getD 2 0).toNat) : ∃ C : Nat, ∃ k : Nat, 10 ^ 13 ≤ C ∧ C < 10 ^ 14 ∧ k < 256 ∧
    |storedNumber b| = (C : ℚ) * 10 ^ ((k : Int) - 128 - 13) := by
  refine ⟨_, (b.getD 1 0).toNat, normal_ne h hn, ?_, UInt8.toNat_lt _, ?_⟩
  · obtain ⟨b0, b1, rest, rfl, hl, -⟩ := tidy_shape h
    simp only [List.drop_succ_cons, List.drop_zero]
    rw [← bcdGet_spec, ← List.reverse_reverse rest, bcdGet_reverse]
    have := bcdLE_lt ((allDigits_reverse rest).mpr (by simpa using h.digits))
    rw [List.length_reverse, hl] at this
    exact lt_of_lt_of_eq this (by norm_num)
  · unfold storedNumber
    have hp := ten_zpow_pos (((b.getD 1 0).toNat : Int) - 128 - 13)
    split <;> rw [abs_mul, abs_mul, abs_of_pos hp] <;> simp

theorem tiny_float : NearestFloat ((10 : ℚ) ^ (-128 : Int)) (floatValue ⟨false, 7804371375789981, -478⟩) ∧
    (10 : ℚ) ^ (-128 : Int) ≤ floatValue ⟨false, 7804371375789981, -478⟩ := by
  constructor
  · have h := floatOfFrac_nearest false 1 (10 ^ 128) (by positivity)
    rw [show floatOfFrac false 1 (10 ^ 128) = ⟨false, 7804371375789981, -478⟩ by decide +kernel] at h
    rw [zpow_neg, show ((128 : Int)) = ((128 : Nat) : Int) from rfl, zpow_natCast, inv_eq_one_div]
    rw [Nat.cast_pow] at h
    simpa only [Bool.false_eq_true, if_false, one_mul, Nat.cast_one, Nat.cast_ofNat] using h
  · have h : 2 ^ 478 ≤ 7804371375789981 * 10 ^ 128 := by decide +kernel
    have h' : ((2 : ℚ) ^ 478) ≤ 7804371375789981 * 10 ^ 128 := by exact_mod_cast h
    unfold floatValue
    simp only [Bool.false_eq_true, if_false, one_mul]
    rw [zpow_neg, zpow_neg, ← div_eq_mul_inv, inv_eq_one_div, div_le_div_iff₀ (by positivity) (by positivity)]
    rw [show ((128 : Int)) = ((128 : Nat) : Int) from rfl, show ((478 : Int)) = ((478 : Nat) : Int) from rfl, zpow_natCast, zpow_natCast]
    push_cast
    rw [one_mul]
    exact h'

theorem near_range {v f : ℚ} {C k : Nat} (h1 : 10 ^ 13 ≤ C) (h2 : C < 10 ^ 14) (hk : k < 256)
    (hv : v = (C : ℚ) * 10 ^ ((k : Int) - 128 - 13)) (hn : NearestFloat v f) : InExponentRange f := by
  have hC1 : (10 : ℚ) ^ 13 ≤ C := by exact_mod_cast h1
  have hC2 : (C : ℚ) ≤ 10 ^ 14 - 1 := by
    have : C + 1 ≤ 10 ^ 14 := h2
    have : (C : ℚ) + 1 ≤ 10 ^ 14 := by exact_mod_cast this
    linarith
  have hp := ten_zpow_pos ((k : Int) - 128 - 13)
  have hpos : 0 < v := by rw [hv]; exact mul_pos (by linarith [pow_pos (show (0 : ℚ) < 10 by norm_num) 13]) hp
  have herr := abs_le.1 (nearest_error_pos hn hpos)
  have e1 : (10 : ℚ) ^ (-141 : Int) ≤ 10 ^ ((k : Int) - 128 - 13) := ten_zpow_le.2 (by omega)
  have e2 : (10 : ℚ) ^ ((k : Int) - 128 - 13) ≤ 10 ^ (114 : Int) := ten_zpow_le.2 (by omega)
  have t1 : (10 : ℚ) ^ (-128 : Int) = 10 ^ 13 * 10 ^ (-141 : Int) := by
    rw [show (-128 : Int) = ((13 : Nat) : Int) + -141 by norm_num, zpow_add₀ (by norm_num), zpow_natCast]
  have t2 : (10 : ℚ) ^ (128 : Int) = 10 ^ 14 * 10 ^ (114 : Int) := by
    rw [show (128 : Int) = ((14 : Nat) : Int) + 114 by norm_num, zpow_add₀ (by norm_num), zpow_natCast]
  have p1 := ten_zpow_pos (-141 : Int)
  have p2 := ten_zpow_pos (114 : Int)
  refine ⟨?_, ?_⟩
  · by_cases hC : C = 10 ^ 13 ∧ k = 0
    · have : v = 10 ^ (-128 : Int) := by
        rw [hv, hC.1, hC.2, t1]; push_cast; norm_num
      rw [this] at hn
      rw [nearest_unique hn tiny_float.1]
      exact tiny_float.2
    · have hv' : (10 ^ 13 + 1) * (10 : ℚ) ^ (-141 : Int) ≤ v := by
        rw [hv]
        by_cases hk0 : k = 0
        · have : 10 ^ 13 + 1 ≤ C := by
            rcases Nat.lt_or_ge C (10 ^ 13 + 1) with h | h
            · exact absurd ⟨by omega, hk0⟩ hC
            · exact h
          have : (10 : ℚ) ^ 13 + 1 ≤ C := by exact_mod_cast this
          exact mul_le_mul this e1 p1.le (by linarith)
        · have e3 : (10 : ℚ) ^ (-140 : Int) ≤ 10 ^ ((k : Int) - 128 - 13) := ten_zpow_le.2 (by omega)
          have t3 : (10 : ℚ) ^ (-140 : Int) = 10 * 10 ^ (-141 : Int) := by
            rw [show (-140 : Int) = 1 + -141 by norm_num, zpow_add₀ (by norm_num), zpow_one]
          calc (10 ^ 13 + 1) * (10 : ℚ) ^ (-141 : Int) ≤ 10 ^ 13 * (10 * (10 : ℚ) ^ (-141 : Int)) := by nlinarith
            _ ≤ _ := by rw [← t3]; exact mul_le_mul hC1 e3 (ten_zpow_pos _).le (by linarith)
      rw [t1]
      linarith
  · have : v ≤ (10 ^ 14 - 1) * 10 ^ (114 : Int) := by
      rw [hv]; exact mul_le_mul hC2 e2 hp.le (by linarith)
    rw [t2]
    linarith

theorem nearest_abs {v f : ℚ} (h : NearestFloat v f) : NearestFloat |v| |f| := by
  rcases lt_trichotomy v 0 with hv | hv | hv
  · have h' := nearest_neg h
    have := abs_le.1 (nearest_error_pos h' (by linarith))
    rw [abs_of_neg hv, abs_of_nonpos (by linarith)]
    exact h'
  · rw [nearest_exact h (hv ▸ nearest_zero.bits), hv, abs_zero]; exact nearest_zero
  · have := abs_le.1 (nearest_error_pos h hv)
    rw [abs_of_pos hv, abs_of_nonneg (by linarith)]
    exact h

/-- A float near to a stored number, read again. -/
theorem load_near {b : Bytes} (h : Tidy b) {x : PyFloat} (hx : NearestFloat (storedNumber b) (floatValue x)) :
    ∃ b', realLoadFloat x.neg x.m x.q ⟨true, clearFull .real⟩ = ⟨.ok (), ⟨true, b'⟩, []⟩ ∧ b'.length = 9 ∧
      |storedNumber b - storedNumber b'| ≤ |storedNumber b| / 10 ^ 12 := by
  obtain ⟨a, hk, hok, -⟩ := realFloat_kept x 0x00 (List.replicate 8 0x00) rfl
  have hre : ∀ {b' : Bytes}, b'.length = 9 → Reads b' a → storedNumber b' = a := by
    rintro b' hl ⟨n, k, hr, rfl⟩
    obtain ⟨c, e, hr', hv, -⟩ := stored_real hl
    rw [hr] at hr'
    cases hr'
    exact hv.symm
  have hclear : clearFull .real = 0x00 :: List.replicate 8 0x00 := by decide
  rw [hclear]
  have hka : (floatValue x = 0 ∧ a = 0) ∨
      ∃ m e, Truncates14 |floatValue x| m e ∧ a = (if floatValue x < 0 then -1 else 1) * ((m : ℚ) * 10 ^ e) := by
    simpa [Kept] using hk
  have herr := abs_le.1 (nearest_error hx)
  rcases hka with ⟨h0, rfl⟩ | ⟨m, e, ht, ha⟩
  · obtain ⟨b', g1, g2, g3⟩ := hok (Or.inl rfl)
    refine ⟨b', g1, g2, ?_⟩
    rw [hre g2 g3]
    have := nearest_error hx
    rw [h0] at this
    exact this.trans (div_le_div_of_nonneg_left (abs_nonneg _) (by positivity) (by norm_num))
  · have hm : (10 : ℚ) ^ 13 ≤ m := by exact_mod_cast ht.1
    have hpe := ten_zpow_pos e
    have hap : 0 < (m : ℚ) * 10 ^ e := mul_pos (by linarith [pow_pos (show (0 : ℚ) < 10 by norm_num) 13]) hpe
    have habs : |a| = (m : ℚ) * 10 ^ e := by
      rw [ha, abs_mul, abs_of_pos hap]
      split <;> simp
    have hrange : InExponentRange |floatValue x| := by
      rcases h.normal with hn | hz
      · obtain ⟨C, k, c1, c2, c3, c4⟩ := stored_bounds h hn
        exact near_range c1 c2 c3 c4 (nearest_abs hx)
      · rw [hz, stored_zero] at hx
        have := nearest_exact hx nearest_zero.bits
        rw [this, abs_zero] at ht
        exact absurd ht.2.2.1 (not_le.2 hap)
    have hself := truncates14_self ht
    have : HasExponent a := Or.inr (by
      rw [habs]; exact (truncates14_range hself).2 ((truncates14_range ht).1 hrange))
    obtain ⟨b', g1, g2, g3⟩ := hok this
    refine ⟨b', g1, g2, ?_⟩
    rw [hre g2 g3]
    have hfa : |floatValue x - a| ≤ |floatValue x| / 10 ^ 13 := by
      have e1 : (10 : ℚ) ^ e ≤ |floatValue x| / 10 ^ 13 := by
        rw [le_div_iff₀ (by positivity)]
        have := ht.2.2.1
        nlinarith
      have h3 := ht.2.2.1
      have h4 := ht.2.2.2
      rw [add_mul, one_mul] at h4
      rw [ha]
      split
      · rename_i hneg
        rw [abs_of_neg hneg] at h3 h4 e1 ⊢
        rw [abs_le]; constructor <;> linarith
      · rename_i hneg
        have h0 : 0 ≤ floatValue x := by linarith
        rw [abs_of_nonneg h0] at h3 h4 e1
        rw [abs_le, abs_of_nonneg h0]; constructor <;> linarith
    have hf : |floatValue x| ≤ |storedNumber b| + |storedNumber b| / 2 ^ 53 := by
      have h1 := abs_sub_abs_le_abs_sub (floatValue x) (storedNumber b)
      have h2 := nearest_error hx
      rw [abs_sub_comm] at h2
      linarith
    have htri := abs_sub_le (storedNumber b) (floatValue x) a
    have h2 := nearest_error hx
    have h0 := abs_nonneg (storedNumber b)
    have : |floatValue x| / 10 ^ 13 ≤ (|storedNumber b| + |storedNumber b| / 2 ^ 53) / 10 ^ 13 :=
      div_le_div_of_nonneg_right hf (by positivity)
    linarith

/-! ### Entries -/

variable {V : Type} [LinearOrder V]

/-- The entry of a number read from JSON. -/
def realEntry (nm b : Bytes) : Ent := ⟨.real, [0x0D, 0x00], [0x00], nm, [0x00], [0x00], ⟨true, b⟩⟩

theorem realOf_run (env : Env V) (nm : Bytes) {j : JNum} {b : Bytes}
    (h : loadJson j ⟨true, clearFull .real⟩ = ⟨.ok (), ⟨true, b⟩, []⟩) : realOf env nm j () = ⟨.ok (realEntry nm b), (), []⟩ := by
  have hbase : newBase .real { name := nm } = .ok ⟨.real, [0x0D, 0x00], [0x00], nm, [0x00], [0x00], ⟨true, []⟩⟩ := rfl
  have hrest : newRest env { name := nm } [] (onData (loadJson j)) ⟨.real, [0x0D, 0x00], [0x00], nm, [0x00], [0x00], ⟨true, []⟩⟩ =
      ⟨.ok (), realEntry nm b, []⟩ := by
    obtain ⟨v, hg, hv⟩ := getVersion_fixed env (e := realEntry nm b) [] (by decide : fixedVersion .real = true)
    have hl : onData (loadJson j) ⟨.real, [0x0D, 0x00], [0x00], nm, [0x00], [0x00], ⟨true, clearFull .real⟩⟩ = ⟨.ok (), realEntry nm b, []⟩ := by
      simp only [onData, h, realEntry]
    have hvv : UInt8.ofNat ((v : Int) % 256).toNat = 0x00 := by
      have h1 : UInt8.ofNat v = 0x00 := hv
      rw [← h1]; apply UInt8.toNat_inj.1; simp; omega
    simp only [newRest, PyM.bind_run, PyM.modify_run, ne_eq, not_true_eq_false, if_false, hl, if_true, PyM.get_run, PyM.warnAll_run, PyM.ofExcept_run,
      setVersion_run, hg]
    simp [metaLength, fromLE, hvv, realEntry]
  unfold realOf
  exact new_run env (by decide) hbase hrest

end Verif
