import Verif.Props.Real
import Verif.Proofs.Decimal
import Verif.Proofs.Limit

/-! Loading fractions. -/

namespace Verif

open Spec

theorem fracOfDec_value (c e : Int) : fracOfDec c e = (c : ℚ) * 10 ^ e := by
  unfold fracOfDec
  split
  · next h =>
    obtain ⟨k, rfl⟩ := Int.eq_ofNat_of_zero_le h
    simp
  · next h =>
    obtain ⟨k, hk⟩ := Int.eq_ofNat_of_zero_le (show 0 ≤ -e by omega)
    obtain rfl : e = -(k : Int) := by omega
    rw [Rat.mkRat_eq_div]
    simp [zpow_neg, div_eq_mul_inv]

theorem fracOfPyDec_value (d : PyDec) : fracOfPyDec d = d.value := by
  unfold fracOfPyDec PyDec.value
  rw [fracOfDec_value]
  cases d.neg <;> simp

theorem roundsHalfEven_bounds {prec : Nat} {v x : ℚ} (h : RoundsHalfEven prec v x) :
    0 ≤ v ∧ 0 ≤ x ∧ (v = 0 ↔ x = 0) := by
  rcases h with ⟨rfl, rfl⟩ | ⟨m, e, h1, h2, h3, h4, h5⟩
  · simp
  · have hm : 0 < m := lt_of_lt_of_le (by positivity) h1
    have hp := ten_zpow_pos e
    have hmq : (0 : ℚ) < m := by exact_mod_cast hm
    have hv : 0 < v := lt_of_lt_of_le (mul_pos hmq hp) h3
    have hx : 0 < x := by
      rcases h5 with ⟨rfl, -⟩ | ⟨rfl, -⟩
      · positivity
      · positivity
    exact ⟨hv.le, hx.le, by constructor <;> intro h <;> linarith⟩

/-- The error of a rounding is at most half a unit in the last place. -/
theorem roundsHalfEven_error {prec : Nat} (hp : 0 < prec) {v x : ℚ} (h : RoundsHalfEven prec v x) {k : Int}
    (hv : v < 10 ^ k) : |x - v| ≤ 10 ^ (k - prec) / 2 := by
  rcases h with ⟨rfl, rfl⟩ | ⟨m, e, h1, h2, h3, h4, h5⟩
  · simp only [sub_self, abs_zero]
    have := ten_zpow_pos (k - prec)
    linarith
  · have hmq : (10 : ℚ) ^ ((prec - 1 : Nat) : Int) ≤ m := by rw [zpow_natCast]; exact_mod_cast h1
    have hpe := ten_zpow_pos e
    have : (10 : ℚ) ^ (((prec - 1 : Nat) : Int) + e) < 10 ^ k := by
      rw [ten_zpow_add]
      exact lt_of_le_of_lt (mul_le_mul_of_nonneg_right hmq hpe.le) (lt_of_le_of_lt h3 hv)
    have hek := ten_zpow_lt.mp this
    have hle : (10 : ℚ) ^ e ≤ 10 ^ (k - prec) := ten_zpow_le.mpr (by omega)
    rcases h5 with ⟨hx, h6⟩ | ⟨hx, h6⟩
    · rw [abs_of_nonpos (by rw [hx]; linarith)]
      rcases h6 with h6 | ⟨h6, -⟩ <;> linarith
    · rw [abs_of_nonneg (by rw [hx]; linarith)]
      rcases h6 with h6 | ⟨h6, -⟩ <;> linarith

/-- Storing a decimal of at most 14 digits and reading it back. -/
theorem loadDec {d : PyDec} (hc : d.coeff < 10 ^ 14) (hr : d.value = 0 ∨ InExponentRange |d.value|)
    (b0 : UInt8) (rest : Bytes) (hl : rest.length = 8) :
    ∃ b' c e, realLoadString (decStr d) ⟨true, b0 :: rest⟩ = ⟨.ok (), ⟨true, b'⟩, []⟩ ∧ b'.length = 9 ∧
      realDecimal ⟨true, b'⟩ = .ok (c, e) ∧ (c : ℚ) * 10 ^ e = d.value ∧
      (b'.headD 0).toNat % 128 = b0.toNat % 128 := by
  have hv := decLit_valid d
  have hs : squash (decStr d) = (decLit d).render := by rw [← decLit_render]; exact squash_render _ hv
  have h0 : 0 ≤ (decLit d).magnitude := by
    unfold Literal.magnitude; exact mul_nonneg (by positivity) (ten_zpow_pos _).le
  have habs : |d.value| = (decLit d).magnitude := by
    rw [← decLit_value, Literal.value, abs_mul, abs_of_nonneg h0]
    unfold Literal.sgn; split <;> simp
  obtain ⟨hz, hnz, -⟩ := C15_load_decimal (decLit d) hv (decLit_noLeading d) (decStr d) hs b0 rest hl
  rcases hr with hr | hr
  · obtain ⟨b', h1, h2, h3, -, h5⟩ := hz (by rw [← habs, hr, abs_zero])
    exact ⟨b', 0, -13, h1, h2, h3, by rw [hr]; simp, h5⟩
  · obtain ⟨b', c, e, h1, h2, h3⟩ := C17_decimal_exact d d.coeff 0 (by simp) hc hr b0 rest hl
    obtain ⟨b'', m, e', g1, g2, -, -, -, g6⟩ := hnz (by rw [← habs]; exact hr)
    have : b'' = b' := by
      have := h1.symm.trans g1
      injection this with _ h _
      injection h with _ h
      exact h.symm
    subst this
    exact ⟨b'', c, e, h1, g2, h2, h3, g6⟩

theorem decOfInt_value (n : Int) : (decOfInt n).value = n := by
  unfold decOfInt PyDec.value
  by_cases h : n < 0
  · simp only [h, decide_true, if_true, zpow_zero, mul_one]
    rw [show (n.natAbs : ℚ) = ((n.natAbs : Int) : ℚ) from (Int.cast_natCast _).symm, Int.ofNat_natAbs_of_nonpos h.le]
    push_cast; ring
  · simp only [h, decide_false, Bool.false_eq_true, if_false, zpow_zero, mul_one]
    rw [show (n.natAbs : ℚ) = ((n.natAbs : Int) : ℚ) from (Int.cast_natCast _).symm, Int.natAbs_of_nonneg (by omega)]
    push_cast; ring

/-- A quotient of the right sign. -/
theorem decDiv_rounds {prec : Nat} (hp : 0 < prec) (a b : PyDec) (hb : b.coeff ≠ 0) :
    Rounds prec (a.value / b.value) (decDiv prec a b).value := by
  obtain ⟨h1, h2, -⟩ := decDiv_spec hp a b hb
  refine ⟨?_, ?_⟩
  · rw [abs_div, PyDec.abs_value, PyDec.abs_value, PyDec.abs_value]; exact h1
  · rw [value_eq, value_eq, value_eq, h2]
    have := mul_nonneg (div_nonneg a.mag_nonneg b.mag_nonneg) (decDiv prec a b).mag_nonneg
    cases a.neg <;> cases b.neg <;> simp <;> (try rw [neg_div]) <;>
      (try rw [div_neg]) <;> linarith

theorem decMul_rounds {prec : Nat} (hp : 0 < prec) (a b : PyDec) :
    Rounds prec (a.value * b.value) (decMul prec a b).value := by
  obtain ⟨h1, h2, -⟩ := decMul_spec hp a b
  refine ⟨?_, ?_⟩
  · rw [abs_mul, PyDec.abs_value, PyDec.abs_value, PyDec.abs_value]; exact h1
  · rw [value_eq, value_eq, value_eq, h2]
    have := mul_nonneg (mul_nonneg a.mag_nonneg b.mag_nonneg) (decMul prec a b).mag_nonneg
    cases a.neg <;> cases b.neg <;> simp <;> nlinarith

theorem rounds_error {prec : Nat} (hp : 0 < prec) {v x : ℚ} (h : Rounds prec v x) {k : Int}
    (hv : |v| < 10 ^ k) : |x - v| ≤ 10 ^ (k - prec) / 2 := by
  have h1 := roundsHalfEven_error hp h.1 hv
  have : |x - v| = |(|x| - |v|)| := by
    have h2 := h.2
    rcases le_total 0 v with hv0 | hv0
    · rcases le_total 0 x with hx0 | hx0
      · rw [abs_of_nonneg hv0, abs_of_nonneg hx0]
      · have : v * x ≤ 0 := mul_nonpos_of_nonneg_of_nonpos hv0 hx0
        rcases mul_eq_zero.mp (le_antisymm this h2) with h0 | h0
        · have := (roundsHalfEven_bounds h.1).2.2.mp (by rw [h0, abs_zero])
          rw [abs_eq_zero] at this
          rw [h0, this]; simp
        · rw [h0]; simp
    · rcases le_total 0 x with hx0 | hx0
      · have : v * x ≤ 0 := mul_nonpos_of_nonpos_of_nonneg hv0 hx0
        rcases mul_eq_zero.mp (le_antisymm this h2) with h0 | h0
        · rw [h0]; simp
        · rw [h0]; simp
      · rw [abs_of_nonpos hv0, abs_of_nonpos hx0, show -x - -v = -(x - v) by ring, abs_neg]
  rw [this]; exact h1

/-- The decimal stored for a fraction. -/
theorem fractionDec_rounds (f : ℚ) :
    Rounds 14 f (decDiv 14 (decOfInt f.num) (decOfInt f.den)).value ∧
      (decDiv 14 (decOfInt f.num) (decOfInt f.den)).coeff < 10 ^ 14 := by
  have hb : (decOfInt f.den).coeff ≠ 0 := by
    have := f.den_pos
    show (f.den : Int).natAbs ≠ 0
    simp
  have h := decDiv_rounds (show 0 < 14 by omega) (decOfInt f.num) (decOfInt f.den) hb
  rw [decOfInt_value, decOfInt_value] at h
  have e : ((f.num : Int) : ℚ) / ((f.den : Int) : ℚ) = f := by push_cast; exact Rat.num_div_den f
  rw [e] at h
  exact ⟨h, (decDiv_spec (by omega) _ _ hb).2.2⟩

end Verif
