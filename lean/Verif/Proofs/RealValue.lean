import Verif.Spec.RealValue
import Verif.Proofs.RealString
import Verif.Proofs.Real
import Mathlib.Tactic.Positivity
import Mathlib.Tactic.Linarith
import Mathlib.Tactic.NormNum
import Mathlib.Tactic.Ring

/-! Rational-valued view of loading decimal strings. -/

namespace Verif

open Spec

theorem ten_zpow_pos (e : Int) : (0 : ℚ) < 10 ^ e := by positivity

theorem ten_zpow_add (a b : Int) : (10 : ℚ) ^ (a + b) = 10 ^ a * 10 ^ b := zpow_add₀ (by norm_num) a b

theorem ten_zpow_lt {a b : Int} : (10 : ℚ) ^ a < 10 ^ b ↔ a < b := zpow_lt_zpow_iff_right₀ (by norm_num)

theorem ten_zpow_le {a b : Int} : (10 : ℚ) ^ a ≤ 10 ^ b ↔ a ≤ b := zpow_le_zpow_iff_right₀ (by norm_num)

theorem trunc_value {n k M : Nat} (s : Int) (h : Trunc14 n k M) :
    Truncates14 ((n : ℚ) * 10 ^ s) M (s + k - 14) := by
  obtain ⟨h1, h2, h3, h4⟩ := h
  have hp := ten_zpow_pos (s + k - 14)
  refine ⟨h1, h2, ?_⟩
  by_cases hk : k ≤ 14
  · have hM := h3 hk
    have e : (n : ℚ) * 10 ^ s = (M : ℚ) * 10 ^ (s + k - 14) := by
      rw [hM]; push_cast
      rw [mul_assoc, ← zpow_natCast, ← ten_zpow_add]
      congr 2; omega
    rw [e]
    constructor
    · exact le_refl _
    · nlinarith
  · obtain ⟨a, b⟩ := h4 (by omega)
    have ps := ten_zpow_pos s
    have e : (10 : ℚ) ^ (s + k - 14) = ((10 ^ (k - 14) : Nat) : ℚ) * 10 ^ s := by
      push_cast
      rw [← zpow_natCast, ← ten_zpow_add]
      congr 1; omega
    rw [e, ← mul_assoc, ← mul_assoc]
    constructor
    · apply mul_le_mul_of_nonneg_right _ ps.le
      exact_mod_cast a
    · apply mul_lt_mul_of_pos_right _ ps
      exact_mod_cast b

theorem truncates14_bounds {v : ℚ} {m : Nat} {e : Int} (h : Truncates14 v m e) :
    (10 : ℚ) ^ (13 + e) ≤ v ∧ v < 10 ^ (14 + e) := by
  obtain ⟨h1, h2, h3, h4⟩ := h
  have hp := ten_zpow_pos e
  have a : (10 : ℚ) ^ (13 : Int) ≤ m := by
    rw [show (13 : Int) = ((13 : Nat) : Int) from rfl, zpow_natCast]; exact_mod_cast h1
  have b : (m : ℚ) + 1 ≤ (10 : ℚ) ^ (14 : Int) := by
    rw [show (14 : Int) = ((14 : Nat) : Int) from rfl, zpow_natCast]; exact_mod_cast h2
  rw [ten_zpow_add, ten_zpow_add]
  constructor
  · exact le_trans (mul_le_mul_of_nonneg_right a hp.le) h3
  · exact lt_of_lt_of_le h4 (mul_le_mul_of_nonneg_right b hp.le)

theorem truncates14_unique {v : ℚ} {m m' : Nat} {e e' : Int} (h : Truncates14 v m e) (h' : Truncates14 v m' e') :
    m = m' ∧ e = e' := by
  obtain ⟨a, b⟩ := truncates14_bounds h
  obtain ⟨a', b'⟩ := truncates14_bounds h'
  have l1 := ten_zpow_lt.mp (lt_of_le_of_lt a b')
  have l2 := ten_zpow_lt.mp (lt_of_le_of_lt a' b)
  have he : e = e' := by omega
  subst he
  refine ⟨?_, rfl⟩
  have hp := ten_zpow_pos e
  have c1 := lt_of_mul_lt_mul_right (lt_of_le_of_lt h.2.2.1 h'.2.2.2) hp.le
  have c2 := lt_of_mul_lt_mul_right (lt_of_le_of_lt h'.2.2.1 h.2.2.2) hp.le
  have d1 : m < m' + 1 := by exact_mod_cast c1
  have d2 : m' < m + 1 := by exact_mod_cast c2
  omega

theorem truncates14_range {v : ℚ} {m : Nat} {e : Int} (h : Truncates14 v m e) :
    InExponentRange v ↔ 0 ≤ e + 13 + 0x80 ∧ e + 13 + 0x80 < 256 := by
  obtain ⟨a, b⟩ := truncates14_bounds h
  constructor
  · intro ⟨h1, h2⟩
    have l1 := ten_zpow_lt.mp (lt_of_le_of_lt a h2)
    have l2 := ten_zpow_lt.mp (lt_of_le_of_lt h1 b)
    omega
  · intro ⟨h1, h2⟩
    exact ⟨le_trans (ten_zpow_le.mpr (by omega)) a, lt_of_lt_of_le b (ten_zpow_le.mpr (by omega))⟩

theorem magnitude_eq_zero (l : Literal) : l.magnitude = 0 ↔ l.coeff = 0 := by
  have := ten_zpow_pos l.scale
  simp [Literal.magnitude, this.ne']

/-- Parsing a literal, in terms of its value. -/
theorem realParse_value (l : Literal) (hv : l.Valid) (s : Str) (hs : squash s = l.render)
    (hz : l.NoLeadingZeros) (h0 : l.magnitude ≠ 0) :
    ∃ (M : Nat) (e : Int), Truncates14 l.magnitude M e ∧
      realParse s = .ok ((M : Int), e + 13 + 0x80, l.sign.isNeg) := by
  obtain ⟨k, M, _, hT, hp⟩ := realParse_literal l hv s hs hz (fun h => h0 ((magnitude_eq_zero l).mpr h))
  refine ⟨M, l.scale + k - 14, trunc_value l.scale hT, ?_⟩
  rw [hp]; congr 2
  rw [Prod.mk.injEq]; refine ⟨by omega, rfl⟩

/-- What `decimal()` reads from stored bytes. -/
theorem realDecimal_realBytes (b0 : UInt8) (neg : Bool) (x m : Nat) (hx : x < 256) (hm : m < 10 ^ 14) (k : Bool) :
    realDecimal ⟨k, realBytes b0 neg x m⟩ = .ok ((if neg then -1 else 1) * (m : Int), (x : Int) - 0x80 - 13) := by
  have hl : (toLE 7 (hexOfDec m)).reverse.length = 7 := by simp
  have hb : (UInt8.ofNat ((if neg then 128 else 0) + b0.toNat % 128)).toNat / 128 = if neg then 1 else 0 := by
    have := Nat.mod_lt b0.toNat (show 0 < 128 by omega)
    rw [UInt8.toNat_ofNat_of_lt' (by show _ < 256; cases neg <;> simp <;> omega)]
    cases neg
    · rw [if_neg (by simp), if_neg (by simp)]; omega
    · rw [if_pos rfl, if_pos rfl]; omega
  have hm' : bcdGet (toLE 7 (hexOfDec m)).reverse = m := bcdGet_set (by
    have : (100 ^ 7 : Nat) = 10 ^ 14 := by decide +kernel
    omega)
  simp only [realDecimal, realSign, realBytes, sign_get _ _ _ _ hl, exponent_get _ _ _ _ hl,
    mantissa_get _ _ _ _ hl, hb, hm', UInt8.toNat_ofNat_of_lt' hx, exceptOk_bind]
  cases neg <;> simp

theorem sign_realBytes (b0 : UInt8) (neg : Bool) (x m : Nat) (k : Bool) :
    signV.get ⟨k, realBytes b0 neg x m⟩ = .ok (if neg then 1 else 0) := by
  have hl : (toLE 7 (hexOfDec m)).reverse.length = 7 := by simp
  have hb : (UInt8.ofNat ((if neg then 128 else 0) + b0.toNat % 128)).toNat / 128 = if neg then 1 else 0 := by
    have := Nat.mod_lt b0.toNat (show 0 < 128 by omega)
    rw [UInt8.toNat_ofNat_of_lt' (by show _ < 256; cases neg <;> simp <;> omega)]
    cases neg
    · rw [if_neg (by simp), if_neg (by simp)]; omega
    · rw [if_pos rfl, if_pos rfl]; omega
  simp only [realBytes, sign_get _ _ _ _ hl, hb]
  cases neg <;> rfl

theorem head_realBytes (b0 : UInt8) (neg : Bool) (x m : Nat) :
    ((realBytes b0 neg x m).headD 0).toNat % 128 = b0.toNat % 128 := by
  have := Nat.mod_lt b0.toNat (show 0 < 128 by omega)
  simp only [realBytes, List.headD_cons]
  rw [UInt8.toNat_ofNat_of_lt' (by show _ < 256; cases neg <;> simp <;> omega)]
  cases neg
  · rw [if_neg (by simp)]; omega
  · rw [if_pos rfl]; omega

theorem realParse_nil : realParse [] = .ok (0, 0x80, false) := by decide +kernel

theorem realLoadString_of_parse {s : Str} {m x : Int} {neg : Bool} (h : realParse s = .ok (m, x, neg)) (st : Buf) :
    realLoadString s st = realStore m x neg st := by
  unfold realLoadString
  split
  · next hs => subst hs; rw [realParse_nil] at h; cases h; rfl
  · rw [PyM.bind_ok (PyM.ofExcept_run _ _ |>.trans (by rw [h]))]; rfl

theorem realStore_overflow {m x : Int} {neg : Bool} (hm0 : 0 ≤ m) (hm1 : m < 10 ^ 14) (hx : ¬ (0 ≤ x ∧ x < 256))
    (b0 b1 : UInt8) (rest : Bytes) (hr : rest.length = 7) :
    realStore m x neg ⟨true, b0 :: b1 :: rest⟩
      = ⟨.error .overflowError, ⟨true, b0 :: b1 :: (toLE 7 (hexOfDec m.toNat)).reverse⟩, []⟩ := by
  rw [realStore, PyM.bind_ok (mantissa_put hm0 hm1 b0 b1 rest hr),
    PyM.bind_error (exponent_put_error hx true _ (by simp))]
  rfl

/-- Loading a nonzero literal whose value truncates to `M * 10 ^ e`. -/
theorem realLoad_value {l : Literal} (hv : l.Valid) {s : Str} (hs : squash s = l.render)
    (hz : l.NoLeadingZeros) {M : Nat} {e : Int} (ht : Truncates14 l.magnitude M e)
    (hr : InExponentRange l.magnitude) (b0 : UInt8) (rest : Bytes) (hl : rest.length = 8) :
    realLoadString s ⟨true, b0 :: rest⟩
      = ⟨.ok (), ⟨true, realBytes b0 l.sign.isNeg (e + 13 + 0x80).toNat M⟩, []⟩ := by
  have h0 : l.magnitude ≠ 0 := (lt_of_lt_of_le (ten_zpow_pos _) hr.1).ne'
  obtain ⟨M', e', ht', hp⟩ := realParse_value l hv s hs hz h0
  obtain ⟨rfl, rfl⟩ := truncates14_unique ht ht'
  obtain ⟨h1, h2⟩ := (truncates14_range ht).mp hr
  rw [realLoadString_of_parse hp, realStore_ok (by omega) (by have := ht.2.1; omega) h1 h2 _ _ hl]
  simp

/-- Loading a zero literal. -/
theorem realLoad_zero {l : Literal} (hv : l.Valid) {s : Str} (hs : squash s = l.render)
    (h0 : l.magnitude = 0) (b0 : UInt8) (rest : Bytes) (hl : rest.length = 8) :
    realLoadString s ⟨true, b0 :: rest⟩ = ⟨.ok (), ⟨true, realBytes b0 l.sign.isNeg 0x80 0⟩, []⟩ := by
  have hp := realParse_literal_zero l hv s hs ((magnitude_eq_zero l).mp h0)
  rw [realLoadString_of_parse hp, realStore_ok (by omega) (by omega) (by omega) (by omega) _ _ hl]
  simp

end Verif
