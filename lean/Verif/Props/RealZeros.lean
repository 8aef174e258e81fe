import Verif.Proofs.RealZeros
import Verif.Proofs.FractionLoad
import Verif.Props.Real

/-! Property theorems: what becomes of literals with leading zeros (C16) and of floats (C18). -/

namespace Verif
open Spec

/-- C16, literals with a nonzero integer part: each leading zero takes the place of a digit, so that `k` of them divide the number by
`10 ^ k`. Where the literal without them is stored with the mantissa `m`, the one with them is stored with `m / 10 ^ k`; as `m` has
14 digits, this is always another number. -/
theorem C16_divided (l : Literal) (hv : l.Valid) (hz : l.NoLeadingZeros) (h0 : digitsValue l.int ≠ 0)
    (hr : InExponentRange l.magnitude) (k : Nat) (l' : Literal) (hl' : l' = { l with int := List.replicate k '0' ++ l.int })
    (b0 : UInt8) (rest : Bytes) (hb : rest.length = 8) :
    ∃ b b' m e, Truncates14 l.magnitude m e ∧
      realLoadString l.render ⟨true, b0 :: rest⟩ = ⟨.ok (), ⟨true, b⟩, []⟩ ∧ realDecimal ⟨true, b⟩ = .ok (l.sgn * m, e) ∧
      realLoadString l'.render ⟨true, b0 :: rest⟩ = ⟨.ok (), ⟨true, b'⟩, []⟩ ∧
      realDecimal ⟨true, b'⟩ = .ok (l.sgn * (m / 10 ^ k : Nat), e) ∧
      (0 < k → ((l.sgn * (m / 10 ^ k : Nat) : Int) : ℚ) * 10 ^ e ≠ ((l.sgn * m : Int) : ℚ) * 10 ^ e) := by
  subst hl'
  have hm : l.magnitude ≠ 0 := (lt_of_lt_of_le (ten_zpow_pos _) hr.1).ne'
  obtain ⟨m, e, ht, hp⟩ := realParse_value l hv _ (squash_render l hv) hz hm
  rw [digitsValue_eq] at h0
  obtain ⟨-, hp'⟩ := realParse_zeros hv hz h0 k hp
  obtain ⟨h1, h2⟩ := (truncates14_range ht).mp hr
  have hlt : m / 10 ^ k < 10 ^ 14 := lt_of_le_of_lt (Nat.div_le_self _ _) ht.2.1
  have hs : (if l.sign.isNeg then (-1 : Int) else 1) = l.sgn := rfl
  have he : ((e + 13 + 0x80).toNat : Int) - 0x80 - 13 = e := by omega
  refine ⟨realBytes b0 l.sign.isNeg (e + 13 + 0x80).toNat m, realBytes b0 l.sign.isNeg (e + 13 + 0x80).toNat (m / 10 ^ k), m, e, ht,
    ?_, ?_, ?_, ?_, ?_⟩
  · rw [realLoadString_of_parse hp, realStore_ok (by omega) (by have := ht.2.1; omega) h1 h2 _ _ hb]
    simp
  · rw [realDecimal_realBytes _ _ _ _ (by omega) ht.2.1, hs, he]
  · rw [realLoadString_of_parse hp', realStore_ok (Int.natCast_nonneg _) (by exact_mod_cast hlt) h1 h2 _ _ hb, Int.toNat_natCast]
  · rw [realDecimal_realBytes _ _ _ _ (by omega) hlt, hs, he]
  · intro hk h
    have h := mul_right_cancel₀ (ten_zpow_pos e).ne' h
    have h : l.sgn * ((m / 10 ^ k : Nat) : Int) = l.sgn * m := by exact_mod_cast h
    have hsg : l.sgn ≠ 0 := by rw [← hs]; split <;> decide
    have h := mul_left_cancel₀ hsg h
    have hlt' : m / 10 ^ k < m := Nat.div_lt_self (by have := ht.1; omega) (Nat.one_lt_pow (by omega) (by omega))
    omega

example : realLoadString "0012.5".toList ⟨true, [0, 0, 0, 0, 0, 0, 0, 0, 0]⟩ =
      ⟨.ok (), ⟨true, [0, 0x81, 0x00, 0x12, 0x50, 0, 0, 0, 0]⟩, []⟩ ∧
    realDecimal ⟨true, [0, 0x81, 0x00, 0x12, 0x50, 0, 0, 0, 0]⟩ = .ok (125000000000, -12) := by decide +kernel

/-- C18 for all floats `± m * 2 ^ q`: zero is stored as zero, a number in range is truncated to 14 digits, and any other raises
`OverflowError`. -/
theorem C18_truncated (neg : Bool) (m : Nat) (q : Int) (b0 : UInt8) (rest : Bytes) (hl : rest.length = 8) :
    (m = 0 → ∃ b', realLoadFloat neg m q ⟨true, b0 :: rest⟩ = ⟨.ok (), ⟨true, b'⟩, []⟩ ∧ realDecimal ⟨true, b'⟩ = .ok (0, -13)) ∧
    (InExponentRange ((m : ℚ) * 2 ^ q) → ∃ b' c e, realLoadFloat neg m q ⟨true, b0 :: rest⟩ = ⟨.ok (), ⟨true, b'⟩, []⟩ ∧
      Truncates14 ((m : ℚ) * 2 ^ q) c e ∧ realDecimal ⟨true, b'⟩ = .ok ((if neg then -1 else 1) * (c : Int), e)) ∧
    (m ≠ 0 → ¬ InExponentRange ((m : ℚ) * 2 ^ q) →
      (realLoadFloat neg m q ⟨true, b0 :: rest⟩).res = .error .overflowError) := by
  have hv := decLit_valid (decOfFloat neg m q)
  have hs : squash (decStr (decOfFloat neg m q)) = (decLit (decOfFloat neg m q)).render := by
    rw [← decLit_render]; exact squash_render _ hv
  have hneg : (decOfFloat neg m q).neg = neg := by unfold decOfFloat; split <;> rfl
  have hp : (0 : ℚ) ≤ (m : ℚ) * 2 ^ q := by positivity
  have hmag : (decLit (decOfFloat neg m q)).magnitude = (m : ℚ) * 2 ^ q := by
    have h0 : 0 ≤ (decLit (decOfFloat neg m q)).magnitude := mul_nonneg (by positivity) (ten_zpow_pos _).le
    have : |(decLit (decOfFloat neg m q)).value| = (decLit (decOfFloat neg m q)).magnitude := by
      rw [Literal.value, abs_mul, abs_of_nonneg h0]
      unfold Literal.sgn; split <;> simp
    rw [← this, decLit_value, decOfFloat_value, abs_mul, abs_of_nonneg hp]
    cases neg <;> simp
  have hsgn : (decLit (decOfFloat neg m q)).sgn = if neg then -1 else 1 := by
    unfold Literal.sgn
    rw [decLit_sign, hneg]
  obtain ⟨h1, h2, h3⟩ := C15_load_decimal _ hv (decLit_noLeading _) _ hs b0 rest hl
  rw [hmag] at h1 h2 h3
  refine ⟨fun h => ?_, fun h => ?_, fun h h' => ?_⟩
  · obtain ⟨b', g1, -, g2, -⟩ := h1 (by rw [h]; simp)
    exact ⟨b', g1, g2⟩
  · obtain ⟨b', c, e, g1, -, g2, g3, -⟩ := h2 h
    rw [hsgn] at g3
    exact ⟨b', c, e, g1, g2, g3⟩
  · refine h3 (mul_ne_zero (by exact_mod_cast h) (zpow_ne_zero _ (by norm_num))) h'

example : realLoadFloat false 2769713770832855 (-51) ⟨true, [0, 0, 0, 0, 0, 0, 0, 0, 0]⟩ =
      ⟨.ok (), ⟨true, [0, 0x80, 0x12, 0x29, 0x99, 0x99, 0x99, 0x99, 0x99]⟩, []⟩ ∧
    (realLoadFloat true 1 500 ⟨true, [0, 0, 0, 0, 0, 0, 0, 0, 0]⟩).res = .error .overflowError := by decide +kernel

end Verif
