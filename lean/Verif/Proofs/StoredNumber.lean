import Verif.Proofs.Float
import Verif.Proofs.Real
import Verif.Proofs.RealValue

/-! The number stored in nine bytes and its decimal. -/

namespace Verif
open Spec Ent

/-- The decimal of nine bytes is the number stored in them. -/
theorem stored_decimal {c : Cls} (hc : c ∈ decimalKinds) {b : Bytes} (hb : b.length = 9) (hd : AllDigits (b.drop 2)) :
    ∃ d, (∀ m, realPartDecimal c ⟨m, b⟩ = .ok d) ∧ d.value = storedNumber b ∧ d.coeff < 10 ^ 14 ∧ (d.neg = true → d.coeff ≠ 0) := by
  match b, hb with
  | b0 :: b1 :: rest, hb =>
    have hl : rest.length = 7 := by simpa using hb
    have hlt : bcdGet rest < 10 ^ 14 := by
      rw [← List.reverse_reverse rest, bcdGet_reverse]
      have := bcdLE_lt ((allDigits_reverse rest).mpr hd)
      rw [List.length_reverse, hl] at this
      exact lt_of_lt_of_eq this (by norm_num)
    have hr : ∀ m, realDecimal ⟨m, b0 :: b1 :: rest⟩ =
        .ok ((if ((b0.toNat / 128 : Nat) : Int) ≠ 0 then -1 else 1) * ((bcdGet rest : Nat) : Int), ((b1.toNat : Nat) : Int) - 0x80 - 13) := by
      intro m
      simp only [realDecimal, realSign, sign_get _ _ _ _ hl, exponent_get _ _ _ _ hl, mantissa_get _ _ _ _ hl, exceptOk_bind]
    have hk : ∀ m, realPartDecimal c ⟨m, b0 :: b1 :: rest⟩ =
        .ok ⟨decide ((if ((b0.toNat / 128 : Nat) : Int) ≠ 0 then -1 else 1) * ((bcdGet rest : Nat) : Int) < 0),
          ((if ((b0.toNat / 128 : Nat) : Int) ≠ 0 then -1 else 1) * ((bcdGet rest : Nat) : Int)).natAbs,
          ((b1.toNat : Nat) : Int) - 0x80 - 13⟩ := by
      intro m
      have hc' : c = .real ∨ c = .undefReal ∨ c = .realFraction := by simpa [decimalKinds] using hc
      rcases hc' with rfl | rfl | rfl <;> simp only [realPartDecimal, hr]
    refine ⟨_, hk, ?_, ?_, ?_⟩
    · unfold PyDec.value storedNumber
      simp only [List.getD_cons_zero, List.getD_cons_succ, List.drop_succ_cons, List.drop_zero]
      rw [← bcdGet_spec]
      have hsgn : ((b0.toNat / 128 : Nat) : Int) ≠ 0 ↔ 128 ≤ b0.toNat := by omega
      by_cases hs : 128 ≤ b0.toNat
      · rw [if_pos (hsgn.2 hs), if_pos hs]
        rcases Nat.eq_zero_or_pos (bcdGet rest) with h0 | h0
        · simp [h0]
        · have : (-1 : Int) * ((bcdGet rest : Nat) : Int) < 0 := by omega
          rw [decide_eq_true this]
          simp
      · rw [if_neg (fun h => hs (hsgn.1 h)), if_neg hs]
        have : ¬ (1 : Int) * ((bcdGet rest : Nat) : Int) < 0 := by omega
        rw [decide_eq_false this]
        simp
    · show Int.natAbs _ < _
      split <;> omega
    · intro hneg
      have := of_decide_eq_true hneg
      show Int.natAbs _ ≠ 0
      omega

theorem abs_value (d : PyDec) : |d.value| = (d.coeff : ℚ) * 10 ^ d.exp := by
  unfold PyDec.value
  rw [abs_mul, abs_of_nonneg (mul_nonneg (show (0 : ℚ) ≤ d.coeff by positivity) (ten_zpow_pos d.exp).le)]
  cases d.neg <;> simp

end Verif
