import Verif.Proofs.RadicalValue

/-
C114: the decimal value and the sign of a radical.
-/

namespace Verif
open Spec

/-- C114, the value: whatever the nine bytes of a radical, if the denominator is not zero then `decimal` gives a
number of at most 28 digits, and unless the radical is zero, its first 16 digits are right: its distance from
the value of the fields is at most the 10^16th part of that value. -/
theorem C114_value_partial (mu : Bool) {l : Bytes} (hl : l.length = 9) : ∃ (d m n : Nat) (x y : Int),
    radFields ⟨mu, l⟩ = .ok ((d : Int), x, (m : Int), y, (n : Int)) ∧
    (d ≠ 0 → ∃ c, radDecimal ⟨mu, l⟩ = .ok c ∧ c.coeff < 10 ^ 28 ∧
      ((x * Real.sqrt m + y * Real.sqrt n) / d ≠ 0 →
        |((c.value : ℚ) : ℝ) - (x * Real.sqrt m + y * Real.sqrt n) / d| ≤
          |(x * Real.sqrt m + y * Real.sqrt n) / d| / 10 ^ 16) ∧
      ((x * Real.sqrt m + y * Real.sqrt n) / d = 0 → |((c.value : ℚ) : ℝ)| ≤ 1 / 10 ^ 21)) := by
  obtain ⟨d, m, n, x, y, hf, h1, h2, h3, h4, h5⟩ := radFields_total mu hl
  refine ⟨d, m, n, x, y, hf, fun hd => ?_⟩
  obtain ⟨c, hc, hlt, herr⟩ := radDecimal_error hf hd (by omega) (by omega)
  have hb := roots_bound h4 h5 h2 h3
  have hg := roots_gap x y m n
  have hD : (1 : ℝ) ≤ d := by exact_mod_cast Nat.one_le_iff_ne_zero.mpr hd
  set V := (x : ℝ) * Real.sqrt m + y * Real.sqrt n
  set W := |(x : ℝ)| * Real.sqrt m + |(y : ℝ)| * Real.sqrt n
  have hW : 0 ≤ W := by positivity
  refine ⟨c, hc, hlt, fun hne => ?_, fun h0 => ?_⟩
  · have hV : V ≠ 0 := fun h => hne (by rw [h, zero_div])
    have hg := hg hV
    refine herr.trans ?_
    rw [abs_div, abs_of_nonneg (show (0 : ℝ) ≤ d by linarith), div_mul_eq_mul_div, div_div,
      div_le_div_iff₀ (by linarith) (by positivity)]
    have h6 : W * (3 / 10 ^ 27) * 10 ^ 16 ≤ |V| := by
      have h7 : W ≤ |V| * W ^ 2 := by nlinarith
      have h8 : |V| * W ^ 2 ≤ |V| * (2 * 10 ^ 10) := mul_le_mul_of_nonneg_left hb (abs_nonneg _)
      have h9 := abs_nonneg V
      have h10 : W ≤ |V| * (2 * 10 ^ 10) := h7.trans h8
      have : W * (3 / 10 ^ 27) * 10 ^ 16 ≤ |V| * (2 * 10 ^ 10) * (3 / 10 ^ 27) * 10 ^ 16 := by gcongr
      have h11 : |V| * (2 * 10 ^ 10) * (3 / 10 ^ 27) * 10 ^ 16 = |V| * (6 / 10) := by ring
      linarith
    calc W * (3 / 10 ^ 27) * (d * 10 ^ 16) = W * (3 / 10 ^ 27) * 10 ^ 16 * d := by ring
      _ ≤ |V| * d := mul_le_mul_of_nonneg_right h6 (by linarith)
  · rw [h0, sub_zero] at herr
    refine herr.trans ?_
    have hW' : W ≤ 2 * 10 ^ 5 := by
      by_contra hc
      have : (2 * 10 ^ 5 : ℝ) < W := not_le.mp hc
      nlinarith
    have : W / d ≤ W := div_le_self hW hD
    calc W / d * (3 / 10 ^ 27) ≤ 2 * 10 ^ 5 * (3 / 10 ^ 27) := by gcongr; linarith
      _ ≤ 1 / 10 ^ 21 := by norm_num

/-- C114, the sign: that of the value, unless this is zero. -/
theorem C114_sign_partial (mu : Bool) {l : Bytes} (hl : l.length = 9) : ∃ (d m n : Nat) (x y : Int),
    radFields ⟨mu, l⟩ = .ok ((d : Int), x, (m : Int), y, (n : Int)) ∧
    (d ≠ 0 →
      ((x * Real.sqrt m + y * Real.sqrt n) / d < 0 → radSign ⟨mu, l⟩ = .ok (-1)) ∧
      (0 < (x * Real.sqrt m + y * Real.sqrt n) / d → radSign ⟨mu, l⟩ = .ok 1)) := by
  obtain ⟨d, m, n, x, y, hf, h⟩ := C114_value_partial mu hl
  refine ⟨d, m, n, x, y, hf, fun hd => ?_⟩
  obtain ⟨c, hc, -, h1, -⟩ := h hd
  set v := (x * Real.sqrt m + y * Real.sqrt n) / d
  have hm := c.mag_nonneg
  have hneg : c.value < 0 ↔ (c.neg = true ∧ c.coeff ≠ 0) := by
    have hp := ten_zpow_pos c.exp
    unfold PyDec.value
    by_cases hn : c.neg = true
    · by_cases h0 : c.coeff = 0
      · simp [hn, h0]
      · have : (0 : ℚ) < c.coeff := by exact_mod_cast Nat.pos_of_ne_zero h0
        have := mul_pos this hp
        simp only [hn, if_true, h0, ne_eq, not_false_eq_true, and_true, iff_true]
        push_cast
        linarith
    · have : (0 : ℚ) ≤ c.coeff * 10 ^ c.exp := mul_nonneg (by positivity) hp.le
      have hn' : c.neg = false := by simpa using hn
      simp only [hn', Bool.false_eq_true, if_false, false_and, iff_false, not_lt]
      push_cast
      linarith
  simp only [radSign, hc]
  constructor
  · intro hv
    have h2 := h1 hv.ne
    rw [abs_of_neg hv, abs_le] at h2
    have : ((c.value : ℚ) : ℝ) < 0 := by
      have := h2.2
      linarith
    rw [if_pos (hneg.mp (by exact_mod_cast this))]
  · intro hv
    have h2 := h1 hv.ne'
    rw [abs_of_pos hv, abs_le] at h2
    have : (0 : ℝ) < ((c.value : ℚ) : ℝ) := by
      have := h2.1
      linarith
    have h3 : (0 : ℚ) < c.value := by exact_mod_cast this
    rw [if_neg (fun h => absurd (hneg.mpr h) (not_lt.mpr h3.le))]

/-- C114, no denominator: `decimal` and `sign` raise the errors of `decimal` for a
division by zero. -/
theorem C114_denominator {b : Buf} {m n : Nat} {x y : Int}
    (h : radFields b = .ok (0, x, (m : Int), y, (n : Int))) :
    ∃ e, radDecimal b = .error e ∧ radSign b = .error e ∧ (e = .zeroDivisionError ∨ e = .invalidOperation) := by
  have h1 : ∃ e, radDecimal b = .error e ∧ (e = .zeroDivisionError ∨ e = .invalidOperation) := by
    refine ⟨_, by simp only [radDecimal, h, decTrueDiv, show (decOfInt 0).coeff = 0 from rfl, if_true]; rfl, ?_⟩
    split
    · exact .inr rfl
    · exact .inl rfl
  obtain ⟨e, h1, h2⟩ := h1
  exact ⟨e, h1, by simp only [radSign, h1], h2⟩

/-- C114 is false for zero: the radical (-√18+3√2)/1 is zero, but its decimal value is -10^-27 and its sign is
negative. -/
theorem C114_zero_false : ∃ b : Buf, radFields b = .ok (1, -1, 18, 3, 2) ∧
    ((-1 : ℝ) * Real.sqrt 18 + 3 * Real.sqrt 2) / 1 = 0 ∧
    radDecimal b = .ok ⟨true, 1, -27⟩ ∧ radSign b = .ok (-1) := by
  refine ⟨⟨true, [0x1C, 0x10, 0x01, 0x00, 0x30, 0x01, 0x00, 0x20, 0x18]⟩, by decide +kernel, ?_,
    by decide +kernel, by decide +kernel⟩
  have : Real.sqrt 18 = 3 * Real.sqrt 2 := by
    rw [show (18 : ℝ) = 3 ^ 2 * 2 by norm_num, Real.sqrt_mul (by norm_num), Real.sqrt_sq (by norm_num)]
  rw [this]
  ring

/-- (45√13-999√2)/7 -/
example : radDecimal ⟨true, [0x1C, 0x20, 0x07, 0x99, 0x90, 0x45, 0x00, 0x20, 0x13]⟩ =
    .ok ⟨true, 1786499344878346336517888683, -25⟩ := by decide +kernel

example : radSign ⟨true, [0x1C, 0x20, 0x07, 0x99, 0x90, 0x45, 0x00, 0x20, 0x13]⟩ = .ok (-1) := by decide +kernel

end Verif
