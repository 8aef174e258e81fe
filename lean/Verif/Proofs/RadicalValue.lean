import Verif.Model.RadicalValue
import Verif.Proofs.Fraction
import Verif.Proofs.ComplexPart
import Mathlib.Analysis.Real.Sqrt
import Mathlib.Tactic.Linarith
import Mathlib.Tactic.Positivity

/-! The decimal value of a radical: errors of square roots, products, sums and quotients. -/

namespace Verif

open Spec

/-- The relative error of rounding. -/
theorem rounds_rel {v x : ℚ} (h : Rounds 28 v x) : |x - v| ≤ |v| * (1 / 10 ^ 27 / 2) := by
  by_cases hv : v = 0
  · have hx : x = 0 := by
      have := (roundsHalfEven_bounds h.1).2.2.mp (by rw [hv, abs_zero])
      exact abs_eq_zero.mp this
    simp [hv, hx]
  · rcases h.1 with ⟨h1, -⟩ | ⟨m, e, h1, h2, h3, h4, h5⟩
    · exact absurd (abs_eq_zero.mp h1) hv
    · have hp := ten_zpow_pos e
      have hm : (10 : ℚ) ^ 27 ≤ m := by exact_mod_cast h1
      have key : |(|x| - |v|)| ≤ 10 ^ e / 2 := by
        rcases h5 with ⟨hx, h5⟩ | ⟨hx, h5⟩
        · rw [abs_le]
          constructor
          · rcases h5 with h5 | ⟨h5, -⟩ <;> linarith
          · linarith
        · rw [abs_le]
          constructor
          · linarith
          · rcases h5 with h5 | ⟨h5, -⟩ <;> linarith
      have heq : |x - v| = |(|x| - |v|)| := by
        have h2 := h.2
        rcases le_total 0 v with hv0 | hv0
        · have hx0 : 0 ≤ x := by
            by_contra hc
            exact absurd h2 (not_le.mpr (mul_neg_of_pos_of_neg (lt_of_le_of_ne hv0 (Ne.symm hv)) (not_le.mp hc)))
          rw [abs_of_nonneg hv0, abs_of_nonneg hx0]
        · have hx0 : x ≤ 0 := by
            by_contra hc
            exact absurd h2 (not_le.mpr (mul_neg_of_neg_of_pos (lt_of_le_of_ne hv0 hv) (not_le.mp hc)))
          rw [abs_of_nonpos hv0, abs_of_nonpos hx0, show -x - -v = -(x - v) by ring, abs_neg]
      rw [heq]
      refine key.trans ?_
      have : (10 : ℚ) ^ 27 * 10 ^ e ≤ |v| := (mul_le_mul_of_nonneg_right hm hp.le).trans h3
      have h6 : (10 : ℚ) ^ e ≤ |v| * (1 / 10 ^ 27) := by
        rw [mul_one_div, le_div_iff₀ (by positivity)]
        linarith
      linarith

/-- Rounding in terms of real numbers. -/
theorem rounds_real {v x : ℚ} (h : Rounds 28 v x) : |(x : ℝ) - v| ≤ |(v : ℝ)| * (5 / 10 ^ 28) := by
  have := (Rat.cast_le (K := ℝ)).mpr (rounds_rel h)
  push_cast at this
  refine this.trans (le_of_eq ?_)
  norm_num

theorem signed_cast (d : PyDec) : (d.signed : ℚ) = ((if d.neg then -1 else 1 : Int) : ℚ) * d.coeff := by
  unfold PyDec.signed
  split <;> simp

theorem decAdd_rounds (a b : PyDec) : Rounds 28 (a.value + b.value) (decAdd 28 a b).value := by
  set e := min a.exp b.exp with he
  set s : Int := a.signed * 10 ^ (a.exp - e).toNat + b.signed * 10 ^ (b.exp - e).toNat with hs
  set ng : Bool := if a.coeff = 0 ∧ b.coeff = 0 then a.neg && b.neg else decide (s < 0) with hng
  have hadd : decAdd 28 a b = decFix 28 ⟨ng, s.natAbs, e⟩ := rfl
  obtain ⟨h1, h2, -⟩ := decFix_spec (prec := 28) (by omega) ⟨ng, s.natAbs, e⟩ _ (sameSide_self _) (fun _ => rfl)
  rw [← hadd] at h1 h2
  have hpow : ∀ d : PyDec, e ≤ d.exp → d.value = (d.signed : ℚ) * 10 ^ (d.exp - e).toNat * 10 ^ e := by
    intro d hd
    unfold PyDec.value
    rw [signed_cast, mul_assoc, mul_assoc, ← zpow_natCast, ← ten_zpow_add]
    congr 3
    omega
  have hv : a.value + b.value = (s : ℚ) * 10 ^ e := by
    rw [hpow a (min_le_left _ _), hpow b (min_le_right _ _), hs]
    push_cast
    ring
  have hp := ten_zpow_pos e
  have habs : |a.value + b.value| = (s.natAbs : ℚ) * 10 ^ e := by
    rw [hv, abs_mul, abs_of_pos hp, Nat.cast_natAbs, Int.cast_abs]
  refine ⟨by rw [habs, PyDec.abs_value]; exact h1, ?_⟩
  have hm := (decAdd 28 a b).mag_nonneg
  have hval : (decAdd 28 a b).value = ((if ng then -1 else 1 : Int) : ℚ) * (decAdd 28 a b).mag := by
    rw [← show (decAdd 28 a b).neg = ng from h2]; rfl
  rw [hval, hv]
  by_cases h0 : a.coeff = 0 ∧ b.coeff = 0
  · have : s = 0 := by
      rw [hs]; unfold PyDec.signed; simp [h0.1, h0.2]
    simp [this]
  · have hng' : ng = decide (s < 0) := by rw [hng, if_neg h0]
    rw [hng']
    by_cases hs0 : s < 0
    · simp only [hs0, decide_true, if_true]
      have : (s : ℚ) < 0 := by exact_mod_cast hs0
      have h3 : (s : ℚ) * 10 ^ e ≤ 0 := mul_nonpos_of_nonpos_of_nonneg this.le hp.le
      push_cast
      nlinarith
    · simp only [hs0, decide_false, Bool.false_eq_true, if_false]
      have : (0 : ℚ) ≤ s := by exact_mod_cast not_lt.mp hs0
      push_cast
      exact mul_nonneg (mul_nonneg this hp.le) (by linarith)

/-- The square root of a whole number, with its relative error. -/
theorem decSqrt_error (n : Nat) (hn : n < 10000) :
    |(((decSqrt 28 (decOfInt n)).value : ℚ) : ℝ) - Real.sqrt n| ≤ Real.sqrt n * (7 / 10 ^ 28) := by
  have hd : decOfInt n = ⟨false, n, 0⟩ := by
    unfold decOfInt
    simp
  rw [hd]
  by_cases h0 : n = 0
  · subst h0
    have : (decSqrt 28 ⟨false, 0, 0⟩).value = 0 := by
      have : decSqrt 28 ⟨false, 0, 0⟩ = ⟨false, 0, 0⟩ := by decide +kernel
      rw [this]; simp [PyDec.value]
    rw [this]
    simp
  · obtain ⟨S, hS, hbig⟩ : ∃ S : Nat, ((28 : Nat) : Int) + 1 - (((natRepr n).length + 1) / 2 : Nat) = (S : Int) ∧
        10 ^ 56 ≤ n * 100 ^ S := by
      obtain ⟨h1, h2, h3⟩ := natRepr_length n h0
      have h4 := (natRepr_length_le (n := n) (k := 4) (by omega)).mpr (by omega)
      generalize (natRepr n).length = len at *
      have : len = 1 ∨ len = 2 ∨ len = 3 ∨ len = 4 := by omega
      rcases this with rfl | rfl | rfl | rfl
      · exact ⟨28, by norm_num, by norm_num at h1 ⊢; omega⟩
      · exact ⟨28, by norm_num, by norm_num at h1 ⊢; omega⟩
      · exact ⟨27, by norm_num, by norm_num at h1 ⊢; omega⟩
      · exact ⟨27, by norm_num, by norm_num at h1 ⊢; omega⟩
    set N := Nat.sqrt (n * 100 ^ S) with hN
    have hsq : decSqrt 28 ⟨false, n, 0⟩ =
        if N * N = n * 100 ^ S then decFix 28 ⟨false, N / 10 ^ S, 0⟩
        else decFix 28 ⟨false, if N % 5 = 0 then N + 1 else N, -(S : Int)⟩ := by
      unfold decSqrt
      simp only [if_neg h0, show ((0 : Int) % 2 = 1) = False from by simp, if_false, hS, Int.toNat_natCast,
        show (-(S : Int)).toNat = 0 by omega, pow_zero, Nat.div_one, Nat.mod_one, true_and, mul_one,
        show (0 : Int) / 2 = 0 from rfl, zero_sub]
      rfl
    rw [hsq]
    have hpS : (0 : ℝ) < 10 ^ S := by positivity
    have hroot : Real.sqrt ((n * 100 ^ S : Nat) : ℝ) = Real.sqrt n * 10 ^ S := by
      push_cast
      rw [show (100 : ℝ) ^ S = (10 ^ S) ^ 2 by rw [← pow_mul, mul_comm, pow_mul]; norm_num,
        Real.sqrt_mul (by positivity), Real.sqrt_sq (by positivity)]
    have hsn : 0 ≤ Real.sqrt n := Real.sqrt_nonneg _
    by_cases hex : N * N = n * 100 ^ S
    · rw [if_pos hex]
      have hdvd : 10 ^ S ∣ N := by
        rw [← Nat.pow_dvd_pow_iff (n := 2) (by omega)]
        refine ⟨n, ?_⟩
        rw [sq, hex, ← pow_mul, mul_comm S 2, pow_mul]
        ring
      obtain ⟨k, hk⟩ := hdvd
      have hkk : k * k = n := by
        have h100 : (100 : Nat) ^ S = 10 ^ S * 10 ^ S := by rw [← mul_pow]; norm_num
        rw [hk, h100] at hex
        have hpos : 0 < 10 ^ S * 10 ^ S := by positivity
        refine Nat.eq_of_mul_eq_mul_right hpos ?_
        rw [← hex]
        ring
      have hNk : N / 10 ^ S = k := by rw [hk]; exact Nat.mul_div_cancel_left _ (by positivity)
      rw [hNk]
      have hkl : k < 100 := by nlinarith
      have hfix : decFix 28 ⟨false, k, 0⟩ = ⟨false, k, 0⟩ := by
        have hl := (natRepr_length_le (n := k) (k := 28) (by omega)).mpr (by omega)
        unfold decFix
        simp only
        rw [if_pos (by omega)]
      rw [hfix]
      have : Real.sqrt n = k := by
        rw [← hkk]; push_cast
        exact Real.sqrt_mul_self (by positivity)
      rw [this]
      simp [PyDec.value]
    · rw [if_neg hex]
      have hlo : N * N ≤ n * 100 ^ S := Nat.sqrt_le _
      have hhi : n * 100 ^ S < (N + 1) * (N + 1) := Nat.lt_succ_sqrt _
      have hlo' : (N : ℝ) ≤ Real.sqrt n * 10 ^ S := by
        rw [← hroot]
        refine Real.le_sqrt_of_sq_le ?_
        rw [sq]; exact_mod_cast hlo
      have hhi' : Real.sqrt n * 10 ^ S ≤ N + 1 := by
        rw [← hroot]
        rw [Real.sqrt_le_left (by positivity), sq]
        exact_mod_cast hhi.le
      have hb' : (10 : ℝ) ^ 28 ≤ Real.sqrt n * 10 ^ S := by
        rw [← hroot]
        refine Real.le_sqrt_of_sq_le ?_
        rw [← pow_mul]
        exact_mod_cast hbig
      set c : Nat := if N % 5 = 0 then N + 1 else N with hc
      have hc1 : N ≤ c ∧ c ≤ N + 1 := by rw [hc]; split <;> omega
      have hc2 : (N : ℝ) ≤ c ∧ (c : ℝ) ≤ N + 1 := by exact_mod_cast hc1
      obtain ⟨h1, h2, -⟩ := decFix_spec (prec := 28) (by omega) ⟨false, c, -(S : Int)⟩ _ (sameSide_self _) (fun _ => rfl)
      have hr : Rounds 28 ((c : ℚ) * 10 ^ (-(S : Int))) (decFix 28 ⟨false, c, -(S : Int)⟩).value := by
        have hnn : (0 : ℚ) ≤ (c : ℚ) * 10 ^ (-(S : Int)) := mul_nonneg (by positivity) (ten_zpow_pos _).le
        refine ⟨by rw [PyDec.abs_value, abs_of_nonneg hnn]; exact h1, ?_⟩
        refine mul_nonneg hnn ?_
        have : (decFix 28 ⟨false, c, -(S : Int)⟩).value = (decFix 28 ⟨false, c, -(S : Int)⟩).mag := by
          unfold PyDec.value PyDec.mag
          rw [h2]; simp
        rw [this]; exact PyDec.mag_nonneg _
      have hrel := rounds_real hr
      generalize (decFix 28 ⟨false, c, -(S : Int)⟩).value = x at hrel ⊢
      have hrel' : |(x : ℝ) - c / 10 ^ S| ≤ c / 10 ^ S * (1 / 10 ^ 27 / 2) := by
        have hcast : (((c : ℚ) * 10 ^ (-(S : Int)) : ℚ) : ℝ) = (c : ℝ) / 10 ^ S := by
          push_cast
          rw [zpow_neg, zpow_natCast, div_eq_mul_inv]
        rw [hcast, abs_of_nonneg (show (0 : ℝ) ≤ (c : ℝ) / 10 ^ S by positivity)] at hrel
        refine hrel.trans (le_of_eq ?_)
        norm_num
      set r := Real.sqrt n with hrdef
      have hcr : |(c : ℝ) / 10 ^ S - r| ≤ r * (1 / 10 ^ 28) := by
        have h3 : |(c : ℝ) - r * 10 ^ S| ≤ 1 := by
          rw [abs_le]; constructor <;> linarith
        have h4 : (c : ℝ) / 10 ^ S - r = ((c : ℝ) - r * 10 ^ S) / 10 ^ S := by
          field_simp
        rw [h4, abs_div, abs_of_pos hpS, div_le_iff₀ hpS]
        have : 1 ≤ r * 10 ^ S * (1 / 10 ^ 28) := by
          rw [mul_one_div, le_div_iff₀ (by positivity)]
          linarith
        calc _ ≤ 1 := h3
          _ ≤ _ := this
          _ = _ := by ring
      have hcle : (c : ℝ) / 10 ^ S ≤ r * (1 + 1 / 10 ^ 28) := by
        have := (abs_le.mp hcr).2
        linarith
      have htri : |(x : ℝ) - r| ≤ |(x : ℝ) - c / 10 ^ S| + |(c : ℝ) / 10 ^ S - r| := abs_sub_le _ _ _
      have : (c : ℝ) / 10 ^ S * (1 / 10 ^ 27 / 2) ≤ r * (1 + 1 / 10 ^ 28) * (1 / 10 ^ 27 / 2) :=
        mul_le_mul_of_nonneg_right hcle (by positivity)
      have h5 : r * (1 + 1 / 10 ^ 28) * (1 / 10 ^ 27 / 2) + r * (1 / 10 ^ 28) ≤ r * (7 / 10 ^ 28) := by
        have : (1 + 1 / 10 ^ 28 : ℝ) * (1 / 10 ^ 27 / 2) + 1 / 10 ^ 28 ≤ 7 / 10 ^ 28 := by norm_num
        nlinarith
      linarith

/-- A summand. -/
theorem decTerm_error (x : Int) (n : Nat) (hn : n < 10000) :
    |(((decMul 28 (decOfInt x) (decSqrt 28 (decOfInt n))).value : ℚ) : ℝ) - x * Real.sqrt n| ≤
      |(x : ℝ)| * Real.sqrt n * (13 / 10 ^ 28) := by
  have h1 := decSqrt_error n hn
  have h2 := rounds_real (decMul_rounds (prec := 28) (by omega) (decOfInt x) (decSqrt 28 (decOfInt n)))
  rw [decOfInt_value] at h2
  push_cast at h2
  generalize ((decMul 28 (decOfInt x) (decSqrt 28 (decOfInt n))).value : ℝ) = p at *
  generalize ((decSqrt 28 (decOfInt n)).value : ℝ) = q at *
  set r := Real.sqrt n
  have hr : 0 ≤ r := Real.sqrt_nonneg _
  set a := |(x : ℝ)| with ha
  have ha0 : 0 ≤ a := abs_nonneg _
  have h3 : |(x : ℝ) * q - x * r| ≤ a * (r * (7 / 10 ^ 28)) := by
    rw [← mul_sub, abs_mul]
    exact mul_le_mul_of_nonneg_left h1 ha0
  have hq : |q| ≤ r * (1 + 7 / 10 ^ 28) := by
    have : |q| ≤ |q - r| + |r| := by
      have := abs_add_le (q - r) r
      simpa using this
    rw [abs_of_nonneg hr] at this
    linarith
  have h4 : |(x : ℝ) * q| * (5 / 10 ^ 28) ≤ a * (r * (1 + 7 / 10 ^ 28)) * (5 / 10 ^ 28) := by
    rw [abs_mul]
    exact mul_le_mul_of_nonneg_right (mul_le_mul_of_nonneg_left hq ha0) (by positivity)
  have h5 : |p - x * r| ≤ |p - x * q| + |(x : ℝ) * q - x * r| := abs_sub_le _ _ _
  have h6 : a * (r * (1 + 7 / 10 ^ 28)) * (5 / 10 ^ 28) + a * (r * (7 / 10 ^ 28)) ≤ a * r * (13 / 10 ^ 28) := by
    have h0 : 0 ≤ a * r := mul_nonneg ha0 hr
    have : (1 + 7 / 10 ^ 28 : ℝ) * (5 / 10 ^ 28) + 7 / 10 ^ 28 ≤ 13 / 10 ^ 28 := by norm_num
    calc _ = a * r * ((1 + 7 / 10 ^ 28) * (5 / 10 ^ 28) + 7 / 10 ^ 28) := by ring
      _ ≤ _ := mul_le_mul_of_nonneg_left this h0
  linarith

/-- The decimal value: its error in proportion to the summands. -/
theorem radDecimal_error {b : Buf} {d m n : Nat} {x y : Int}
    (h : radFields b = .ok ((d : Int), x, (m : Int), y, (n : Int))) (hd : d ≠ 0) (hm : m < 10000) (hn : n < 10000) :
    ∃ c, radDecimal b = .ok c ∧ c.coeff < 10 ^ 28 ∧
      |((c.value : ℚ) : ℝ) - (x * Real.sqrt m + y * Real.sqrt n) / d| ≤
        (|(x : ℝ)| * Real.sqrt m + |(y : ℝ)| * Real.sqrt n) / d * (3 / 10 ^ 27) := by
  have h1 := decTerm_error x m hm
  have h2 := decTerm_error y n hn
  set p := decMul 28 (decOfInt x) (decSqrt 28 (decOfInt m)) with hp
  set q := decMul 28 (decOfInt y) (decSqrt 28 (decOfInt n)) with hq
  have h3 := rounds_real (decAdd_rounds p q)
  have hdz : (decOfInt (d : Int)).coeff ≠ 0 := by simpa [decOfInt] using hd
  have h4 := rounds_real (decDiv_rounds (prec := 28) (by omega) (decAdd 28 p q) (decOfInt d) hdz)
  have h5 := (decDiv_spec (prec := 28) (by omega) (decAdd 28 p q) (decOfInt d) hdz).2.2
  refine ⟨decDiv 28 (decAdd 28 p q) (decOfInt d), ?_, h5, ?_⟩
  · simp only [radDecimal, h, decTrueDiv, if_neg hdz, hp, hq]
  · rw [decOfInt_value] at h4
    push_cast at h3 h4
    generalize ((decDiv 28 (decAdd 28 p q) (decOfInt d)).value : ℝ) = z at *
    generalize ((decAdd 28 p q).value : ℝ) = s at *
    generalize (p.value : ℝ) = p at *
    generalize (q.value : ℝ) = q at *
    set A := |(x : ℝ)| * Real.sqrt m with hA
    set B := |(y : ℝ)| * Real.sqrt n with hB
    have hA0 : 0 ≤ A := by positivity
    have hB0 : 0 ≤ B := by positivity
    have hAx : |(x : ℝ) * Real.sqrt m| = A := by rw [abs_mul, abs_of_nonneg (Real.sqrt_nonneg _)]
    have hBy : |(y : ℝ) * Real.sqrt n| = B := by rw [abs_mul, abs_of_nonneg (Real.sqrt_nonneg _)]
    have hD : (0 : ℝ) < d := by exact_mod_cast Nat.pos_of_ne_zero hd
    set u := (x : ℝ) * Real.sqrt m
    set v := (y : ℝ) * Real.sqrt n
    have hpq : |p + q - (u + v)| ≤ (A + B) * (13 / 10 ^ 28) := by
      have : |p + q - (u + v)| ≤ |p - u| + |q - v| := by
        rw [show p + q - (u + v) = (p - u) + (q - v) by ring]; exact abs_add_le _ _
      linarith
    have huv : |u + v| ≤ A + B := by
      have := abs_add_le u v
      rw [hAx, hBy] at this; exact this
    have hpq' : |p + q| ≤ (A + B) * (1 + 13 / 10 ^ 28) := by
      have : |p + q| ≤ |p + q - (u + v)| + |u + v| := by
        have := abs_add_le (p + q - (u + v)) (u + v); simpa using this
      linarith
    have hs : |s - (u + v)| ≤ (A + B) * (19 / 10 ^ 28) := by
      have h6 : |s - (u + v)| ≤ |s - (p + q)| + |p + q - (u + v)| := abs_sub_le _ _ _
      have h7 : |p + q| * (5 / 10 ^ 28) ≤ (A + B) * (1 + 13 / 10 ^ 28) * (5 / 10 ^ 28) :=
        mul_le_mul_of_nonneg_right hpq' (by positivity)
      have h8 : (A + B) * (1 + 13 / 10 ^ 28) * (5 / 10 ^ 28) + (A + B) * (13 / 10 ^ 28) ≤ (A + B) * (19 / 10 ^ 28) := by
        have : (1 + 13 / 10 ^ 28 : ℝ) * (5 / 10 ^ 28) + 13 / 10 ^ 28 ≤ 19 / 10 ^ 28 := by norm_num
        calc _ = (A + B) * ((1 + 13 / 10 ^ 28) * (5 / 10 ^ 28) + 13 / 10 ^ 28) := by ring
          _ ≤ _ := mul_le_mul_of_nonneg_left this (by linarith)
      linarith
    have hs' : |s| ≤ (A + B) * (1 + 19 / 10 ^ 28) := by
      have : |s| ≤ |s - (u + v)| + |u + v| := by
        have := abs_add_le (s - (u + v)) (u + v); simpa using this
      linarith
    have hsd : |s / d - (u + v) / d| ≤ (A + B) / d * (19 / 10 ^ 28) := by
      rw [← sub_div, abs_div, abs_of_pos hD, div_le_iff₀ hD]
      calc _ ≤ _ := hs
        _ = _ := by field_simp
    have hsd' : |s / d| ≤ (A + B) / d * (1 + 19 / 10 ^ 28) := by
      rw [abs_div, abs_of_pos hD, div_le_iff₀ hD]
      calc _ ≤ _ := hs'
        _ = _ := by field_simp
    have h9 : |z - (u + v) / d| ≤ |z - s / d| + |s / d - (u + v) / d| := abs_sub_le _ _ _
    have h10 : |s / d| * (5 / 10 ^ 28) ≤ (A + B) / d * (1 + 19 / 10 ^ 28) * (5 / 10 ^ 28) :=
      mul_le_mul_of_nonneg_right hsd' (by positivity)
    have h11 : (A + B) / d * (1 + 19 / 10 ^ 28) * (5 / 10 ^ 28) + (A + B) / d * (19 / 10 ^ 28) ≤
        (A + B) / d * (3 / 10 ^ 27) := by
      have : (1 + 19 / 10 ^ 28 : ℝ) * (5 / 10 ^ 28) + 19 / 10 ^ 28 ≤ 3 / 10 ^ 27 := by norm_num
      calc _ = (A + B) / d * ((1 + 19 / 10 ^ 28) * (5 / 10 ^ 28) + 19 / 10 ^ 28) := by ring
        _ ≤ _ := mul_le_mul_of_nonneg_left this (by positivity)
    linarith

/-- A sum of two roots that is not zero is not small. -/
theorem roots_gap (x y : Int) (m n : Nat) (h : (x : ℝ) * Real.sqrt m + y * Real.sqrt n ≠ 0) :
    1 ≤ |(x : ℝ) * Real.sqrt m + y * Real.sqrt n| * (|(x : ℝ)| * Real.sqrt m + |(y : ℝ)| * Real.sqrt n) := by
  set u := (x : ℝ) * Real.sqrt m with hu
  set v := (y : ℝ) * Real.sqrt n with hv
  have hA : |(x : ℝ)| * Real.sqrt m = |u| := by rw [hu, abs_mul, abs_of_nonneg (Real.sqrt_nonneg _)]
  have hB : |(y : ℝ)| * Real.sqrt n = |v| := by rw [hv, abs_mul, abs_of_nonneg (Real.sqrt_nonneg _)]
  rw [hA, hB]
  have hu2 : u * u = ((x * x * m : Int) : ℝ) := by
    rw [hu]
    have := Real.mul_self_sqrt (show (0 : ℝ) ≤ m by positivity)
    push_cast
    calc _ = (x : ℝ) * x * (Real.sqrt m * Real.sqrt m) := by ring
      _ = _ := by rw [this]
  have hv2 : v * v = ((y * y * n : Int) : ℝ) := by
    rw [hv]
    have := Real.mul_self_sqrt (show (0 : ℝ) ≤ n by positivity)
    push_cast
    calc _ = (y : ℝ) * y * (Real.sqrt n * Real.sqrt n) := by ring
      _ = _ := by rw [this]
  have hint : ∀ k : Int, k ≠ 0 → (1 : ℝ) ≤ |(k : ℝ)| := by
    intro k hk
    have : 1 ≤ |k| := Int.one_le_abs hk
    exact_mod_cast this
  by_cases hz : x * x * m - y * y * n = 0
  · have huv : u * u = v * v := by
      rw [hu2, hv2]; exact_mod_cast sub_eq_zero.mp hz
    have : u = v := by
      rcases mul_self_eq_mul_self_iff.mp huv with h1 | h1
      · exact h1
      · exact absurd (by rw [h1]; ring) h
    rw [← this] at h ⊢
    have hu0 : u ≠ 0 := by intro h0; rw [h0] at h; simp at h
    have hk : x * x * m ≠ 0 := by
      intro h0
      rw [h0] at hu2
      simp at hu2
      exact hu0 hu2
    have h1 := hint _ hk
    rw [← hu2, abs_mul] at h1
    have h2 : |u + u| = 2 * |u| := by rw [← two_mul, abs_mul, abs_two]
    rw [h2]
    nlinarith [abs_nonneg u]
  · have h1 := hint _ hz
    have h2 : ((x * x * m - y * y * n : Int) : ℝ) = (u + v) * (u - v) := by
      push_cast at hu2 hv2 ⊢
      rw [← hu2, ← hv2]; ring
    rw [h2, abs_mul] at h1
    have h3 : |u - v| ≤ |u| + |v| := abs_sub u v
    exact h1.trans (mul_le_mul_of_nonneg_left h3 (abs_nonneg _))

/-- The summands are not large. -/
theorem roots_bound {x y : Int} {m n : Nat} (hx : x.natAbs ≤ 1665) (hy : y.natAbs ≤ 1665) (hm : m ≤ 1665) (hn : n ≤ 1665) :
    (|(x : ℝ)| * Real.sqrt m + |(y : ℝ)| * Real.sqrt n) ^ 2 ≤ 2 * 10 ^ 10 := by
  have key : ∀ (z : Int) (k : Nat), z.natAbs ≤ 1665 → k ≤ 1665 → (|(z : ℝ)| * Real.sqrt k) ^ 2 ≤ 1665 ^ 3 := by
    intro z k hz hk
    rw [mul_pow, Real.sq_sqrt (by positivity)]
    have h1 : |(z : ℝ)| ≤ 1665 := by
      have : |(z : ℝ)| = (z.natAbs : ℝ) := by rw [Nat.cast_natAbs, Int.cast_abs]
      rw [this]; exact_mod_cast hz
    have h2 : (k : ℝ) ≤ 1665 := by exact_mod_cast hk
    calc |(z : ℝ)| ^ 2 * k ≤ 1665 ^ 2 * 1665 :=
          mul_le_mul (pow_le_pow_left₀ (abs_nonneg _) h1 2) h2 (by positivity) (by positivity)
      _ = _ := by norm_num
  have h1 := key x m hx hm
  have h2 := key y n hy hn
  nlinarith [sq_nonneg (|(x : ℝ)| * Real.sqrt m - |(y : ℝ)| * Real.sqrt n)]

/-- The fields of any nine bytes. -/
theorem radFields_total (mu : Bool) {l : Bytes} (hl : l.length = 9) : ∃ (d m n : Nat) (x y : Int),
    radFields ⟨mu, l⟩ = .ok ((d : Int), x, (m : Int), y, (n : Int)) ∧
      d ≤ 1665 ∧ m ≤ 1665 ∧ n ≤ 1665 ∧ x.natAbs ≤ 1665 ∧ y.natAbs ≤ 1665 := by
  match l, hl with
  | [b0, b1, b2, b3, b4, b5, b6, b7, b8], _ =>
    have hl : ∀ a b : UInt8, List.foldl bcdStep (a.toNat % 16) [b] ≤ 1665 := by
      intro a b
      have := a.toNat_lt
      have := b.toNat_lt
      simp only [List.foldl, bcdStep]
      omega
    have hr : ∀ a b : UInt8, 10 * List.foldl bcdStep 0 [a] + b.toNat / 16 ≤ 1665 := by
      intro a b
      have := a.toNat_lt
      have := b.toNat_lt
      simp only [List.foldl, bcdStep]
      omega
    have hsg : ∀ (k : Nat) (p : Prop) [Decidable p], k ≤ 1665 → ((k : Int) * (if p then -1 else 1)).natAbs ≤ 1665 := by
      intro k p _ hk
      split <;> simp <;> omega
    exact ⟨_, _, _, _, _, rfl, hl b1 b2, hl b7 b8, hr b6 b7, hsg _ _ (hl b4 b5), hsg _ _ (hr b3 b4)⟩

end Verif
