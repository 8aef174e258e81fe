import Verif.Model.Fraction
import Verif.Spec.Fraction
import Mathlib.Tactic.FieldSimp
import Mathlib.Tactic.Positivity
import Mathlib.Tactic.Linarith
import Mathlib.Tactic.LinearCombination
import Mathlib.Tactic.NormNum
import Mathlib.Tactic.Ring

/-! `limit_denominator` finds a best approximation. -/

namespace Verif

open Spec

/-- The invariant of the loop of `limit_denominator`. -/
structure LimitInv (bound : Nat) (N D σ p0 q0 p1 q1 n d : Int) : Prop where
  num : n * p1 + d * p0 = N
  den : n * q1 + d * q0 = D
  det : p1 * q0 - p0 * q1 = σ
  q0_nonneg : 0 ≤ q0
  q0_le : q0 ≤ bound
  q1_le : q1 ≤ bound
  d_nonneg : 0 ≤ d
  start : (q1 = 0 ∧ q0 = 1) ∨ (0 < q1 ∧ d < n)

theorem limitLoop_spec {bound : Nat} (hb : 1 ≤ bound) {N D : Int} (hD : (bound : Int) < D)
    (hco : ∀ g : Int, g ∣ N → g ∣ D → g ∣ 1) (fuel : Nat) :
    ∀ σ p0 q0 p1 q1 n d : Int, (σ = 1 ∨ σ = -1) → d < fuel → LimitInv bound N D σ p0 q0 p1 q1 n d →
      ∃ σ' p0' q0' p1' q1' n' d' : Int, (σ' = 1 ∨ σ' = -1) ∧ LimitInv bound N D σ' p0' q0' p1' q1' n' d' ∧
        0 < d' ∧ 0 < q1' ∧ (bound : Int) < q0' + n' / d' * q1' ∧
        limitLoop bound fuel p0 q0 p1 q1 n d = .ok (p0', q0', p1', q1', n', d') := by
  induction fuel with
  | zero =>
    intro σ p0 q0 p1 q1 n d _ hf hI
    have := hI.d_nonneg
    omega
  | succ fuel ih =>
    intro σ p0 q0 p1 q1 n d hσ hf hI
    have hd0 := hI.d_nonneg
    have hdpos : 0 < d := by
      rcases Int.lt_or_eq_of_le hd0 with h | h
      · exact h
      · exfalso
        have e1 := hI.num
        have e2 := hI.den
        rw [← h] at e1 e2
        simp only [Int.zero_mul, Int.add_zero] at e1 e2
        rcases hI.start with ⟨hq, -⟩ | ⟨hq, hn⟩
        · rw [hq] at e2; omega
        · have h1 : n ∣ 1 := hco n ⟨p1, e1.symm⟩ ⟨q1, e2.symm⟩
          have : n = 1 := by
            have := Int.le_of_dvd (by omega) h1
            omega
          rw [this] at e2
          have := hI.q1_le
          omega
    have hfd : n.fdiv d = n / d := Int.fdiv_eq_ediv_of_nonneg _ hd0
    unfold limitLoop
    rw [if_neg (by omega)]
    simp only [hfd]
    by_cases hlt : (bound : Int) < q0 + n / d * q1
    · rw [if_pos hlt]
      refine ⟨σ, p0, q0, p1, q1, n, d, hσ, hI, hdpos, ?_, hlt, rfl⟩
      rcases hI.start with ⟨hq, hq'⟩ | ⟨hq, -⟩
      · rw [hq, hq'] at hlt; omega
      · exact hq
    · rw [if_neg hlt]
      have hmod := Int.emod_add_mul_ediv n d
      have hm0 := Int.emod_nonneg n (show d ≠ 0 by omega)
      have hm1 := Int.emod_lt_of_pos n hdpos
      have hr : n - n / d * d = n % d := by rw [Int.mul_comm (n / d)]; omega
      rw [hr]
      refine ih (-σ) p1 q1 (p0 + n / d * p1) (q0 + n / d * q1) d (n % d) (by omega) (by omega) ?_
      generalize n / d = a at *
      generalize n % d = r at *
      refine ⟨?_, ?_, ?_, ?_, hI.q1_le, by omega, hm0, Or.inr ⟨?_, hm1⟩⟩
      · rw [← hI.num, ← hmod]; ring
      · rw [← hI.den, ← hmod]; ring
      · rw [← hI.det]; ring
      · rcases hI.start with ⟨hq, -⟩ | ⟨hq, -⟩ <;> omega
      · rcases hI.start with ⟨hq, hq'⟩ | ⟨hq, hn⟩
        · rw [hq, hq']; omega
        · have ha : 1 ≤ a := by
            by_contra hcon
            have : d * a ≤ 0 := Int.mul_nonpos_of_nonneg_of_nonpos hd0 (by omega)
            omega
          have := hI.q0_nonneg
          nlinarith

theorem den_mkRat_le (p : Int) {q : Int} (hq : 0 < q) : ((mkRat p q.toNat).den : Int) ≤ q := by
  have h := Rat.den_dvd p q
  have e : mkRat p q.toNat = Rat.divInt p q := by
    obtain ⟨k, rfl⟩ := Int.eq_ofNat_of_zero_le hq.le
    simp [Rat.divInt_ofNat]
  rw [e]
  exact Int.le_of_dvd hq h

theorem mkRat_value (p : Int) {q : Int} (hq : 0 < q) : mkRat p q.toNat = (p : ℚ) / q := by
  rw [Rat.mkRat_eq_div]
  congr 1
  obtain ⟨k, rfl⟩ := Int.eq_ofNat_of_zero_le hq.le
  simp

/-- `limit_denominator` returns a fraction nearest to `f` among those with small denominators. -/
theorem limitDenominator_spec {bound : Nat} (hb : 1 ≤ bound) (f : ℚ) :
    ∃ g, limitDenominator bound f = .ok g ∧ BestApprox bound f g := by
  unfold limitDenominator
  by_cases hf : f.den ≤ bound
  · rw [if_pos hf]
    exact ⟨f, rfl, hf, fun h _ => by simp⟩
  · rw [if_neg hf]
    have hD : (bound : Int) < (f.den : Int) := by omega
    have hco : ∀ g : Int, g ∣ f.num → g ∣ (f.den : Int) → g ∣ 1 := by
      intro g h1 h2
      have := Int.dvd_coe_gcd h1 h2
      have hr : Int.gcd f.num f.den = 1 := f.reduced
      rw [hr] at this
      exact_mod_cast this
    obtain ⟨σ, p0, q0, p1, q1, n, d, hσ, hI, hd, hq1, hbr, hrun⟩ :=
      limitLoop_spec hb hD hco (f.den + 1) 1 0 1 1 0 f.num f.den (Or.inl rfl) (by omega)
        ⟨by ring, by ring, by ring, by omega, by omega, by omega, by omega, Or.inl ⟨rfl, rfl⟩⟩
    rw [hrun]
    simp only
    have hfd : ((bound : Int) - q0).fdiv q1 = ((bound : Int) - q0) / q1 := Int.fdiv_eq_ediv_of_nonneg _ hq1.le
    rw [hfd]
    have hkm := Int.emod_add_mul_ediv ((bound : Int) - q0) q1
    have hk0 := Int.emod_nonneg ((bound : Int) - q0) (show q1 ≠ 0 by omega)
    have hk1 := Int.emod_lt_of_pos ((bound : Int) - q0) hq1
    have hknn : 0 ≤ ((bound : Int) - q0) / q1 := Int.ediv_nonneg (by have := hI.q0_le; omega) hq1.le
    generalize ((bound : Int) - q0) / q1 = k at *
    generalize ((bound : Int) - q0) % q1 = r at *
    have ham := Int.emod_add_mul_ediv n d
    have ha0 := Int.emod_nonneg n (show d ≠ 0 by omega)
    generalize n / d = a at *
    generalize n % d = ρ at *
    have hka : k < a := by
      by_contra hcon
      have : a * q1 ≤ k * q1 := Int.mul_le_mul_of_nonneg_right (by omega) hq1.le
      have : q1 * k = k * q1 := Int.mul_comm _ _
      omega
    have hnk : 0 < n - k * d := by
      have : d * (k + 1) ≤ d * a := Int.mul_le_mul_of_nonneg_left (by omega) hd.le
      have : d * (k + 1) = k * d + d := by ring
      omega
    have hvle : q0 + k * q1 ≤ bound := by have : q1 * k = k * q1 := Int.mul_comm _ _
                                          omega
    have hsum : (bound : Int) < q0 + k * q1 + q1 := by have : q1 * k = k * q1 := Int.mul_comm _ _
                                                       omega
    have hv : 0 < q0 + k * q1 := by
      have h0 := hI.q0_nonneg
      have h1 := hI.q1_le
      rcases Int.lt_or_eq_of_le (show 0 ≤ k * q1 from Int.mul_nonneg hknn hq1.le) with h | h
      · omega
      · omega
    have hdet : p1 * (q0 + k * q1) - (p0 + k * p1) * q1 = σ := by rw [← hI.det]; ring
    have hN := hI.num
    have hDe := hI.den
    have eA : f.num * q1 - p1 * f.den = -σ * d := by rw [← hN, ← hDe, ← hI.det]; ring
    have eB : f.num * (q0 + k * q1) - (p0 + k * p1) * f.den = σ * (n - k * d) := by
      rw [← hN, ← hDe, ← hI.det]; ring
    have eC : (n - k * d) * q1 - d * (q0 + k * q1) = f.den - 2 * d * (q0 + k * q1) := by
      rw [← hDe]; ring
    generalize hu : p0 + k * p1 = u at *
    generalize hw : q0 + k * q1 = v at *
    generalize hg : n - k * d = w at *
    -- everything in ℚ
    have hDq : (0 : ℚ) < (f.den : ℚ) := by exact_mod_cast f.den_pos
    have hq1q : (0 : ℚ) < (q1 : ℚ) := by exact_mod_cast hq1
    have hvq : (0 : ℚ) < (v : ℚ) := by exact_mod_cast hv
    have hdq : (0 : ℚ) < (d : ℚ) := by exact_mod_cast hd
    have hwq : (0 : ℚ) < (w : ℚ) := by exact_mod_cast hnk
    have hσq : (σ : ℚ) = 1 ∨ (σ : ℚ) = -1 := by rcases hσ with h | h <;> rw [h] <;> simp
    have hσ2 : (σ : ℚ) * σ = 1 := by rcases hσq with h | h <;> rw [h] <;> norm_num
    have hfv : f = (f.num : ℚ) / f.den := (Rat.num_div_den f).symm
    have e2 : f - (p1 : ℚ) / q1 = -σ * (d / (f.den * q1)) := by
      have : (f.num : ℚ) * q1 - p1 * f.den = -σ * d := by exact_mod_cast eA
      rw [hfv, div_sub_div _ _ hDq.ne' hq1q.ne', mul_comm (f.den : ℚ) p1, this]
      simp only [Rat.num_div_den]
      ring
    have e1 : f - (u : ℚ) / v = σ * (w / (f.den * v)) := by
      have : (f.num : ℚ) * v - u * f.den = σ * w := by exact_mod_cast eB
      rw [hfv, div_sub_div _ _ hDq.ne' hvq.ne', mul_comm (f.den : ℚ) u, this]
      simp only [Rat.num_div_den]
      ring
    have absσ : |(σ : ℚ)| = 1 := by rcases hσq with h | h <;> rw [h] <;> norm_num
    have p2 : 0 < (d : ℚ) / (f.den * q1) := by positivity
    have p1' : 0 < (w : ℚ) / (f.den * v) := by positivity
    have a2 : |f - (p1 : ℚ) / q1| = d / (f.den * q1) := by
      rw [e2, abs_mul, abs_neg, absσ, one_mul, abs_of_pos p2]
    have a1 : |f - (u : ℚ) / v| = w / (f.den * v) := by
      rw [e1, abs_mul, absσ, one_mul, abs_of_pos p1']
    -- no fraction with a small denominator is nearer than both
    have key : ∀ h : ℚ, h.den ≤ bound →
        (d : ℚ) / (f.den * q1) ≤ |f - h| ∨ (w : ℚ) / (f.den * v) ≤ |f - h| := by
      intro h hh
      have hsp : (0 : ℚ) < (h.den : ℚ) := by exact_mod_cast h.den_pos
      have hhv : h = (h.num : ℚ) / h.den := (Rat.num_div_den h).symm
      have hle : ∀ x : ℚ, |(σ : ℚ)| * x ≤ |σ * (f - h)| → x ≤ |f - h| := by
        intro x hx; rw [abs_mul, absσ, one_mul, one_mul] at hx; exact hx
      have hid : (h.den : Int) = (-(σ * (h.num * q1 - p1 * h.den))) * v + (σ * (h.num * v - u * h.den)) * q1 := by
        have hss : σ * σ = 1 := by rcases hσ with h | h <;> rw [h] <;> rfl
        have : (-(σ * (h.num * q1 - p1 * h.den))) * v + (σ * (h.num * v - u * h.den)) * q1
            = σ * (p1 * v - u * q1) * h.den := by ring
        rw [this, hdet, hss, Int.one_mul]
      have hcase : 0 ≤ σ * (h.num * q1 - p1 * h.den) ∨ σ * (h.num * v - u * h.den) ≤ 0 := by
        by_contra hcon
        rw [not_or, not_le, not_le] at hcon
        have t1 : v ≤ (-(σ * (h.num * q1 - p1 * h.den))) * v := by nlinarith
        have t2 : q1 ≤ (σ * (h.num * v - u * h.den)) * q1 := by nlinarith
        have : (h.den : Int) ≤ bound := by exact_mod_cast hh
        omega
      rcases hcase with hX | hY
      · left
        apply hle
        rw [absσ, one_mul]
        have hXq : (0 : ℚ) ≤ σ * (h - (p1 : ℚ) / q1) := by
          have : σ * (h - (p1 : ℚ) / q1) = ((σ * (h.num * q1 - p1 * h.den) : Int) : ℚ) / (h.den * q1) := by
            conv_lhs => rw [hhv]
            push_cast
            field_simp
          rw [this]
          exact div_nonneg (by exact_mod_cast hX) (by positivity)
        have : σ * (f - h) = -(d / (f.den * q1)) - σ * (h - (p1 : ℚ) / q1) := by
          have : σ * (f - (p1 : ℚ) / q1) = -(d / (f.den * q1)) := by
            rw [e2]; linear_combination (-(d / ((f.den : ℚ) * q1))) * hσ2
          linear_combination this
        rw [this]
        calc (d : ℚ) / (f.den * q1) ≤ -(-(d / (f.den * q1)) - σ * (h - (p1 : ℚ) / q1)) := by linarith
          _ ≤ _ := neg_le_abs _
      · right
        apply hle
        rw [absσ, one_mul]
        have hYq : σ * (h - (u : ℚ) / v) ≤ 0 := by
          have : σ * (h - (u : ℚ) / v) = ((σ * (h.num * v - u * h.den) : Int) : ℚ) / (h.den * v) := by
            conv_lhs => rw [hhv]
            push_cast
            field_simp
          rw [this]
          exact div_nonpos_of_nonpos_of_nonneg (by exact_mod_cast hY) (by positivity)
        have : σ * (f - h) = w / (f.den * v) - σ * (h - (u : ℚ) / v) := by
          have : σ * (f - (u : ℚ) / v) = w / (f.den * v) := by
            rw [e1]; linear_combination (w / ((f.den : ℚ) * v)) * hσ2
          linear_combination this
        rw [this]
        calc (w : ℚ) / (f.den * v) ≤ w / (f.den * v) - σ * (h - (u : ℚ) / v) := by linarith
          _ ≤ _ := le_abs_self _
    -- the choice between the two
    have hcmp : (d : ℚ) / (f.den * q1) ≤ w / (f.den * v) ↔ 2 * d * v ≤ (f.den : Int) := by
      rw [div_le_div_iff₀ (by positivity) (by positivity)]
      have : (d : ℚ) * (f.den * v) ≤ w * (f.den * q1) ↔ (d : ℚ) * v ≤ w * q1 := by
        constructor
        · intro h
          have : (f.den : ℚ) * (d * v) ≤ f.den * (w * q1) := by linarith
          exact le_of_mul_le_mul_left this hDq
        · intro h
          have := mul_le_mul_of_nonneg_left h hDq.le
          linarith
      rw [this]
      constructor
      · intro h
        have h' : d * v ≤ w * q1 := by exact_mod_cast h
        omega
      · intro h
        have h' : d * v ≤ w * q1 := by omega
        exact_mod_cast h'
    by_cases hch : 2 * d * v ≤ (f.den : Int)
    · rw [if_pos hch]
      refine ⟨_, rfl, ?_, ?_⟩
      · have := den_mkRat_le p1 hq1
        have := hI.q1_le
        omega
      · intro h hh
        rw [mkRat_value p1 hq1, a2]
        rcases key h hh with h1 | h1
        · exact h1
        · exact (hcmp.mpr hch).trans h1
    · rw [if_neg hch]
      refine ⟨_, rfl, ?_, ?_⟩
      · have := den_mkRat_le u hv
        omega
      · intro h hh
        rw [mkRat_value u hv, a1]
        have hlt := not_le.mp (fun hc => hch (hcmp.mp hc))
        rcases key h hh with h1 | h1
        · exact hlt.le.trans h1
        · exact h1

/-- Two different fractions with denominators at most `bound` are far apart. -/
theorem fractions_apart {bound : Nat} (hb : 2 ≤ bound) {g h : ℚ} (hne : g ≠ h) (hg : g.den ≤ bound)
    (hh : h.den ≤ bound) : 1 / ((bound : ℚ) * bound) < |g - h| := by
  have hgp : (0 : ℚ) < (g.den : ℚ) := by exact_mod_cast g.den_pos
  have hhp : (0 : ℚ) < (h.den : ℚ) := by exact_mod_cast h.den_pos
  have e : g - h = ((g.num * h.den - h.num * g.den : Int) : ℚ) / (g.den * h.den) := by
    conv_lhs => rw [← Rat.num_div_den g, ← Rat.num_div_den h]
    rw [div_sub_div _ _ hgp.ne' hhp.ne']
    push_cast; ring
  have hne0 : g.num * h.den - h.num * g.den ≠ 0 := by
    intro h0
    rw [h0] at e
    simp only [Int.cast_zero, zero_div] at e
    exact hne (sub_eq_zero.mp e)
  have hbq : (2 : ℚ) ≤ bound := by exact_mod_cast hb
  have hgb : (g.den : ℚ) ≤ bound := by exact_mod_cast hg
  have hhb : (h.den : ℚ) ≤ bound := by exact_mod_cast hh
  rw [e, abs_div, abs_of_pos (mul_pos hgp hhp), div_lt_div_iff₀ (by positivity) (mul_pos hgp hhp), one_mul]
  by_cases hbb : g.den = bound ∧ h.den = bound
  · have h1 : (2 : Int) ≤ |g.num * h.den - h.num * g.den| := by
      have hd : (bound : Int) ∣ g.num * h.den - h.num * g.den := by
        rw [hbb.1, hbb.2]; exact ⟨g.num - h.num, by ring⟩
      have := Int.le_of_dvd (Int.one_le_abs hne0) ((dvd_abs _ _).mpr hd)
      omega
    have h1q : (2 : ℚ) ≤ |((g.num * h.den - h.num * g.den : Int) : ℚ)| := by
      rw [← Int.cast_abs]; exact_mod_cast h1
    have : (g.den : ℚ) * h.den ≤ bound * bound := mul_le_mul hgb hhb hhp.le (le_trans hgp.le hgb)
    have hpos : (0 : ℚ) < bound * bound := by positivity
    nlinarith
  · have h1 : (1 : ℚ) ≤ |((g.num * h.den - h.num * g.den : Int) : ℚ)| := by
      rw [← Int.cast_abs]; exact_mod_cast Int.one_le_abs hne0
    have hpos : (0 : ℚ) < bound * bound := by positivity
    have hlt : g.den * h.den < bound * bound := by
      rcases Nat.lt_or_ge g.den bound with hlt | hge
      · exact lt_of_lt_of_le (Nat.mul_lt_mul_of_pos_right hlt h.den_pos) (Nat.mul_le_mul_left _ hh)
      · have : h.den < bound := by
          rcases Nat.lt_or_ge h.den bound with h | h
          · exact h
          · exact absurd ⟨by omega, by omega⟩ hbb
        exact lt_of_lt_of_le (Nat.mul_lt_mul_of_pos_left this g.den_pos) (Nat.mul_le_mul_right _ hg)
    have hltq : (g.den : ℚ) * h.den < bound * bound := by exact_mod_cast hlt
    nlinarith

/-- A number no farther from a fraction than half the smallest distance is taken to that fraction. -/
theorem limitDenominator_near {bound : Nat} (hb : 2 ≤ bound) {f g : ℚ} (hg : g.den ≤ bound)
    (hn : |f - g| ≤ 1 / (2 * ((bound : ℚ) * bound))) : limitDenominator bound f = .ok g := by
  obtain ⟨h, hr, hd, hbest⟩ := limitDenominator_spec (show 1 ≤ bound by omega) f
  rw [hr]
  congr 1
  by_contra hne
  have h1 := fractions_apart hb hne hd hg
  have h2 := hbest g hg
  have h3 : |h - g| ≤ |f - h| + |f - g| := by
    have := abs_sub_le h f g
    rwa [abs_sub_comm h f] at this
  have e : 1 / (2 * ((bound : ℚ) * bound)) = (1 / ((bound : ℚ) * bound)) / 2 := by rw [one_div, one_div, mul_inv]; ring
  rw [e] at hn
  linarith

end Verif
