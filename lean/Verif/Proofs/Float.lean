import Verif.Spec.Float
import Verif.Proofs.FractionLoad
import Mathlib.Tactic.Linarith
import Mathlib.Tactic.Ring
import Mathlib.Tactic.FieldSimp
import Mathlib.Tactic.Positivity

/-
Lemmas about floats.
-/

namespace Verif
open Spec

theorem two_zpow_pos (k : Int) : (0 : ℚ) < 2 ^ k := zpow_pos (by norm_num) k

theorem two_zpow_toNat (k : Int) : ((2 : ℚ) ^ k.toNat) / 2 ^ (-k).toNat = 2 ^ k := by
  rcases le_total 0 k with h | h
  · obtain ⟨n, rfl⟩ := Int.eq_ofNat_of_zero_le h
    simp
  · obtain ⟨n, hn⟩ := Int.eq_ofNat_of_zero_le (show 0 ≤ -k by omega)
    obtain rfl : k = -(n : Int) := by omega
    simp

theorem ten_zpow_toNat (k : Int) : ((10 : ℚ) ^ k.toNat) / 10 ^ (-k).toNat = 10 ^ k := by
  rcases le_total 0 k with h | h
  · obtain ⟨n, rfl⟩ := Int.eq_ofNat_of_zero_le h
    simp
  · obtain ⟨n, hn⟩ := Int.eq_ofNat_of_zero_le (show 0 ≤ -k by omega)
    obtain rfl : k = -(n : Int) := by omega
    simp

/-- Comparing `d * 2^k` with `n` over the natural numbers. -/
theorem pow_le_frac {b : Nat} (hb : 0 < b) {n d : Nat} (hd : 0 < d) (k : Int) :
    d * b ^ k.toNat ≤ n * b ^ (-k).toNat ↔ (b : ℚ) ^ k ≤ (n : ℚ) / d := by
  have hb' : (0 : ℚ) < b := by exact_mod_cast hb
  have hd' : (0 : ℚ) < d := by exact_mod_cast hd
  rw [le_div_iff₀ hd']
  rcases le_total 0 k with h | h
  · obtain ⟨m, rfl⟩ := Int.eq_ofNat_of_zero_le h
    simp only [Int.toNat_natCast, zpow_natCast]
    rw [show (-(m : Int)).toNat = 0 by omega, pow_zero, mul_one, mul_comm]
    exact_mod_cast Iff.rfl
  · obtain ⟨m, hm⟩ := Int.eq_ofNat_of_zero_le (show 0 ≤ -k by omega)
    obtain rfl : k = -(m : Int) := by omega
    simp only [neg_neg, Int.toNat_natCast, zpow_neg, zpow_natCast]
    rw [show (-(m : Int)).toNat = 0 by omega, pow_zero, mul_one, inv_mul_le_iff₀ (by positivity), mul_comm]
    constructor
    · intro h; have : (d : ℚ) ≤ (b : ℚ) ^ m * n := by exact_mod_cast h
      exact this
    · intro h; exact_mod_cast h

theorem log2Frac_spec {n d : Nat} (hn : 0 < n) (hd : 0 < d) :
    (2 : ℚ) ^ log2Frac n d ≤ (n : ℚ) / d ∧ (n : ℚ) / d < 2 ^ (log2Frac n d + 1) := by
  have hd' : (0 : ℚ) < d := by exact_mod_cast hd
  have hn' : (0 : ℚ) < n := by exact_mod_cast hn
  have a1 : (2 : ℚ) ^ n.log2 ≤ n := by exact_mod_cast Nat.log2_self_le hn.ne'
  have a2 : (n : ℚ) < 2 ^ (n.log2 + 1) := by exact_mod_cast Nat.lt_log2_self
  have b1 : (2 : ℚ) ^ d.log2 ≤ d := by exact_mod_cast Nat.log2_self_le hd.ne'
  have b2 : (d : ℚ) < 2 ^ (d.log2 + 1) := by exact_mod_cast Nat.lt_log2_self
  have hlow : (2 : ℚ) ^ ((n.log2 : Int) - d.log2 - 1) ≤ (n : ℚ) / d := by
    rw [le_div_iff₀ hd', show (n.log2 : Int) - d.log2 - 1 = (n.log2 : Int) - ((d.log2 + 1 : Nat) : Int) by push_cast; omega,
      zpow_sub₀ (by norm_num), zpow_natCast, zpow_natCast, div_mul_eq_mul_div, div_le_iff₀ (by positivity)]
    exact mul_le_mul a1 b2.le hd'.le hn'.le
  have hhigh : (n : ℚ) / d < (2 : ℚ) ^ ((n.log2 : Int) - d.log2 + 1) := by
    rw [div_lt_iff₀ hd', show (n.log2 : Int) - d.log2 + 1 = ((n.log2 + 1 : Nat) : Int) - (d.log2 : Int) by push_cast; omega,
      zpow_sub₀ (by norm_num), zpow_natCast, zpow_natCast, div_mul_eq_mul_div, lt_div_iff₀ (by positivity)]
    calc (n : ℚ) * 2 ^ d.log2 < 2 ^ (n.log2 + 1) * 2 ^ d.log2 := mul_lt_mul_of_pos_right a2 (by positivity)
      _ ≤ 2 ^ (n.log2 + 1) * d := mul_le_mul_of_nonneg_left b1 (by positivity)
  unfold log2Frac
  simp only
  have hiff := pow_le_frac (b := 2) (by norm_num) (n := n) hd ((n.log2 : Int) - d.log2)
  split
  · rename_i h
    exact ⟨by exact_mod_cast hiff.1 h, hhigh⟩
  · rename_i h
    rw [hiff] at h
    exact ⟨hlow, by rw [sub_add_cancel]; exact_mod_cast not_le.1 h⟩

theorem divRound_spec (n d : Nat) (hd : 0 < d) :
    2 * |(n : ℚ) / d - (divRound n d : ℚ)| ≤ 1 ∧
    (2 * |(n : ℚ) / d - (divRound n d : ℚ)| = 1 → divRound n d % 2 = 0) := by
  have hd' : (0 : ℚ) < d := by exact_mod_cast hd
  have hdiv : d * (n / d) + n % d = n := Nat.div_add_mod n d
  have hr := Nat.mod_lt n hd
  have hq : (n : ℚ) / d = ((n / d : Nat) : ℚ) + ((n % d : Nat) : ℚ) / d := by
    rw [eq_comm, ← sub_eq_zero]
    have : (n : ℚ) = d * ((n / d : Nat) : ℚ) + ((n % d : Nat) : ℚ) := by exact_mod_cast hdiv.symm
    rw [this]; field_simp; ring
  have hr0 : (0 : ℚ) ≤ ((n % d : Nat) : ℚ) / d := by positivity
  have hr1 : ((n % d : Nat) : ℚ) / d < 1 := by rw [div_lt_one hd']; exact_mod_cast hr
  unfold divRound
  simp only
  split
  · rename_i h
    have h' : 2 * (((n % d : Nat) : ℚ) / d) < 1 := by
      rw [← mul_div_assoc, div_lt_one hd']; exact_mod_cast h
    rw [hq, add_sub_cancel_left, abs_of_nonneg hr0]
    exact ⟨h'.le, fun h => absurd h h'.ne⟩
  · split
    · rename_i h1 h
      have h' : 1 < 2 * (((n % d : Nat) : ℚ) / d) := by
        rw [← mul_div_assoc, one_lt_div hd']; exact_mod_cast h
      rw [hq]
      push_cast
      rw [show ((n / d : Nat) : ℚ) + ((n % d : Nat) : ℚ) / d - (((n / d : Nat) : ℚ) + 1) = -(1 - ((n % d : Nat) : ℚ) / d) by ring,
        abs_neg, abs_of_pos (by linarith)]
      constructor
      · linarith
      · intro h2; linarith
    · rename_i h1 h2
      have he : 2 * (n % d) = d := by omega
      have h' : 2 * (((n % d : Nat) : ℚ) / d) = 1 := by
        rw [← mul_div_assoc, div_eq_one_iff_eq hd'.ne']; exact_mod_cast he
      rw [hq]
      refine ⟨?_, fun _ => by omega⟩
      rcases Nat.mod_two_eq_zero_or_one (n / d) with h | h
      · rw [h, add_zero, add_sub_cancel_left, abs_of_nonneg hr0]; exact h'.le
      · rw [h]
        push_cast
        rw [show ((n / d : Nat) : ℚ) + ((n % d : Nat) : ℚ) / d - (((n / d : Nat) : ℚ) + 1) = -(1 - ((n % d : Nat) : ℚ) / d) by ring,
          abs_neg, abs_of_pos (by linarith)]
        linarith

theorem halve_value (fuel m : Nat) (q : Int) : ((halve fuel m q).1 : ℚ) * 2 ^ (halve fuel m q).2 = (m : ℚ) * 2 ^ q := by
  induction fuel generalizing m q with
  | zero => rfl
  | succ f ih =>
    rw [halve]
    split
    · rename_i h
      rw [ih, zpow_add₀ (by norm_num), zpow_one]
      have : (m : ℚ) = ((m / 2 : Nat) : ℚ) * 2 := by
        have := Nat.div_add_mod m 2
        rw [h] at this
        exact_mod_cast (by omega : m = m / 2 * 2)
      conv_rhs => rw [this]
      ring
    · rfl

/-- The scaled quotient. -/
theorem scaled_frac (n d : Nat) (k : Int) (hd : 0 < d) :
    ((n * 2 ^ (-k).toNat : Nat) : ℚ) / ((d * 2 ^ k.toNat : Nat) : ℚ) = (n : ℚ) / d / 2 ^ k := by
  have hd' : (d : ℚ) ≠ 0 := by exact_mod_cast hd.ne'
  rw [← two_zpow_toNat k]
  push_cast
  field_simp

theorem hasBits_neg {p : Nat} {f : ℚ} (h : HasBits p f) : HasBits p (-f) := by
  obtain ⟨n, k, h1, h2⟩ := h
  exact ⟨-n, k, by rwa [abs_neg], by rw [h2]; push_cast; ring⟩

theorem nearest_neg {v f : ℚ} (h : NearestFloat v f) : NearestFloat (-v) (-f) := by
  have key : ∀ g : ℚ, |-v - g| = |v - -g| := fun g => by rw [← abs_neg]; congr 1; ring
  have key' : |-v - -f| = |v - f| := by rw [← abs_neg]; congr 1; ring
  refine ⟨hasBits_neg h.bits, fun g hg => ?_, fun g hg he => ?_⟩
  · rw [key', key]; exact h.near _ (hasBits_neg hg)
  · rw [key', key] at he
    rcases h.tie _ (hasBits_neg hg) he with h' | h'
    · left; rw [← h', neg_neg]
    · exact .inr (hasBits_neg h')

/-- Rounding `v` to a multiple of `2^k` with 53 binary digits gives the nearest float. -/
theorem nearest_of_round {v : ℚ} {k : Int} {m : Nat} (h1 : (2 : ℚ) ^ (52 : Nat) ≤ v / 2 ^ k) (h2 : v / 2 ^ k < 2 ^ (53 : Nat))
    (h3 : 2 * |v / 2 ^ k - m| ≤ 1) (h4 : 2 * |v / 2 ^ k - m| = 1 → m % 2 = 0) : NearestFloat v ((m : ℚ) * 2 ^ k) := by
  have hk := two_zpow_pos k
  have hm : m ≤ 2 ^ 53 := by
    have := (abs_le.1 (show |v / 2 ^ k - m| ≤ 1 / 2 by linarith)).1
    have : (m : ℚ) < 2 ^ 53 + 1 := by linarith
    have : m < 2 ^ 53 + 1 := by exact_mod_cast this
    omega
  -- distances scale
  have scale : ∀ x : ℚ, |v - x * 2 ^ k| = |v / 2 ^ k - x| * 2 ^ k := by
    intro x
    rw [← abs_of_pos hk, ← abs_mul, abs_of_pos hk, sub_mul, div_mul_cancel₀ _ hk.ne']
  -- the nearest integer
  have hint : ∀ h : Int, |v / 2 ^ k - m| ≤ |v / 2 ^ k - h| ∧
      (|v / 2 ^ k - m| = |v / 2 ^ k - h| → (h : ℚ) = m ∨ 2 * |v / 2 ^ k - m| = 1) := by
    intro h
    by_cases hh : h = (m : Int)
    · rw [hh]; simp
    · have : (1 : Int) ≤ |(m : Int) - h| := Int.one_le_abs (by omega)
      have h' : (1 : ℚ) ≤ |(m : ℚ) - h| := by exact_mod_cast this
      have t : |(m : ℚ) - h| ≤ |v / 2 ^ k - m| + |v / 2 ^ k - h| := by
        have := abs_sub_le (m : ℚ) (v / 2 ^ k) (h : ℚ)
        rwa [abs_sub_comm (m : ℚ) (v / 2 ^ k)] at this
      constructor
      · linarith
      · intro he; right; linarith
  have hfar : ∀ g, HasBits 53 g → (∃ h : Int, g = (h : ℚ) * 2 ^ k) ∨
      |v / 2 ^ k - m| * 2 ^ k < |v - g| := by
    rintro g ⟨n, j, hn, rfl⟩
    by_cases hj : k ≤ j
    · left
      refine ⟨n * 2 ^ (j - k).toNat, ?_⟩
      push_cast
      rw [mul_assoc, ← zpow_natCast, ← zpow_add₀ (by norm_num)]
      congr 2
      omega
    · right
      have hg : (n : ℚ) * 2 ^ j < 2 ^ (52 : Nat) * 2 ^ k := by
        have hn' : (n : ℚ) < 2 ^ 53 := by
          have := (abs_lt.1 hn).2
          exact_mod_cast this
        calc (n : ℚ) * 2 ^ j < 2 ^ 53 * 2 ^ j := mul_lt_mul_of_pos_right hn' (two_zpow_pos j)
          _ = 2 ^ ((53 : Nat) + j) := by rw [zpow_add₀ (by norm_num), zpow_natCast]
          _ ≤ 2 ^ ((52 : Nat) + k) := zpow_le_zpow_right₀ (by norm_num) (by push_cast; omega)
          _ = 2 ^ (52 : Nat) * 2 ^ k := by rw [zpow_add₀ (by norm_num), zpow_natCast]
      have hv : (2 : ℚ) ^ (52 : Nat) * 2 ^ k ≤ v := by rwa [le_div_iff₀ hk] at h1
      have h52 := (hint (2 ^ 52)).1
      rw [show (((2 ^ 52 : Int)) : ℚ) = 2 ^ (52 : Nat) by norm_num,
        abs_of_nonneg (show 0 ≤ v / 2 ^ k - 2 ^ (52 : Nat) by linarith)] at h52
      rw [abs_of_pos (show 0 < v - (n : ℚ) * 2 ^ j by linarith)]
      have := mul_le_mul_of_nonneg_right h52 hk.le
      rw [sub_mul, div_mul_cancel₀ _ hk.ne'] at this
      linarith
  have hbits : ∀ p, 0 < p → m ≤ 2 ^ p → HasBits p ((m : ℚ) * 2 ^ k) := by
    intro p hp h
    by_cases he : m = 2 ^ p
    · refine ⟨1, k + p, ?_, ?_⟩
      · rw [abs_one]; exact one_lt_pow₀ (by norm_num) hp.ne'
      · rw [he, zpow_add₀ (by norm_num), zpow_natCast]; push_cast; ring
    · refine ⟨m, k, ?_, by push_cast; rfl⟩
      rw [abs_of_nonneg (by omega)]
      have : m < 2 ^ p := lt_of_le_of_ne h he
      exact_mod_cast this
  refine ⟨hbits 53 (by norm_num) hm, fun g hg => ?_, fun g hg he => ?_⟩
  · rw [scale]
    rcases hfar g hg with ⟨h, rfl⟩ | h
    · rw [scale]
      exact mul_le_mul_of_nonneg_right (hint h).1 hk.le
    · exact h.le
  · rw [scale] at he
    rcases hfar g hg with ⟨h, rfl⟩ | h
    · rw [scale] at he
      rcases (hint h).2 (mul_right_cancel₀ hk.ne' he) with h' | h'
      · left; rw [h']
      · right
        have hev := h4 h'
        have := hbits 52
        have e2 : (m : ℚ) * 2 ^ k = ((m / 2 : Nat) : ℚ) * 2 ^ (k + 1) := by
          rw [zpow_add₀ (by norm_num), zpow_one]
          have : (m : ℚ) = ((m / 2 : Nat) : ℚ) * 2 := by exact_mod_cast (by omega : m = m / 2 * 2)
          conv_lhs => rw [this]
          ring
        by_cases hm2 : m / 2 = 2 ^ 52
        · refine ⟨1, k + 1 + 52, by norm_num, ?_⟩
          rw [e2, hm2, zpow_add₀ (by norm_num) (k + 1) 52]
          norm_num
          ring
        · refine ⟨(m / 2 : Nat), k + 1, ?_, by rw [e2]; push_cast; rfl⟩
          rw [abs_of_nonneg (by omega)]
          have : m / 2 < 2 ^ 52 := by omega
          exact_mod_cast this
    · exact absurd he h.ne

/-- The nearest float of zero. -/
theorem nearest_zero : NearestFloat 0 0 := by
  refine ⟨⟨0, 0, by norm_num, by norm_num⟩, fun g _ => by simp, fun g _ h => ?_⟩
  rw [sub_zero, abs_zero, zero_sub, abs_neg] at h
  exact .inl (abs_eq_zero.1 h.symm)

theorem floatOfFrac_nearest (neg : Bool) (n d : Nat) (hd : 0 < d) :
    NearestFloat ((if neg then -1 else 1) * ((n : ℚ) / d)) (floatValue (floatOfFrac neg n d)) := by
  have hd' : (0 : ℚ) < d := by exact_mod_cast hd
  have main : NearestFloat ((n : ℚ) / d) (((floatOfFrac neg n d).m : ℚ) * 2 ^ (floatOfFrac neg n d).q) := by
    unfold floatOfFrac
    split
    · rename_i h
      rw [h]
      simp only [Nat.cast_zero, zero_div, zero_mul]
      exact nearest_zero
    · rename_i h
      simp only
      rw [halve_value]
      obtain ⟨l1, l2⟩ := log2Frac_spec (Nat.pos_of_ne_zero h) hd
      have hr := divRound_spec (n * 2 ^ (-(log2Frac n d - 52)).toNat) (d * 2 ^ (log2Frac n d - 52).toNat)
        (Nat.mul_pos hd (by positivity))
      rw [scaled_frac _ _ _ hd] at hr
      refine nearest_of_round ?_ ?_ hr.1 hr.2
      · rw [le_div_iff₀ (two_zpow_pos _), ← zpow_natCast, ← zpow_add₀ (by norm_num)]
        simpa using l1
      · rw [div_lt_iff₀ (two_zpow_pos _), ← zpow_natCast, ← zpow_add₀ (by norm_num)]
        refine lt_of_lt_of_le l2 (zpow_le_zpow_right₀ (by norm_num) (by push_cast; omega))
  have hn : (floatOfFrac neg n d).neg = neg := by
    unfold floatOfFrac; split <;> rfl
  unfold floatValue
  rw [hn]
  cases neg
  · simpa using main
  · simpa using nearest_neg main

theorem floatOfDec_nearest (d : PyDec) : NearestFloat d.value (floatValue (floatOfDec d)) := by
  have := floatOfFrac_nearest d.neg (d.coeff * 10 ^ d.exp.toNat) (10 ^ (-d.exp).toNat) (by positivity)
  rw [show ((if d.neg = true then (-1 : ℚ) else 1) * (((d.coeff * 10 ^ d.exp.toNat : Nat) : ℚ) / ((10 ^ (-d.exp).toNat : Nat) : ℚ))) =
      d.value by
    unfold PyDec.value
    push_cast
    rw [mul_div_assoc, ten_zpow_toNat]] at this
  exact this

/-- A number with 53 bits is its own float. -/
theorem nearest_exact {v f : ℚ} (h : NearestFloat v f) (hv : HasBits 53 v) : f = v := by
  have := h.near v hv
  rw [sub_self, abs_zero] at this
  have := abs_eq_zero.1 (le_antisymm this (abs_nonneg _))
  linarith

theorem nearest_error_pos {v f : ℚ} (h : NearestFloat v f) (hv : 0 < v) : |v - f| ≤ v / 2 ^ 53 := by
  have hnd : v = ((v.num.natAbs : Nat) : ℚ) / ((v.den : Nat) : ℚ) := by
    have hn : 0 < v.num := Rat.num_pos.2 hv
    conv_lhs => rw [← Rat.num_div_den v]
    rw [show v.num = ((v.num.natAbs : Nat) : Int) from (Int.natAbs_of_nonneg hn.le).symm]
    simp
  have hd : 0 < v.den := Rat.den_pos _
  have hn : 0 < v.num.natAbs := Int.natAbs_pos.2 (Rat.num_pos.2 hv).ne'
  obtain ⟨l1, l2⟩ := log2Frac_spec hn hd
  rw [← hnd] at l1 l2
  generalize log2Frac v.num.natAbs v.den = K at l1 l2
  have hr := divRound_spec (v.num.natAbs * 2 ^ (-(K - 52)).toNat) (v.den * 2 ^ (K - 52).toNat)
      (Nat.mul_pos hd (by positivity))
  rw [scaled_frac _ _ _ hd, ← hnd] at hr
  generalize divRound (v.num.natAbs * 2 ^ (-(K - 52)).toNat) (v.den * 2 ^ (K - 52).toNat) = m at hr
  have hk := two_zpow_pos (K - 52)
  have g1 : (2 : ℚ) ^ (52 : Nat) ≤ v / 2 ^ (K - 52) := by
    rw [le_div_iff₀ hk, ← zpow_natCast, ← zpow_add₀ (by norm_num)]
    simpa using l1
  have g2 : v / 2 ^ (K - 52) < (2 : ℚ) ^ (53 : Nat) := by
    rw [div_lt_iff₀ hk, ← zpow_natCast, ← zpow_add₀ (by norm_num)]
    refine lt_of_lt_of_le l2 (zpow_le_zpow_right₀ (by norm_num) (by push_cast; omega))
  have hnear := nearest_of_round g1 g2 hr.1 hr.2
  refine le_trans (h.near _ hnear.bits) ?_
  have : |v - (m : ℚ) * 2 ^ (K - 52)| = |v / 2 ^ (K - 52) - m| * 2 ^ (K - 52) := by
    rw [← abs_of_pos hk, ← abs_mul, abs_of_pos hk, sub_mul, div_mul_cancel₀ _ hk.ne']
  rw [this, le_div_iff₀ (by positivity)]
  rw [le_div_iff₀ hk] at g1
  have := hr.1
  nlinarith

/-- The relative error of the nearest float. -/
theorem nearest_error {v f : ℚ} (h : NearestFloat v f) : |v - f| ≤ |v| / 2 ^ 53 := by
  rcases lt_trichotomy v 0 with hv | hv | hv
  · have := nearest_error_pos (nearest_neg h) (by linarith)
    rw [abs_of_neg hv]
    rwa [show -v - -f = -(v - f) by ring, abs_neg] at this
  · rw [nearest_exact h (hv ▸ nearest_zero.bits), sub_self, abs_zero]
    positivity
  · rw [abs_of_pos hv]
    exact nearest_error_pos h hv

theorem wholePart_neg (v : ℚ) : wholePart (-v) = -wholePart v := by
  unfold wholePart
  rcases lt_trichotomy v 0 with h | h | h
  · rw [if_neg (by linarith), if_pos h, Int.floor_neg]
  · subst h; simp
  · rw [if_pos (by linarith), if_neg (by linarith), Int.ceil_neg]

theorem frac_toNat (m : Nat) (q : Int) : ((m * 2 ^ q.toNat : Nat) : ℚ) / ((2 ^ (-q).toNat : Nat) : ℚ) = (m : ℚ) * 2 ^ q := by
  push_cast
  rw [mul_div_assoc, two_zpow_toNat]

theorem floatTrunc_value (x : PyFloat) : floatTrunc x = wholePart (floatValue x) := by
  have key : ((x.m * 2 ^ x.q.toNat / 2 ^ (-x.q).toNat : Nat) : Int) = wholePart ((x.m : ℚ) * 2 ^ x.q) := by
    unfold wholePart
    rw [if_neg (not_lt.2 (mul_nonneg (by positivity) (two_zpow_pos _).le)), ← frac_toNat]
    rw [Rat.floor_natCast_div_natCast]
    rfl
  unfold floatTrunc floatValue
  simp only
  rw [key]
  cases x.neg
  · simp
  · simp only [if_true, neg_one_mul]
    rw [wholePart_neg]

theorem floatWhole_value (x : PyFloat) : floatWhole x = true ↔ ∃ n : Int, floatValue x = n := by
  unfold floatWhole
  rw [decide_eq_true_iff]
  have hpos : 0 < 2 ^ (-x.q).toNat := by positivity
  constructor
  · intro h
    refine ⟨(if x.neg then -1 else 1) * ((x.m * 2 ^ x.q.toNat / 2 ^ (-x.q).toNat : Nat) : Int), ?_⟩
    unfold floatValue
    rw [← frac_toNat]
    have : x.m * 2 ^ x.q.toNat = x.m * 2 ^ x.q.toNat / 2 ^ (-x.q).toNat * 2 ^ (-x.q).toNat := by
      have := Nat.div_add_mod (x.m * 2 ^ x.q.toNat) (2 ^ (-x.q).toNat)
      rw [h, add_zero, mul_comm] at this
      exact this.symm
    generalize x.m * 2 ^ x.q.toNat / 2 ^ (-x.q).toNat = k at this
    rw [this]
    push_cast
    rw [mul_div_cancel_right₀ _ (by positivity)]
  · rintro ⟨n, hn⟩
    have : ((x.m * 2 ^ x.q.toNat : Nat) : ℚ) = ((n.natAbs * 2 ^ (-x.q).toNat : Nat) : ℚ) := by
      have hf : |floatValue x| = (x.m : ℚ) * 2 ^ x.q := by
        unfold floatValue
        rw [abs_mul, abs_of_nonneg (mul_nonneg (show (0 : ℚ) ≤ x.m by positivity) (two_zpow_pos x.q).le)]
        cases x.neg <;> simp
      rw [hn, ← frac_toNat, eq_comm, div_eq_iff (by positivity)] at hf
      rw [hf]
      push_cast
      rw [Nat.cast_natAbs]
      simp
    have : x.m * 2 ^ x.q.toNat = n.natAbs * 2 ^ (-x.q).toNat := by exact_mod_cast this
    rw [this]
    exact Nat.mul_mod_left _ _

/-- A number of at most 14 digits and its float, if it is not too large: both are the same whole number, or lie strictly
between the same two. -/
theorem nearest_between {v f : ℚ} (h : NearestFloat v f) {c : Nat} {e : Int} (hv : v = (c : ℚ) * 10 ^ e) (hc : c < 10 ^ 14)
    (hs : v < 2 ^ 53) : f = v ∨ ∃ n : Int, (n : ℚ) < v ∧ v < n + 1 ∧ (n : ℚ) < f ∧ f < n + 1 := by
  have h0 : 0 ≤ v := by rw [hv]; exact mul_nonneg (by positivity) (ten_zpow_pos _).le
  by_cases hint : ∃ n : Int, v = n
  · left
    obtain ⟨n, hn⟩ := hint
    refine nearest_exact h ⟨n, 0, ?_, by rw [hn]; simp⟩
    rw [abs_lt]
    rw [hn] at hs h0
    constructor
    · have : 0 ≤ n := by exact_mod_cast h0
      have : (0 : Int) < 2 ^ 53 := by norm_num
      omega
    · exact_mod_cast hs
  · right
    have he : e < 0 := by
      by_contra hc'
      obtain ⟨k, rfl⟩ := Int.eq_ofNat_of_zero_le (not_lt.1 hc')
      exact hint ⟨c * 10 ^ k, by rw [hv]; push_cast; simp⟩
    obtain ⟨k, hk⟩ := Int.eq_ofNat_of_zero_le (show 0 ≤ -e by omega)
    obtain rfl : e = -(k : Int) := by omega
    have hp := ten_zpow_pos (-(k : Int))
    have h10 : (10 : ℚ) ^ (-(k : Int)) * 10 ^ k = 1 := by
      rw [zpow_neg, zpow_natCast]; exact inv_mul_cancel₀ (by positivity)
    -- distance from every whole number
    have far : ∀ n : Int, (10 : ℚ) ^ (-(k : Int)) ≤ |v - n| := by
      intro n
      have e1 : v - n = (((c : Int) - n * 10 ^ k : Int) : ℚ) * 10 ^ (-(k : Int)) := by
        rw [hv]; push_cast
        rw [sub_mul, mul_assoc (n : ℚ), mul_comm ((10 : ℚ) ^ k), h10, mul_one]
      have hne : (c : Int) - n * 10 ^ k ≠ 0 := by
        intro h0
        rw [h0] at e1
        exact hint ⟨n, by rw [Int.cast_zero, zero_mul] at e1; linarith⟩
      rw [e1, abs_mul, abs_of_pos hp]
      have : (1 : ℚ) ≤ |(((c : Int) - n * 10 ^ k : Int) : ℚ)| := by exact_mod_cast Int.one_le_abs hne
      nlinarith
    have herr : |v - f| < (10 : ℚ) ^ (-(k : Int)) := by
      refine lt_of_le_of_lt (nearest_error h) ?_
      rw [abs_of_nonneg h0, hv, div_lt_iff₀ (by positivity), mul_comm]
      have : (c : ℚ) < 10 ^ 14 := by exact_mod_cast hc
      have : (c : ℚ) < 2 ^ 53 := lt_trans this (by norm_num)
      exact mul_lt_mul_of_pos_left this hp
    refine ⟨⌊v⌋, ?_, Int.lt_floor_add_one v, ?_, ?_⟩
    · exact lt_of_le_of_ne (Int.floor_le v) fun hh => hint ⟨_, hh.symm⟩
    · have := far ⌊v⌋
      rw [abs_of_nonneg (by have := Int.floor_le v; linarith)] at this
      have := (abs_lt.1 herr).2
      linarith
    · have := far (⌊v⌋ + 1)
      push_cast at this
      rw [abs_of_nonpos (by have := Int.lt_floor_add_one v; linarith)] at this
      have := (abs_lt.1 herr).1
      linarith

theorem wholePart_between {v : ℚ} {n : Int} (h0 : 0 ≤ v) (h1 : (n : ℚ) ≤ v) (h2 : v < n + 1) : wholePart v = n := by
  unfold wholePart
  rw [if_neg (not_lt.2 h0)]
  exact Int.floor_eq_iff.2 ⟨h1, h2⟩

theorem nearest_whole_pos {v f : ℚ} (h : NearestFloat v f) {c : Nat} {e : Int} (hv : v = (c : ℚ) * 10 ^ e) (hc : c < 10 ^ 14)
    (hs : v < 2 ^ 53) : wholePart f = wholePart v ∧ ((∃ n : Int, f = n) ↔ ∃ n : Int, v = n) := by
  have h0 : 0 ≤ v := by rw [hv]; exact mul_nonneg (by positivity) (ten_zpow_pos _).le
  rcases nearest_between h hv hc hs with rfl | ⟨n, h1, h2, h3, h4⟩
  · exact ⟨rfl, Iff.rfl⟩
  · have hn : (-1 : ℚ) < n := by linarith
    have hn : -1 < n := by exact_mod_cast hn
    have hn' : (0 : ℚ) ≤ n := by exact_mod_cast (by omega : 0 ≤ n)
    have no : ∀ x : ℚ, (n : ℚ) < x → x < n + 1 → ¬ ∃ k : Int, x = k := by
      rintro x a b ⟨k, rfl⟩
      have a' : n < k := by exact_mod_cast a
      have b' : k < n + 1 := by exact_mod_cast b
      omega
    refine ⟨?_, iff_of_false (no f h3 h4) (no v h1 h2)⟩
    rw [wholePart_between (by linarith) h3.le h4, wholePart_between h0 h1.le h2]

/-- Numbers of 14 digits keep their whole part and whether they are whole. -/
theorem nearest_whole {v f : ℚ} (h : NearestFloat v f) {c : Nat} {e : Int} (hv : |v| = (c : ℚ) * 10 ^ e) (hc : c < 10 ^ 14)
    (hs : |v| < 2 ^ 53) : wholePart f = wholePart v ∧ ((∃ n : Int, f = n) ↔ ∃ n : Int, v = n) := by
  rcases abs_choice v with hs' | hs'
  · rw [hs'] at hv hs
    exact nearest_whole_pos h hv hc hs
  · rw [hs'] at hv hs
    obtain ⟨h1, h2⟩ := nearest_whole_pos (nearest_neg h) hv hc hs
    have key : ∀ x : ℚ, (∃ n : Int, -x = n) ↔ ∃ n : Int, x = n := by
      intro x
      constructor
      · rintro ⟨n, hn⟩; exact ⟨-n, by push_cast; linarith⟩
      · rintro ⟨n, hn⟩; exact ⟨-n, by push_cast; linarith⟩
    rw [key, key] at h2
    rw [wholePart_neg, wholePart_neg] at h1
    exact ⟨by omega, h2⟩

end Verif
