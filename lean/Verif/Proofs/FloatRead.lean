import Verif.Proofs.FloatText
import Verif.Spec.Json

/-! The text of every float is read as that float: seventeen digits are enough. -/

namespace Verif
open Spec

theorem bits_normal {f : ℚ} (hf : HasBits 53 f) (h0 : 0 < f) :
    ∃ (n : Nat) (k : Int), 2 ^ 52 ≤ n ∧ n < 2 ^ 53 ∧ f = (n : ℚ) * 2 ^ k := by
  obtain ⟨N, k, hN, rfl⟩ := hf
  have hN0 : 0 < N := by
    by_contra h
    have h1 : (N : ℚ) ≤ 0 := by exact_mod_cast not_lt.1 h
    have h2 := two_zpow_pos k
    nlinarith
  obtain ⟨M, rfl⟩ := Int.eq_ofNat_of_zero_le hN0.le
  have hM0 : M ≠ 0 := by rintro rfl; simp at hN0
  have hM : M < 2 ^ 53 := by rw [abs_of_nonneg (by omega)] at hN; exact_mod_cast hN
  have hlog : Nat.log2 M < 53 := (Nat.log2_lt hM0).2 hM
  refine ⟨M * 2 ^ (52 - Nat.log2 M), k - ((52 - Nat.log2 M : Nat) : Int), ?_, ?_, ?_⟩
  · calc 2 ^ 52 = 2 ^ Nat.log2 M * 2 ^ (52 - Nat.log2 M) := by rw [← pow_add]; congr 1; omega
      _ ≤ _ := Nat.mul_le_mul_right _ (Nat.log2_self_le hM0)
  · calc M * 2 ^ (52 - Nat.log2 M) < 2 ^ (Nat.log2 M + 1) * 2 ^ (52 - Nat.log2 M) :=
          Nat.mul_lt_mul_of_pos_right Nat.lt_log2_self (by positivity)
      _ = 2 ^ 53 := by rw [← pow_add]; congr 1; omega
  · rw [zpow_sub₀ (by norm_num), zpow_natCast]
    push_cast
    field_simp

/-- Floats keep a distance. -/
theorem float_gap {f g : ℚ} (hf : HasBits 53 f) (hg : HasBits 53 g) (h0 : 0 < f) (hne : g ≠ f) : f / 2 ^ 53 ≤ |g - f| := by
  obtain ⟨n, k, n1, n2, ef⟩ := bits_normal hf h0
  obtain ⟨m, j, hm, eg⟩ := hg
  have n1' : (2 : ℚ) ^ 52 ≤ n := by exact_mod_cast n1
  have n2' : (n : ℚ) < 2 ^ 53 := by exact_mod_cast n2
  have hk := two_zpow_pos k
  have hj := two_zpow_pos j
  rcases le_or_gt k j with hkj | hkj
  · obtain ⟨t, ht⟩ := Int.eq_ofNat_of_zero_le (show 0 ≤ j - k by omega)
    obtain rfl : j = t + k := by omega
    rw [zpow_add₀ (by norm_num), zpow_natCast] at eg
    have e : g - f = ((m * 2 ^ t - n : Int) : ℚ) * 2 ^ k := by rw [eg, ef]; push_cast; ring
    have hz : m * 2 ^ t - n ≠ 0 := by
      intro h
      rw [h] at e
      simp only [Int.cast_zero, zero_mul] at e
      exact hne (by linarith)
    have h1 : (1 : ℚ) ≤ |((m * 2 ^ t - n : Int) : ℚ)| := by
      rw [← Int.cast_abs]
      exact_mod_cast Int.one_le_abs hz
    rw [e, abs_mul, abs_of_pos hk]
    have h2 : f / 2 ^ 53 ≤ 2 ^ k := by
      rw [div_le_iff₀ (by positivity), ef]
      nlinarith
    nlinarith
  · have hm' : (m : ℚ) ≤ 2 ^ 53 - 1 := by
      have := (abs_lt.1 hm).2
      have : m ≤ 2 ^ 53 - 1 := by omega
      exact_mod_cast this
    have hjk : (2 : ℚ) ^ j ≤ 2 ^ (k - 1) := zpow_le_zpow_right₀ (by norm_num) (by omega)
    have hk2 : (2 : ℚ) ^ k = 2 * 2 ^ (k - 1) := by
      rw [show (2 : ℚ) * 2 ^ (k - 1) = 2 ^ (1 : Int) * 2 ^ (k - 1) by simp, ← zpow_add₀ (by norm_num)]
      congr 1; omega
    have hg1 : g ≤ (2 ^ 53 - 1) * 2 ^ (k - 1) := by
      rw [eg]
      calc (m : ℚ) * 2 ^ j ≤ (2 ^ 53 - 1) * 2 ^ j := mul_le_mul_of_nonneg_right hm' hj.le
        _ ≤ _ := mul_le_mul_of_nonneg_left hjk (by norm_num)
    have hf1 : 2 ^ 52 * (2 * (2 : ℚ) ^ (k - 1)) ≤ f := by
      rw [ef, hk2]
      exact mul_le_mul_of_nonneg_right n1' (by positivity)
    have hp := two_zpow_pos (k - 1)
    generalize (2 : ℚ) ^ (k - 1) = p at *
    rw [abs_sub_comm]
    refine le_trans ?_ (le_abs_self _)
    rw [div_le_iff₀ (by positivity)]
    norm_num at hg1 hf1 ⊢
    linarith

/-- A number near enough to a float is read as it. -/
theorem nearest_of_near {v f : ℚ} (hf : HasBits 53 f) (h0 : 0 < f) (h : |v - f| ≤ f / (2 * 10 ^ 16)) : NearestFloat v f := by
  have key : ∀ g, HasBits 53 g → g ≠ f → |v - f| < |v - g| := by
    intro g hg hne
    have h1 := float_gap hf hg h0 hne
    have h2 : |g - f| ≤ |v - g| + |v - f| := by
      rw [abs_sub_comm v g]
      have := abs_sub_le g v f
      exact this
    have h3 : f / (2 * 10 ^ 16) < f / 2 ^ 54 := div_lt_div_of_pos_left h0 (by norm_num) (by norm_num)
    have h4 : f / 2 ^ 53 = 2 * (f / 2 ^ 54) := by ring
    linarith
  refine ⟨hf, fun g hg => ?_, fun g hg he => ?_⟩
  · by_cases hne : g = f
    · rw [hne]
    · exact (key g hg hne).le
  · by_cases hne : g = f
    · exact .inl hne
    · exact absurd he (key g hg hne).ne

/-- The digits found for a float are read as it. -/
theorem shortLoop_reads {n d : Nat} (hn : 0 < n) (hd : 0 < d) (hf : HasBits 53 ((n : ℚ) / d)) (fuel k : Nat) (hk : 1 ≤ k) (hk' : k ≤ 17)
    (hfu : 18 ≤ fuel + k) :
    NearestFloat (((shortLoop fuel n d k).1 : ℚ) * 10 ^ (shortLoop fuel n d k).2) ((n : ℚ) / d) := by
  have hd' : (0 : ℚ) < d := by exact_mod_cast hd
  have hn' : (0 : ℚ) < n := by exact_mod_cast hn
  have hf0 : 0 < (n : ℚ) / d := div_pos hn' hd'
  induction fuel generalizing k with
  | zero => omega
  | succ fuel ih =>
    unfold shortLoop
    simp only
    split
    · rename_i hboth
      rcases divRound_mem (n * 10 ^ (-(log10Frac n d - (k : Int))).toNat) (d * 10 ^ (log10Frac n d - (k : Int)).toNat) with h | h
      · rw [h]; exact (isFloat_iff hd _ _).1 hboth.1
      · rw [h]; exact (isFloat_iff hd _ _).1 hboth.2
    · split
      · rename_i h; exact (isFloat_iff hd _ _).1 h
      · split
        · rename_i h; exact (isFloat_iff hd _ _).1 h
        · rename_i hnot1 hnot2
          rcases Nat.lt_or_ge k 17 with hlt | hge
          · exact ih (k + 1) (by omega) (by omega) (by omega)
          · exfalso
            obtain rfl : k = 17 := by omega
            obtain ⟨l1, l2⟩ := log10Frac_spec hn hd
            generalize log10Frac n d = L at *
            have hscale := scaled_ten n d (L - (17 : Nat)) hd
            have hden : 0 < d * 10 ^ (L - ((17 : Nat) : Int)).toNat := by positivity
            have hE := ten_zpow_pos (L - (17 : Nat))
            rw [isFloat_iff hd] at hnot1 hnot2
            generalize hN : n * 10 ^ (-(L - ((17 : Nat) : Int))).toNat = N at *
            generalize hD : d * 10 ^ (L - ((17 : Nat) : Int)).toNat = D at *
            have hD' : (0 : ℚ) < D := by exact_mod_cast hden
            have hq1 : ((N / D : Nat) : ℚ) ≤ (n : ℚ) / d / 10 ^ (L - ((17 : Nat) : Int)) := by
              rw [← hscale, le_div_iff₀ hD']
              exact_mod_cast Nat.div_mul_le_self N D
            have hq2 : (n : ℚ) / d / 10 ^ (L - ((17 : Nat) : Int)) < ((N / D : Nat) : ℚ) + 1 := by
              rw [← hscale, div_lt_iff₀ hD']
              have := Nat.lt_div_mul_add hden (a := N)
              have : N < (N / D + 1) * D := by rw [add_mul, one_mul]; exact this
              exact_mod_cast this
            have hl : 10 ^ 16 * (10 : ℚ) ^ (L - ((17 : Nat) : Int)) ≤ (n : ℚ) / d := by
              rw [← zpow_natCast (10 : ℚ) 16, ← ten_zpow_add]
              refine le_trans (le_of_eq ?_) l1
              congr 1; push_cast; omega
            generalize (n : ℚ) / d = f at *
            generalize (10 : ℚ) ^ (L - ((17 : Nat) : Int)) = p at *
            rw [le_div_iff₀ hE] at hq1
            rw [div_lt_iff₀ hE] at hq2
            have near : ∀ v, |v - f| ≤ p / 2 → NearestFloat v f := by
              intro v hv
              refine nearest_of_near hf hf0 (hv.trans ?_)
              rw [div_le_div_iff₀ (by norm_num) (by norm_num)]
              norm_num at hl ⊢
              linarith
            by_cases hm : f - ((N / D : Nat) : ℚ) * p ≤ p / 2
            · exact hnot1 (near _ (by rw [abs_sub_comm, abs_of_nonneg (by linarith)]; exact hm))
            · refine hnot2 (near _ ?_)
              push_cast
              rw [abs_of_nonneg (by linarith)]
              linarith

/-- The digits in the text of a float are read as it. -/
theorem floatDigits_reads {x : PyFloat} (hx : IsFloat x) (h0 : x.m ≠ 0) :
    NearestFloat (((floatDigits x).1 : ℚ) * 10 ^ (floatDigits x).2) ((x.m : ℚ) * 2 ^ x.q) ∧ 0 < (floatDigits x).1 := by
  have hb : HasBits 53 ((x.m : ℚ) * 2 ^ x.q) := ⟨x.m, x.q, by rw [abs_of_nonneg (by omega)]; exact_mod_cast hx.1, by push_cast; rfl⟩
  have hpos : (0 : ℚ) < (x.m : ℚ) * 2 ^ x.q := mul_pos (by exact_mod_cast Nat.pos_of_ne_zero h0) (two_zpow_pos _)
  unfold floatDigits
  simp only
  rw [← frac_toNat] at hb hpos ⊢
  have h1 := shortLoop_reads (Nat.mul_pos (Nat.pos_of_ne_zero h0) (by positivity)) (by positivity) hb 17 1 (by norm_num) (by norm_num)
    (by norm_num)
  generalize shortLoop 17 (x.m * 2 ^ x.q.toNat) (2 ^ (-x.q).toNat) 1 = p at h1
  obtain ⟨p1, p2⟩ := p
  obtain ⟨g1, g2⟩ := dropZeros_value 17 p1 p2
  simp only at h1
  rw [← g1] at h1
  refine ⟨h1, ?_⟩
  by_contra hz
  rw [Nat.eq_zero_of_not_pos hz] at h1
  rw [Nat.cast_zero, zero_mul] at h1
  exact hpos.ne' (nearest_unique h1 nearest_zero)

/-! ### Normal forms -/

theorem halve_odd (fuel m : Nat) (q : Int) (h0 : m ≠ 0) (hm : m ≤ 2 ^ fuel) :
    (halve fuel m q).1 % 2 = 1 ∧ (halve fuel m q).1 ≤ m := by
  induction fuel generalizing m q with
  | zero => obtain rfl : m = 1 := by simp at hm; omega
            exact ⟨rfl, le_rfl⟩
  | succ fuel ih =>
    unfold halve
    split
    · obtain ⟨h1, h2⟩ := ih (m / 2) (q + 1) (by omega) (by rw [pow_succ] at hm; omega)
      exact ⟨h1, by omega⟩
    · exact ⟨by omega, le_rfl⟩

theorem odd_pow_unique {m m' : Nat} {q q' : Int} (h : m % 2 = 1) (h' : m' % 2 = 1) (he : (m : ℚ) * 2 ^ q = (m' : ℚ) * 2 ^ q') :
    m = m' ∧ q = q' := by
  wlog hq : q ≤ q' generalizing m m' q q'
  · obtain ⟨a, b⟩ := this h' h he.symm (by omega)
    exact ⟨a.symm, b.symm⟩
  obtain ⟨t, ht⟩ := Int.eq_ofNat_of_zero_le (show 0 ≤ q' - q by omega)
  obtain rfl : q' = t + q := by omega
  rw [zpow_add₀ (by norm_num), zpow_natCast, ← mul_assoc] at he
  have he := mul_right_cancel₀ (two_zpow_pos q).ne' he
  have he : m = m' * 2 ^ t := by exact_mod_cast he
  rcases t with _ | t
  · exact ⟨by simpa using he, by simp⟩
  · rw [pow_succ, ← mul_assoc] at he
    generalize m' * 2 ^ t = j at he
    omega

/-- Floats in normal form are given by their sign and value. -/
theorem isFloat_unique {x y : PyFloat} (hx : IsFloat x) (hy : IsFloat y) (hs : x.neg = y.neg) (hv : floatValue x = floatValue y) : x = y := by
  have hv' : (x.m : ℚ) * 2 ^ x.q = (y.m : ℚ) * 2 ^ y.q := by
    unfold floatValue at hv
    rw [hs] at hv
    cases h : y.neg
    · simpa [h] using hv
    · simpa [h] using hv
  obtain ⟨xn, xm, xq⟩ := x
  obtain ⟨yn, ym, yq⟩ := y
  simp only at hs hv'
  subst hs
  rcases hx.2 with h1 | ⟨h1, h2⟩ <;> rcases hy.2 with g1 | ⟨g1, g2⟩ <;> simp only at *
  · obtain ⟨a, b⟩ := odd_pow_unique h1 g1 hv'
    rw [a, b]
  · rw [g1, Nat.cast_zero, zero_mul] at hv'
    have : (xm : ℚ) ≠ 0 := by exact_mod_cast (by omega : xm ≠ 0)
    exact absurd hv' (mul_ne_zero this (two_zpow_pos _).ne')
  · rw [h1, Nat.cast_zero, zero_mul] at hv'
    have : (ym : ℚ) ≠ 0 := by exact_mod_cast (by omega : ym ≠ 0)
    exact absurd hv'.symm (mul_ne_zero this (two_zpow_pos _).ne')
  · rw [h1, h2, g1, g2]

theorem floatOfFrac_isFloat (neg : Bool) (n d : Nat) (hd : 0 < d) : IsFloat (floatOfFrac neg n d) := by
  unfold floatOfFrac
  split
  · exact ⟨by norm_num, .inr ⟨rfl, rfl⟩⟩
  · rename_i hn
    simp only
    obtain ⟨l1, l2⟩ := log2Frac_spec (Nat.pos_of_ne_zero hn) hd
    have hr := (divRound_spec (n * 2 ^ (-(log2Frac n d - 52)).toNat) (d * 2 ^ (log2Frac n d - 52).toNat)
      (Nat.mul_pos hd (by positivity))).1
    rw [scaled_frac _ _ _ hd] at hr
    have hlo : (2 : ℚ) ^ (52 : Nat) ≤ (n : ℚ) / d / 2 ^ (log2Frac n d - 52) := by
      rw [le_div_iff₀ (two_zpow_pos _), ← zpow_natCast, ← zpow_add₀ (by norm_num)]
      simpa using l1
    have hhi : (n : ℚ) / d / 2 ^ (log2Frac n d - 52) < (2 : ℚ) ^ (53 : Nat) := by
      rw [div_lt_iff₀ (two_zpow_pos _), ← zpow_natCast, ← zpow_add₀ (by norm_num)]
      refine lt_of_lt_of_le l2 (zpow_le_zpow_right₀ (by norm_num) (by push_cast; omega))
    generalize divRound (n * 2 ^ (-(log2Frac n d - 52)).toNat) (d * 2 ^ (log2Frac n d - 52).toNat) = m at hr
    generalize (n : ℚ) / d / 2 ^ (log2Frac n d - 52) = w at hr hlo hhi
    have hr := abs_le.1 (show |w - (m : ℚ)| ≤ 1 / 2 by linarith)
    have h1 : m < 2 ^ 53 + 1 := by
      have : (m : ℚ) < 2 ^ 53 + 1 := by linarith
      exact_mod_cast this
    have h2 : m ≠ 0 := by
      rintro rfl
      norm_num at hr hlo
      linarith
    obtain ⟨g1, g2⟩ := halve_odd 53 m (log2Frac n d - 52) h2 (by omega)
    exact ⟨by simp only; omega, .inl g1⟩

theorem floatOfDec_isFloat (d : PyDec) : IsFloat (floatOfDec d) := floatOfFrac_isFloat _ _ _ (by positivity)

/-- A decimal nearest to a float is read as it. -/
theorem floatOfDec_eq {x : PyFloat} (hx : IsFloat x) {d : PyDec} (hs : d.neg = x.neg) (h : NearestFloat d.value (floatValue x)) :
    floatOfDec d = x := by
  refine isFloat_unique (floatOfDec_isFloat d) hx ?_ (nearest_unique (floatOfDec_nearest d) h)
  rw [← hs]
  unfold floatOfDec floatOfFrac
  split <;> rfl

end Verif
