import Verif.Proofs.Float
import Verif.Proofs.Decimal
import Verif.Proofs.DecStr

/-! The shortest text of a float whose value was a number of fourteen digits has the value of that number. -/

namespace Verif
open Spec

/-- Two floats nearest to the same number are the same. -/
theorem nearest_unique {v f g : ℚ} (hf : NearestFloat v f) (hg : NearestFloat v g) : f = g := by
  wlog h : f < g generalizing f g
  · rcases lt_trichotomy f g with h' | h' | h'
    · exact absurd h' h
    · exact h'
    · exact (this hg hf h').symm
  exfalso
  have heq : |v - f| = |v - g| := le_antisymm (hf.near g hg.bits) (hg.near f hf.bits)
  have hmid : v = (f + g) / 2 := by
    rcases abs_eq_abs.1 heq with h' | h' <;> linarith
  obtain ⟨n, k, hn, rfl⟩ : HasBits 52 f := by
    rcases hf.tie g hg.bits heq with h' | h'
    · exact absurd h' h.ne'
    · exact h'
  obtain ⟨n', k', hn', rfl⟩ : HasBits 52 g := by
    rcases hg.tie _ hf.bits heq.symm with h' | h'
    · exact absurd h' h.ne
    · exact h'
  -- a float strictly between would be nearer
  have between : ∀ x, HasBits 53 x → ¬ ((n : ℚ) * 2 ^ k < x ∧ x < n' * 2 ^ k') := by
    rintro x hx ⟨h1, h2⟩
    have := hf.near x hx
    rw [hmid, show ((n : ℚ) * 2 ^ k + n' * 2 ^ k') / 2 - n * 2 ^ k = (n' * 2 ^ k' - n * 2 ^ k) / 2 by ring,
      abs_of_pos (by linarith)] at this
    have h3 : |((n : ℚ) * 2 ^ k + n' * 2 ^ k') / 2 - x| < (n' * 2 ^ k' - n * 2 ^ k) / 2 :=
      abs_lt.2 ⟨by linarith, by linarith⟩
    linarith
  rw [abs_lt] at hn hn'
  have halves : ∀ j : Int, (2 : ℚ) ^ j = 2 * 2 ^ (j - 1) := by
    intro j
    rw [show (2 : ℚ) * 2 ^ (j - 1) = 2 ^ (1 : Int) * 2 ^ (j - 1) by simp, ← zpow_add₀ (by norm_num)]
    congr 1; omega
  rcases le_total k k' with hk | hk
  · refine between (((2 * n + 1 : Int) : ℚ) * 2 ^ (k - 1)) ⟨2 * n + 1, k - 1, by rw [abs_lt]; omega, rfl⟩ ?_
    obtain ⟨j, hj⟩ := Int.eq_ofNat_of_zero_le (show 0 ≤ k' - k by omega)
    obtain rfl : k' = j + k := by omega
    rw [zpow_add₀ (by norm_num), zpow_natCast] at h ⊢
    have hp := two_zpow_pos (k - 1)
    rw [halves k] at h ⊢
    rw [← mul_assoc, ← mul_assoc, ← mul_assoc, mul_lt_mul_iff_left₀ hp] at h
    have h' : n * 2 < n' * 2 ^ j * 2 := by
      have : ((n * 2 : Int) : ℚ) < ((n' * 2 ^ j * 2 : Int) : ℚ) := by push_cast; linarith
      exact_mod_cast this
    rw [← mul_assoc, ← mul_assoc, ← mul_assoc, mul_lt_mul_iff_left₀ hp, mul_lt_mul_iff_left₀ hp]
    have h'' : 2 * n + 1 < n' * 2 ^ j * 2 := by omega
    constructor
    · push_cast; linarith
    · exact_mod_cast h''
  · refine between (((2 * n' - 1 : Int) : ℚ) * 2 ^ (k' - 1)) ⟨2 * n' - 1, k' - 1, by rw [abs_lt]; omega, rfl⟩ ?_
    obtain ⟨j, hj⟩ := Int.eq_ofNat_of_zero_le (show 0 ≤ k - k' by omega)
    obtain rfl : k = j + k' := by omega
    rw [zpow_add₀ (by norm_num), zpow_natCast] at h ⊢
    have hp := two_zpow_pos (k' - 1)
    rw [halves k'] at h ⊢
    rw [← mul_assoc, ← mul_assoc, ← mul_assoc, mul_lt_mul_iff_left₀ hp] at h
    have h' : n * 2 ^ j * 2 < n' * 2 := by
      have : ((n * 2 ^ j * 2 : Int) : ℚ) < ((n' * 2 : Int) : ℚ) := by push_cast; linarith
      exact_mod_cast this
    rw [← mul_assoc, ← mul_assoc, ← mul_assoc, mul_lt_mul_iff_left₀ hp, mul_lt_mul_iff_left₀ hp]
    have h'' : n * 2 ^ j * 2 < 2 * n' - 1 := by omega
    constructor
    · exact_mod_cast h''
    · push_cast; linarith

/-- A positive number of at most fourteen digits, written with exactly fourteen. -/
theorem fourteen {c : Nat} (h0 : 0 < c) (hc : c ≤ 10 ^ 14) (e : Int) :
    ∃ (C : Nat) (F : Int), 10 ^ 13 ≤ C ∧ C < 10 ^ 14 ∧ (c : ℚ) * 10 ^ e = (C : ℚ) * 10 ^ F := by
  rcases Nat.lt_or_ge c (10 ^ 14) with hlt | hge
  · obtain ⟨h1, h2, h3⟩ := natRepr_length c h0.ne'
    have hl : (natRepr c).length ≤ 14 := (natRepr_length_le (by norm_num)).2 hlt
    generalize (natRepr c).length = l at *
    refine ⟨c * 10 ^ (14 - l), e - ((14 - l : Nat) : Int), ?_, ?_, ?_⟩
    · calc 10 ^ 13 = 10 ^ (l - 1) * 10 ^ (14 - l) := by rw [← pow_add]; congr 1; omega
        _ ≤ _ := Nat.mul_le_mul_right _ h1
    · calc c * 10 ^ (14 - l) < 10 ^ l * 10 ^ (14 - l) := Nat.mul_lt_mul_of_pos_right h2 (by positivity)
        _ = _ := by rw [← pow_add]; congr 1; omega
    · push_cast
      rw [mul_assoc, ← zpow_natCast (10 : ℚ) (14 - l), ← ten_zpow_add]
      congr 2; omega
  · refine ⟨10 ^ 13, e + 1, le_rfl, by norm_num, ?_⟩
    rw [show c = 10 ^ 14 by omega, ten_zpow_add]
    push_cast
    ring

/-- Numbers of fourteen digits with the same float are the same. -/
theorem fourteen_unique {v w f : ℚ} (hv : NearestFloat v f) (hw : NearestFloat w f) {c c' : Nat} {e e' : Int}
    (h0 : 0 < c) (hc : c ≤ 10 ^ 14) (h0' : 0 < c') (hc' : c' ≤ 10 ^ 14)
    (ev : v = (c : ℚ) * 10 ^ e) (ew : w = (c' : ℚ) * 10 ^ e') : v = w := by
  wlog h : v < w generalizing v w c c' e e'
  · rcases lt_trichotomy v w with h' | h' | h'
    · exact absurd h' h
    · exact h'
    · exact (this hw hv h0' hc' h0 hc ew ev h').symm
  exfalso
  obtain ⟨C, F, c1, c2, cv⟩ := fourteen h0 hc e
  obtain ⟨C', F', c1', c2', cw⟩ := fourteen h0' hc' e'
  rw [cv] at ev
  rw [cw] at ew
  have hF := ten_zpow_pos F
  have hC1 : (10 : ℚ) ^ 13 ≤ C := by exact_mod_cast c1
  have hC2 : (C : ℚ) < 10 ^ 14 := by exact_mod_cast c2
  have hC1' : (10 : ℚ) ^ 13 ≤ C' := by exact_mod_cast c1'
  have hC2' : (C' : ℚ) < 10 ^ 14 := by exact_mod_cast c2'
  have hle : F ≤ F' := by
    by_contra hlt
    have h1 : (10 : ℚ) ^ (F' + 1) ≤ 10 ^ F := ten_zpow_le.2 (by omega)
    rw [ten_zpow_add] at h1
    have hF' := ten_zpow_pos F'
    rw [ev, ew] at h
    have : (C : ℚ) * 10 ^ F ≥ 10 ^ 13 * (10 ^ F' * 10 ^ (1 : Int)) := mul_le_mul hC1 h1 (by positivity) (by positivity)
    have h4 : (C' : ℚ) * 10 ^ F' < 10 ^ 14 * 10 ^ F' := mul_lt_mul_of_pos_right hC2' hF'
    rw [zpow_one] at this
    nlinarith
  have hgap : (10 : ℚ) ^ F ≤ w - v := by
    obtain ⟨j, hj⟩ := Int.eq_ofNat_of_zero_le (show 0 ≤ F' - F by omega)
    obtain rfl : F' = j + F := by omega
    rw [ten_zpow_add, zpow_natCast, ← mul_assoc] at ew
    have : ((C : ℚ)) < C' * 10 ^ j := by
      rw [ev, ew] at h
      exact lt_of_mul_lt_mul_right h hF.le
    have : C < C' * 10 ^ j := by exact_mod_cast this
    have : ((C : ℚ)) + 1 ≤ C' * 10 ^ j := by exact_mod_cast this
    rw [ev, ew, ← sub_mul]
    nlinarith
  have hv0 : 0 < v := by rw [ev]; exact mul_pos (by linarith [show (0 : ℚ) < 10 ^ 13 by norm_num]) hF
  have e1 := nearest_error_pos hv hv0
  have e2 := nearest_error_pos hw (hv0.trans h)
  have hd : w - v ≤ (v + w) / 2 ^ 53 := by
    have := abs_sub_le w f v
    rw [abs_of_pos (by linarith), abs_sub_comm f v] at this
    rw [add_div]
    linarith
  have hv1 : v < 10 ^ 14 * 10 ^ F := by rw [ev]; exact mul_lt_mul_of_pos_right hC2 hF
  rw [le_div_iff₀ (by positivity)] at hd
  norm_num at hd hv1
  linarith

/-- The number of digits before the point. -/
theorem log10Frac_spec {n d : Nat} (hn : 0 < n) (hd : 0 < d) :
    (10 : ℚ) ^ (log10Frac n d - 1) ≤ (n : ℚ) / d ∧ (n : ℚ) / d < 10 ^ log10Frac n d := by
  have hd' : (0 : ℚ) < d := by exact_mod_cast hd
  have hn' : (0 : ℚ) < n := by exact_mod_cast hn
  obtain ⟨a1, a2, a3⟩ := natRepr_length n hn.ne'
  obtain ⟨b1, b2, b3⟩ := natRepr_length d hd.ne'
  unfold log10Frac
  simp only
  generalize (natRepr n).length = a at *
  generalize (natRepr d).length = b at *
  have a1 : (10 : ℚ) ^ (a - 1) ≤ n := by exact_mod_cast a1
  have a2 : (n : ℚ) < 10 ^ a := by exact_mod_cast a2
  have b1 : (10 : ℚ) ^ (b - 1) ≤ d := by exact_mod_cast b1
  have b2 : (d : ℚ) < 10 ^ b := by exact_mod_cast b2
  have hlow : (10 : ℚ) ^ ((a : Int) - b - 1) ≤ (n : ℚ) / d := by
    rw [le_div_iff₀ hd', show (a : Int) - b - 1 = ((a - 1 : Nat) : Int) - (b : Int) by omega,
      zpow_sub₀ (by norm_num), zpow_natCast, zpow_natCast, div_mul_eq_mul_div, div_le_iff₀ (by positivity)]
    exact mul_le_mul a1 b2.le hd'.le hn'.le
  have hhigh : (n : ℚ) / d < (10 : ℚ) ^ ((a : Int) - b + 1) := by
    rw [div_lt_iff₀ hd', show (a : Int) - b + 1 = (a : Int) - ((b - 1 : Nat) : Int) by omega,
      zpow_sub₀ (by norm_num), zpow_natCast, zpow_natCast, div_mul_eq_mul_div, lt_div_iff₀ (by positivity)]
    calc (n : ℚ) * 10 ^ (b - 1) < 10 ^ a * 10 ^ (b - 1) := mul_lt_mul_of_pos_right a2 (by positivity)
      _ ≤ 10 ^ a * d := mul_le_mul_of_nonneg_left b1 (by positivity)
  have hiff := pow_le_frac (b := 10) (by norm_num) (n := n) hd ((a : Int) - b)
  split
  · rename_i h
    rw [add_sub_cancel_right]
    exact ⟨by exact_mod_cast hiff.1 h, hhigh⟩
  · rename_i h
    rw [hiff] at h
    exact ⟨hlow, by exact_mod_cast not_le.1 h⟩

/-- The scaled quotient. -/
theorem scaled_ten (n d : Nat) (k : Int) (hd : 0 < d) :
    ((n * 10 ^ (-k).toNat : Nat) : ℚ) / ((d * 10 ^ k.toNat : Nat) : ℚ) = (n : ℚ) / d / 10 ^ k := by
  have hd' : (d : ℚ) ≠ 0 := by exact_mod_cast hd.ne'
  rw [← ten_zpow_toNat k]
  push_cast
  field_simp

theorem frac_ten (c : Nat) (e : Int) : ((c * 10 ^ e.toNat : Nat) : ℚ) / ((10 ^ (-e).toNat : Nat) : ℚ) = (c : ℚ) * 10 ^ e := by
  push_cast
  rw [mul_div_assoc, ten_zpow_toNat]

/-- What `isFloat` says. -/
theorem isFloat_iff {n d : Nat} (hd : 0 < d) (c : Nat) (e : Int) :
    isFloat n d c e = true ↔ NearestFloat ((c : ℚ) * 10 ^ e) ((n : ℚ) / d) := by
  have hn := floatOfFrac_nearest false (c * 10 ^ e.toNat) (10 ^ (-e).toNat) (by positivity)
  rw [frac_ten] at hn
  simp only [Bool.false_eq_true, if_false, one_mul] at hn
  have hd' : (0 : ℚ) < d := by exact_mod_cast hd
  unfold isFloat
  simp only
  rw [decide_eq_true_iff]
  have hneg : (floatOfFrac false (c * 10 ^ e.toNat) (10 ^ (-e).toNat)).neg = false := by
    unfold floatOfFrac
    split <;> rfl
  generalize floatOfFrac false (c * 10 ^ e.toNat) (10 ^ (-e).toNat) = x at hn hneg
  have hval : floatValue x = (x.m : ℚ) * 2 ^ x.q := by
    unfold floatValue; rw [hneg]; simp
  have key : x.m * 2 ^ x.q.toNat * d = n * 2 ^ (-x.q).toNat ↔ floatValue x = (n : ℚ) / d := by
    rw [hval, ← frac_toNat, div_eq_div_iff (by positivity) hd'.ne']
    constructor
    · intro h; exact_mod_cast h
    · intro h; exact_mod_cast h
  rw [key]
  constructor
  · intro h; rw [← h]; exact hn
  · intro h; exact nearest_unique hn h

/-- The rounded quotient is one of the two neighbours. -/
theorem divRound_mem (n d : Nat) : divRound n d = n / d ∨ divRound n d = n / d + 1 := by
  unfold divRound
  simp only
  split
  · exact .inl rfl
  · split
    · exact .inr rfl
    · omega

/-- The digits found for the float of a number of fourteen digits are those of that number. -/
theorem shortLoop_value {n d : Nat} (hn : 0 < n) (hd : 0 < d) {v : ℚ} (hv : NearestFloat v ((n : ℚ) / d)) {c : Nat} {e : Int}
    (h0 : 0 < c) (hc : c < 10 ^ 14) (ev : v = (c : ℚ) * 10 ^ e) (fuel k : Nat) (hk : 1 ≤ k) (hk' : k ≤ 14) (hf : 15 ≤ fuel + k) :
    ((shortLoop fuel n d k).1 : ℚ) * 10 ^ (shortLoop fuel n d k).2 = v ∧ (shortLoop fuel n d k).1 ≤ 10 ^ 14 := by
  have hd' : (0 : ℚ) < d := by exact_mod_cast hd
  have hn' : (0 : ℚ) < n := by exact_mod_cast hn
  have hf0 : 0 < (n : ℚ) / d := div_pos hn' hd'
  induction fuel generalizing k with
  | zero => omega
  | succ fuel ih =>
    unfold shortLoop
    simp only
    obtain ⟨l1, l2⟩ := log10Frac_spec hn hd
    generalize log10Frac n d = L at l1 l2
    have hscale := scaled_ten n d (L - k) hd
    have hden : 0 < d * 10 ^ (L - (k : Int)).toNat := by positivity
    have hE := ten_zpow_pos (L - k)
    generalize hN : n * 10 ^ (-(L - (k : Int))).toNat = N at *
    generalize hD : d * 10 ^ (L - (k : Int)).toNat = D at *
    have hD' : (0 : ℚ) < D := by exact_mod_cast hden
    have hq1 : ((N / D : Nat) : ℚ) ≤ (n : ℚ) / d / 10 ^ (L - (k : Int)) := by
      rw [← hscale, le_div_iff₀ hD']
      exact_mod_cast Nat.div_mul_le_self N D
    have hq2 : (n : ℚ) / d / 10 ^ (L - (k : Int)) < ((N / D : Nat) : ℚ) + 1 := by
      rw [← hscale, div_lt_iff₀ hD']
      have := Nat.lt_div_mul_add hden (a := N)
      have : N < (N / D + 1) * D := by rw [add_mul, one_mul]; exact this
      exact_mod_cast this
    have hlt : N / D < 10 ^ k := by
      have h1 : (n : ℚ) / d / 10 ^ (L - (k : Int)) < 10 ^ k := by
        rw [div_lt_iff₀ hE, ← zpow_natCast, ← ten_zpow_add]
        simpa using l2
      have : ((N / D : Nat) : ℚ) < 10 ^ k := lt_of_le_of_lt hq1 h1
      exact_mod_cast this
    have hk14 : 10 ^ k ≤ 10 ^ 14 := Nat.pow_le_pow_right (by norm_num) hk'
    -- whatever is accepted is the number
    have acc : ∀ C : Nat, C ≤ N / D + 1 → isFloat n d C (L - k) = true →
        (C : ℚ) * 10 ^ (L - (k : Int)) = v ∧ C ≤ 10 ^ 14 := by
      intro C hC hacc
      rw [isFloat_iff hd] at hacc
      have hC14 : C ≤ 10 ^ 14 := by omega
      have hC0 : 0 < C := by
        rcases Nat.eq_zero_or_pos C with rfl | h
        · rw [Nat.cast_zero, zero_mul] at hacc
          have := nearest_unique hacc nearest_zero
          exact absurd this hf0.ne'
        · exact h
      exact ⟨fourteen_unique hacc hv hC0 hC14 h0 hc.le rfl ev, hC14⟩
    split
    · rename_i hboth
      rcases divRound_mem N D with h | h
      · rw [h]; exact acc _ (by omega) hboth.1
      · rw [h]; exact acc _ le_rfl hboth.2
    · split
      · rename_i h; exact acc _ (by omega) h
      · split
        · rename_i h; exact acc _ le_rfl h
        · rename_i hnot1 hnot2
          rcases Nat.lt_or_ge k 14 with hlt14 | hge
          · exact ih (k + 1) (by omega) (by omega) (by omega)
          · exfalso
            obtain rfl : k = 14 := by omega
            obtain ⟨C, F, c1, c2, cv⟩ := fourteen h0 hc.le e
            rw [cv] at ev
            have hF := ten_zpow_pos F
            have hC1 : (10 : ℚ) ^ 13 ≤ C := by exact_mod_cast c1
            have hC2 : (C : ℚ) + 1 ≤ 10 ^ 14 := by exact_mod_cast c2
            have hv0 : 0 < v := by rw [ev]; exact mul_pos (by linarith [show (0 : ℚ) < 10 ^ 13 by norm_num]) hF
            have err := nearest_error_pos hv hv0
            have hFE : L - 14 ≤ F := by
              by_contra hlt
              have h1 : (10 : ℚ) ^ (14 + F) ≤ 10 ^ (L - 1) := ten_zpow_le.2 (by omega)
              rw [ten_zpow_add] at h1
              have h2 := (abs_le.1 err).1
              have h3 : v + 10 ^ F ≤ 10 ^ 14 * 10 ^ F := by rw [ev]; nlinarith
              have h4 : v / 2 ^ 53 < 10 ^ F := by
                rw [div_lt_iff₀ (by positivity)]
                norm_num at h3 ⊢
                linarith
              norm_num at h1 h3
              linarith
            obtain ⟨j, hj⟩ := Int.eq_ofNat_of_zero_le (show 0 ≤ F - (L - 14) by omega)
            obtain rfl : F = j + (L - (14 : Nat)) := by push_cast; omega
            rw [ten_zpow_add, zpow_natCast, ← mul_assoc] at ev
            have herr : v / 2 ^ 53 < 10 ^ (L - ((14 : Nat) : Int)) := by
              have h2 := (abs_le.1 err).2
              have h3 : v ≤ 2 * ((n : ℚ) / d) := by
                have : v / 2 ^ 53 ≤ v / 2 := by
                  apply div_le_div_of_nonneg_left hv0.le (by norm_num) (by norm_num)
                linarith
              have h4 : (n : ℚ) / d < 10 ^ 14 * 10 ^ (L - ((14 : Nat) : Int)) := by
                rw [← zpow_natCast (10 : ℚ) 14, ← ten_zpow_add]
                simpa using l2
              rw [div_lt_iff₀ (by positivity)]
              norm_num at h4 ⊢
              linarith
            have hdist : |(C : ℚ) * 10 ^ j - (n : ℚ) / d / 10 ^ (L - ((14 : Nat) : Int))| < 1 := by
              have h5 : |(C : ℚ) * 10 ^ j - (n : ℚ) / d / 10 ^ (L - ((14 : Nat) : Int))| * 10 ^ (L - ((14 : Nat) : Int)) = |v - (n : ℚ) / d| := by
                rw [← abs_of_pos hE, ← abs_mul, abs_of_pos hE, sub_mul, div_mul_cancel₀ _ hE.ne', ev]
              have h6 := lt_of_le_of_lt err herr
              rw [← h5] at h6
              nlinarith
            rw [abs_lt] at hdist
            have m1 : N / D < C * 10 ^ j + 1 := by
              have : ((N / D : Nat) : ℚ) < (C : ℚ) * 10 ^ j + 1 := by linarith
              exact_mod_cast this
            have m2 : C * 10 ^ j < N / D + 2 := by
              have : (C : ℚ) * 10 ^ j < ((N / D : Nat) : ℚ) + 2 := by linarith
              exact_mod_cast this
            have hacc : isFloat n d (C * 10 ^ j) (L - ((14 : Nat) : Int)) = true := by
              rw [isFloat_iff hd]
              push_cast at ev ⊢
              rw [← ev]
              exact hv
            rcases (by omega : C * 10 ^ j = N / D ∨ C * 10 ^ j = N / D + 1) with h | h
            · rw [h] at hacc; exact hnot1 hacc
            · rw [h] at hacc; exact hnot2 hacc

theorem dropZeros_value (fuel c : Nat) (e : Int) :
    ((dropZeros fuel c e).1 : ℚ) * 10 ^ (dropZeros fuel c e).2 = (c : ℚ) * 10 ^ e ∧ (dropZeros fuel c e).1 ≤ c := by
  induction fuel generalizing c e with
  | zero => exact ⟨rfl, le_rfl⟩
  | succ fuel ih =>
    unfold dropZeros
    split
    · rename_i h
      obtain ⟨h1, h2⟩ := ih (c / 10) (e + 1)
      refine ⟨h1.trans ?_, by omega⟩
      have : c = c / 10 * 10 := by omega
      conv_rhs => rw [this]
      rw [ten_zpow_add]
      push_cast
      ring
    · exact ⟨rfl, le_rfl⟩

/-- The digits in the text of the float of a number of fourteen digits. -/
theorem floatDigits_value {x : PyFloat} (hx : x.m ≠ 0) {v : ℚ} (hv : NearestFloat v ((x.m : ℚ) * 2 ^ x.q)) {c : Nat} {e : Int}
    (h0 : 0 < c) (hc : c < 10 ^ 14) (ev : v = (c : ℚ) * 10 ^ e) :
    ((floatDigits x).1 : ℚ) * 10 ^ (floatDigits x).2 = v ∧ 0 < (floatDigits x).1 := by
  unfold floatDigits
  simp only
  rw [← frac_toNat] at hv
  obtain ⟨h1, h2⟩ := shortLoop_value (Nat.mul_pos (Nat.pos_of_ne_zero hx) (by positivity)) (by positivity) hv h0 hc ev 17 1
    (by norm_num) (by norm_num) (by norm_num)
  generalize shortLoop 17 (x.m * 2 ^ x.q.toNat) (2 ^ (-x.q).toNat) 1 = p at h1 h2
  obtain ⟨p1, p2⟩ := p
  obtain ⟨g1, g2⟩ := dropZeros_value 17 p1 p2
  refine ⟨g1.trans h1, ?_⟩
  by_contra hz
  rw [Nat.eq_zero_of_not_pos hz] at g1
  rw [h1, ev, Nat.cast_zero, zero_mul] at g1
  have : (0 : ℚ) < (c : ℚ) * 10 ^ e := mul_pos (by exact_mod_cast h0) (ten_zpow_pos e)
  linarith

/-! ### The text as a literal -/

/-- The digits of the exponent. -/
def expDigits (k : Int) : Str := if k.natAbs < 10 then '0' :: natRepr k.natAbs else natRepr k.natAbs

/-- The literal of the digits before a power of ten. -/
def digitsLit (neg : Bool) (ds : Str) (e : Int) : Literal :=
  if e + ds.length ≤ -4 ∨ 16 < e + ds.length then
    ⟨if neg then .minus else .none, ds.take 1, if ds.length ≤ 1 then none else some (ds.drop 1),
      some (.e, if e + ds.length - 1 < 0 then .minus else .plus, expDigits (e + ds.length - 1))⟩
  else if e + ds.length ≤ 0 then
    ⟨if neg then .minus else .none, ['0'], some (List.replicate (-(e + ds.length)).toNat '0' ++ ds), none⟩
  else if ds.length ≤ e + ds.length then
    ⟨if neg then .minus else .none, ds ++ List.replicate e.toNat '0', some ['0'], none⟩
  else ⟨if neg then .minus else .none, ds.take (e + ds.length).toNat, some (ds.drop (e + ds.length).toNat), none⟩

theorem sign_str (neg : Bool) : (if neg then Sign.minus else Sign.none).str = if neg then ['-'] else [] := by
  cases neg <;> rfl

theorem expDigits_all (k : Int) : (expDigits k).all isDig = true ∧ natVal (expDigits k) = k.natAbs ∧ expDigits k ≠ [] := by
  obtain ⟨h1, h2, h3⟩ := natRepr_spec k.natAbs
  unfold expDigits
  split
  · refine ⟨?_, ?_, by simp⟩
    · rw [List.all_cons, h1]; rfl
    · rw [natVal_cons, h2]; simp [digVal]
  · exact ⟨h1, h2, h3⟩

theorem digitsLit_render (neg : Bool) (ds : Str) (e : Int) :
    (digitsLit neg ds e).render = (if neg then ['-'] else []) ++ digitsText ds e := by
  unfold digitsLit digitsText
  simp only
  split
  · simp only [Literal.render, Literal.fracStr, Literal.expStr, sign_str, expText]
    have : Marker.str .e ++ (if e + (ds.length : Int) - 1 < 0 then Sign.minus else Sign.plus).str ++ expDigits (e + ds.length - 1) =
        'e' :: (if e + (ds.length : Int) - 1 < 0 then '-' else '+') ::
          (if (e + (ds.length : Int) - 1).natAbs < 10 then '0' :: natRepr (e + (ds.length : Int) - 1).natAbs
            else natRepr (e + (ds.length : Int) - 1).natAbs) := by
      unfold expDigits
      split <;> rfl
    rw [this]
    by_cases h1 : ds.length ≤ 1
    · simp [h1]
    · simp [h1]
  · split
    · simp [Literal.render, Literal.fracStr, Literal.expStr, sign_str]
    · split
      · rw [show e + (ds.length : Int) - ds.length = e by omega]
        simp [Literal.render, Literal.fracStr, Literal.expStr, sign_str]
      · simp [Literal.render, Literal.fracStr, Literal.expStr, sign_str]

theorem digitsLit_valid (neg : Bool) {ds : Str} (hds : ds.all isDig = true) (e : Int) : (digitsLit neg ds e).Valid := by
  have hds' : ∀ c ∈ ds, isDig c = true := List.all_eq_true.mp hds
  have hz : ∀ k : Nat, ∀ c ∈ List.replicate k '0', isDig c = true := by
    intro k c hc; rw [List.eq_of_mem_replicate hc]; decide
  have dig : ∀ s : Str, (∀ c ∈ s, isDig c = true) → Digits s := fun s h => (digits_iff s).1 (List.all_eq_true.2 h)
  unfold digitsLit
  split
  · refine ⟨dig _ fun c hc => hds' c (List.take_subset _ _ hc), ?_, ?_⟩
    · intro f hf
      simp only at hf
      split at hf
      · cases hf
      · cases hf; exact dig _ fun c hc => hds' c (List.drop_subset _ _ hc)
    · intro m s x hx
      cases hx
      obtain ⟨h1, -, h3⟩ := expDigits_all (e + ds.length - 1)
      exact ⟨(digits_iff _).1 h1, h3⟩
  · split
    · refine ⟨dig ['0'] (by decide), ?_, by intro m s x hx; cases hx⟩
      intro f hf
      cases hf
      refine dig _ fun c hc => ?_
      rcases List.mem_append.1 hc with h | h
      · exact hz _ _ h
      · exact hds' _ h
    · split
      · refine ⟨dig _ fun c hc => ?_, ?_, by intro m s x hx; cases hx⟩
        · rcases List.mem_append.1 hc with h | h
          · exact hds' _ h
          · exact hz _ _ h
        · intro f hf; cases hf; exact dig _ (by decide)
      · refine ⟨dig _ fun c hc => hds' c (List.take_subset _ _ hc), ?_, by intro m s x hx; cases hx⟩
        intro f hf; cases hf; exact dig _ fun c hc => hds' c (List.drop_subset _ _ hc)

theorem digitsLit_noLeading (neg : Bool) {ds : Str} (hne : ds ≠ []) (hhead : ds.head? ≠ some '0') (e : Int) :
    (digitsLit neg ds e).NoLeadingZeros := by
  unfold Literal.NoLeadingZeros digitsLit
  obtain ⟨a, t, rfl⟩ := List.exists_cons_of_ne_nil hne
  split
  · right; simpa using hhead
  · split
    · left; exact (by decide : digitsValue ['0'] = 0)
    · split
      · right; simpa using hhead
      · right
        rename_i h1 h2 h3
        obtain ⟨j, hj⟩ : ∃ j, (e + ((a :: t).length : Int)).toNat = j + 1 := ⟨(e + ((a :: t).length : Int)).toNat - 1, by omega⟩
        simp only [hj, List.take_succ_cons, List.head?_cons]
        simpa using hhead

theorem digitsLit_value (neg : Bool) {ds : Str} (hne : ds ≠ []) (e : Int) :
    (digitsLit neg ds e).value = (if neg then -1 else 1) * ((natVal ds : ℚ) * 10 ^ e) := by
  have hlen : 0 < ds.length := List.length_pos_iff.2 hne
  have hs : ((if (if neg then Sign.minus else Sign.none).isNeg then -1 else 1 : Int) : ℚ) = if neg then -1 else 1 := by
    cases neg <;> simp [Sign.isNeg]
  unfold Literal.value Literal.sgn Literal.magnitude
  rw [coeff_eq, ← natVal_append]
  unfold digitsLit Literal.scale Literal.expValue Literal.fracDigits
  split
  · simp only [hs]
    congr 1
    obtain ⟨-, h2, -⟩ := expDigits_all (e + ds.length - 1)
    rw [digitsValue_eq, h2]
    have hx : (if (if e + (ds.length : Int) - 1 < 0 then Sign.minus else Sign.plus).isNeg then -((e + (ds.length : Int) - 1).natAbs : Int)
        else ((e + (ds.length : Int) - 1).natAbs : Int)) = e + (ds.length : Int) - 1 := by
      by_cases h : e + (ds.length : Int) - 1 < 0
      · rw [if_pos h]; simp only [Sign.isNeg, if_true]; omega
      · rw [if_neg h]; simp only [Sign.isNeg, Bool.false_eq_true, if_false]; omega
    rw [hx]
    by_cases h1 : ds.length ≤ 1
    · simp only [h1, if_true, Option.getD_none, List.append_nil, List.length_nil]
      rw [List.take_of_length_le (by omega)]
      congr 2; push_cast; omega
    · simp only [h1, if_false, Option.getD_some, List.take_append_drop, List.length_drop]
      congr 2; omega
  · split
    · simp only [hs, Option.getD_some]
      congr 1
      rw [← List.append_assoc, show ['0'] ++ List.replicate (-(e + (ds.length : Int))).toNat '0' =
        List.replicate ((-(e + (ds.length : Int))).toNat + 1) '0' by rw [List.replicate_succ]; rfl, natVal_append,
        natVal_replicate_zero]
      simp only [List.length_append, List.length_replicate, zero_mul, zero_add]
      congr 2; push_cast; omega
    · split
      · simp only [hs, Option.getD_some]
        congr 1
        rename_i h1 h2 h3
        obtain ⟨j, hj⟩ := Int.eq_ofNat_of_zero_le (show 0 ≤ e by omega)
        subst hj
        rw [natVal_append, natVal_append, natVal_replicate_zero, Int.toNat_natCast, List.length_replicate]
        simp only [List.length_cons, List.length_nil]
        rw [show natVal ['0'] = 0 by decide]
        push_cast
        rw [zpow_natCast, add_zero, add_zero]
        norm_num
        ring
      · simp only [hs, Option.getD_some, List.take_append_drop, List.length_drop]
        congr 3; omega

theorem digitsLit_shape (neg : Bool) (ds : Str) (e : Int) : (digitsLit neg ds e).exp = none → (digitsLit neg ds e).frac ≠ none := by
  unfold digitsLit
  repeat' split
  all_goals simp

/-- The text of the float nearest to a number of fourteen digits is a literal of that number. -/
theorem floatStr_literal (d : PyDec) (hd : d.coeff < 10 ^ 14) :
    ∃ l : Literal, l.Valid ∧ l.NoLeadingZeros ∧ l.value = d.value ∧ floatStr (floatOfDec d) = l.render ∧
      (l.exp = none → l.frac ≠ none) := by
  have hneg : (floatOfDec d).neg = d.neg := by
    unfold floatOfDec floatOfFrac
    split <;> rfl
  have hn := floatOfDec_nearest d
  rcases Nat.eq_zero_or_pos d.coeff with h0 | h0
  · have hm : (floatOfDec d).m = 0 := by
      unfold floatOfDec floatOfFrac
      rw [h0, Nat.zero_mul]
      rfl
    refine ⟨⟨if d.neg then .minus else .none, ['0'], some ['0'], none⟩, ⟨?_, ?_, by intro m s x hx; cases hx⟩, .inl (by decide : digitsValue ['0'] = 0), ?_, ?_, by simp⟩
    · exact (digits_iff ['0']).1 (by decide)
    · intro f hf; cases hf; exact (digits_iff _).1 (by decide)
    · unfold Literal.value Literal.magnitude PyDec.value
      rw [coeff_eq, h0, show natVal (['0'] : Str) = 0 by decide]
      simp [Literal.fracDigits, show natVal (['0'] : Str) = 0 by decide]
    · unfold floatStr
      rw [hm, if_pos rfl, hneg]
      simp only [Literal.render, Literal.fracStr, Literal.expStr, sign_str]
      simp
  · have hv0 : 0 < (d.coeff : ℚ) * 10 ^ d.exp := mul_pos (by exact_mod_cast h0) (ten_zpow_pos _)
    have hpos : NearestFloat ((d.coeff : ℚ) * 10 ^ d.exp) (((floatOfDec d).m : ℚ) * 2 ^ (floatOfDec d).q) := by
      unfold PyDec.value floatValue at hn
      rw [hneg] at hn
      cases hdn : d.neg
      · rw [hdn] at hn; simpa using hn
      · rw [hdn] at hn
        have := nearest_neg hn
        simpa using this
    have hm : (floatOfDec d).m ≠ 0 := by
      intro hm
      rw [hm, Nat.cast_zero, zero_mul] at hpos
      have := nearest_error_pos hpos hv0
      rw [sub_zero, abs_of_pos hv0, le_div_iff₀ (by positivity)] at this
      nlinarith
    obtain ⟨g1, g2⟩ := floatDigits_value hm hpos h0 hd rfl
    generalize hfd : floatDigits (floatOfDec d) = p at g1 g2
    obtain ⟨c, e⟩ := p
    obtain ⟨r1, r2, r3⟩ := natRepr_spec c
    refine ⟨digitsLit d.neg (natRepr c) e, digitsLit_valid _ r1 _, digitsLit_noLeading _ r3 (natRepr_head c (by simp only at g2; omega)) _, ?_, ?_, digitsLit_shape _ _ _⟩
    · rw [digitsLit_value _ r3, r2, g1]
      unfold PyDec.value
      cases d.neg <;> simp
    · unfold floatStr
      rw [if_neg hm, hneg, hfd, digitsLit_render]

end Verif
