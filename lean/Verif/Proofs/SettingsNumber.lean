import Verif.Model.JsonNumber
import Verif.Props.Float

/-! Helper lemmas for the checks of numbers stored in settings and graph databases. -/

namespace Verif
open Spec

theorem whole_shift (c : Nat) {e : Int} (h : 0 ≤ e) : ∃ n : Int, (c : ℚ) * 10 ^ e = n := by
  obtain ⟨k, rfl⟩ := Int.eq_ofNat_of_zero_le h
  exact ⟨((c * 10 ^ k : Nat) : Int), by simp⟩

theorem nearest_large_pos {v f : ℚ} (h : NearestFloat v f) {c : Nat} {e : Int} (hv : v = (c : ℚ) * 10 ^ e) (hc : c < 10 ^ 14)
    (hs : 2 ^ 53 ≤ v) : (∃ n : Int, v = n) ∧ (∃ n : Int, f = n) ∧ 2 ^ 53 ≤ f := by
  have hf : 2 ^ 53 ≤ f := by
    have h1 := h.near (2 ^ 53) ⟨1, 53, by norm_num, by norm_num⟩
    rw [abs_of_nonneg (by linarith : 0 ≤ v - 2 ^ 53)] at h1
    have := le_abs_self (v - f)
    linarith
  refine ⟨?_, ?_, hf⟩
  · rw [hv]
    refine whole_shift c ?_
    by_contra hneg
    have h1 : (10 : ℚ) ^ e ≤ 1 := by
      have : (10 : ℚ) ^ e ≤ 10 ^ (0 : Int) := ten_zpow_le.2 (by omega)
      simpa using this
    have h2 : (c : ℚ) < 10 ^ 14 := by exact_mod_cast hc
    have h3 : (c : ℚ) * 10 ^ e ≤ c * 1 := mul_le_mul_of_nonneg_left h1 (by positivity)
    have : v < 2 ^ 53 := by rw [hv]; refine lt_of_le_of_lt h3 ?_; norm_num at h2 ⊢; linarith
    linarith
  · obtain ⟨n, k, hn, hk⟩ := h.bits
    have hk0 : 0 ≤ k := by
      by_contra hneg
      have h1 : (2 : ℚ) ^ k ≤ 1 := by
        have : (2 : ℚ) ^ k ≤ 2 ^ (0 : Int) := zpow_le_zpow_right₀ (by norm_num) (by omega)
        simpa using this
      have h2 : (n : ℚ) < 2 ^ 53 := by
        have : n < 2 ^ 53 := lt_of_le_of_lt (le_abs_self n) hn
        exact_mod_cast this
      have h0 := two_zpow_pos k
      have : f < 2 ^ 53 := by
        rw [hk]
        rcases le_total (n : ℚ) 0 with h' | h'
        · have := mul_nonpos_of_nonpos_of_nonneg h' h0.le
          have : (0 : ℚ) < 2 ^ 53 := by norm_num
          linarith
        · have := mul_le_mul_of_nonneg_left h1 h'
          linarith
      linarith
    obtain ⟨m, rfl⟩ := Int.eq_ofNat_of_zero_le hk0
    exact ⟨n * 2 ^ m, by rw [hk]; simp⟩

theorem wholePart_whole (k : Int) : wholePart (k : ℚ) = k := by
  unfold wholePart; split <;> simp

/-- Whether a stored number is whole, and one of 1 to 8, can be told from its float. -/
theorem nearest_check {v f : ℚ} (h : NearestFloat v f) {c : Nat} {e : Int} (hv : |v| = (c : ℚ) * 10 ^ e) (hc : c < 10 ^ 14) :
    ((∃ n : Int, f = n) ↔ ∃ n : Int, v = n) ∧
    (((∃ n : Int, f = n) ∧ 1 ≤ wholePart f ∧ wholePart f ≤ 8) ↔ ∃ k : Int, 1 ≤ k ∧ k ≤ 8 ∧ v = k) := by
  rcases lt_or_ge |v| (2 ^ 53) with hs | hs
  · obtain ⟨h1, h2⟩ := nearest_whole h hv hc hs
    refine ⟨h2, ?_⟩
    rw [h1, h2]
    constructor
    · rintro ⟨⟨n, rfl⟩, a, b⟩
      rw [wholePart_whole] at a b
      exact ⟨n, a, b, rfl⟩
    · rintro ⟨k, a, b, rfl⟩
      rw [wholePart_whole]
      exact ⟨⟨k, rfl⟩, a, b⟩
  · have big : ∀ k : Int, 1 ≤ k → k ≤ 8 → v ≠ k := by
      intro k a b he
      have a' : (1 : ℚ) ≤ k := by exact_mod_cast a
      have b' : (k : ℚ) ≤ 8 := by exact_mod_cast b
      rw [he, abs_of_nonneg (by linarith)] at hs
      norm_num at hs
      linarith
    have hw : (∃ n : Int, v = n) ∧ (∃ n : Int, f = n) ∧ ¬ (1 ≤ wholePart f ∧ wholePart f ≤ 8) := by
      rcases abs_choice v with hs' | hs'
      · rw [hs'] at hv hs
        obtain ⟨h1, h2, h3⟩ := nearest_large_pos h hv hc hs
        refine ⟨h1, h2, ?_⟩
        rintro ⟨-, b⟩
        obtain ⟨n, rfl⟩ := h2
        rw [wholePart_whole] at b
        have : (n : ℚ) ≤ 8 := by exact_mod_cast b
        norm_num at h3
        linarith
      · rw [hs'] at hv hs
        obtain ⟨⟨n, hn⟩, ⟨m, hm⟩, h3⟩ := nearest_large_pos (nearest_neg h) hv hc hs
        have hfm : f = ((-m : Int) : ℚ) := by push_cast; linarith
        refine ⟨⟨-n, by push_cast; linarith⟩, ⟨-m, hfm⟩, ?_⟩
        rintro ⟨a, -⟩
        rw [hfm, wholePart_whole] at a
        have : (1 : ℚ) ≤ ((-m : Int) : ℚ) := by exact_mod_cast a
        rw [← hfm] at this
        norm_num at h3
        linarith
    exact ⟨⟨fun _ => hw.1, fun _ => hw.2.1⟩, ⟨fun ⟨_, h'⟩ => absurd h' hw.2.2, fun ⟨k, a, b, he⟩ => absurd he (big k a b)⟩⟩

namespace Ent

theorem wholeOf_check {v : Ent} (hk : v.cls ∈ decimalKinds) (hv : v.body.bytes.length = 9) (hdig : AllDigits (v.body.bytes.drop 2)) :
    ∃ n w, wholeOf v = .ok (n, w) ∧ (w = true ↔ ∃ k : Int, storedNumber v.body.bytes = k) ∧
      ((w = true ∧ 1 ≤ n ∧ n ≤ 8) ↔ ∃ k : Int, 1 ≤ k ∧ k ≤ 8 ∧ storedNumber v.body.bytes = k) := by
  obtain ⟨d, h1, h2, h3, -⟩ := stored_decimal hk hv hdig
  have hf : realFloat v.cls v.body = .ok (floatOfDec d) := by unfold realFloat; rw [show v.body = ⟨v.body.mutable, v.body.bytes⟩ from rfl, h1]
  have hn : NearestFloat (storedNumber v.body.bytes) (floatValue (floatOfDec d)) := h2 ▸ floatOfDec_nearest d
  obtain ⟨w1, w2⟩ := nearest_check hn (by rw [← h2]; exact abs_value d) h3
  refine ⟨_, _, by unfold wholeOf; rw [hf], (floatWhole_value _).trans w1, ?_⟩
  rw [floatWhole_value, floatTrunc_value]
  exact w2

end Ent
end Verif
