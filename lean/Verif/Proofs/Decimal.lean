import Verif.Model.Fraction
import Verif.Spec.Fraction
import Verif.Proofs.RealValue
import Mathlib.Tactic.FieldSimp

/-! Decimal arithmetic: quotients and products are correctly rounded. -/

namespace Verif

open Spec

/-- The number of digits printed. -/
theorem natRepr_length (n : Nat) (h : n ≠ 0) :
    10 ^ ((natRepr n).length - 1) ≤ n ∧ n < 10 ^ (natRepr n).length ∧ 0 < (natRepr n).length := by
  induction n using Nat.strongRecOn with
  | _ n ih =>
    by_cases h10 : n < 10
    · rw [natRepr_lt h10]; simp; omega
    · rw [natRepr_ge (by omega)]
      obtain ⟨h1, h2, h3⟩ := ih (n / 10) (by omega) (by omega)
      simp only [List.length_append, List.length_cons, List.length_nil, Nat.zero_add, Nat.add_sub_cancel]
      refine ⟨?_, ?_, by omega⟩
      · obtain ⟨k, hk⟩ : ∃ k, (natRepr (n / 10)).length = k + 1 := ⟨_, (Nat.succ_pred_eq_of_pos h3).symm⟩
        rw [hk] at h1 ⊢
        simp only [Nat.add_sub_cancel] at h1
        rw [pow_succ]; omega
      · rw [pow_succ]; omega

theorem natRepr_length_le {n k : Nat} (hk : 0 < k) : (natRepr n).length ≤ k ↔ n < 10 ^ k := by
  by_cases h : n = 0
  · subst h
    have : (natRepr 0).length = 1 := by decide
    rw [this]; simp; omega
  · obtain ⟨h1, h2, h3⟩ := natRepr_length n h
    constructor
    · intro hl; exact lt_of_lt_of_le h2 (Nat.pow_le_pow_right (by omega) hl)
    · intro hl
      have := (Nat.pow_lt_pow_iff_right (show 1 < 10 by omega)).mp (lt_of_le_of_lt h1 hl)
      omega

/-- The magnitude of a decimal. -/
def PyDec.mag (d : PyDec) : ℚ := d.coeff * (10 : ℚ) ^ d.exp

theorem PyDec.mag_nonneg (d : PyDec) : 0 ≤ d.mag := mul_nonneg (by positivity) (ten_zpow_pos _).le

theorem PyDec.abs_value (d : PyDec) : |d.value| = d.mag := by
  have := d.mag_nonneg
  unfold PyDec.value
  show |_ * d.mag| = _
  rw [abs_mul, abs_of_nonneg this]
  cases d.neg <;> simp

/-- The true magnitude `t` is on the same side as `c` of every multiple of five. -/
def SameSide (t : ℚ) (c : Nat) : Prop := ∀ h : Nat, h % 5 = 0 → (t < h ↔ c < h) ∧ ((h : ℚ) < t ↔ h < c)

theorem sameSide_self (c : Nat) : SameSide (c : ℚ) c := by
  intro h _; constructor <;> norm_cast

/-- The quotient with the adjusted last digit of `__truediv__`. -/
theorem sameSide_div {num den : Nat} (hd : 0 < den) (hr : num % den ≠ 0) :
    SameSide ((num : ℚ) / den) (if num / den % 5 = 0 then num / den + 1 else num / den) := by
  have hd' : (0 : ℚ) < den := by exact_mod_cast hd
  have hm := Nat.div_add_mod num den
  have hlt := Nat.mod_lt num hd
  set c := num / den with hc
  intro h h5
  have e1 : ((num : ℚ) / den < h) ↔ c < h := by
    rw [div_lt_iff₀ hd']
    norm_cast
    constructor
    · intro hh
      by_contra hcon
      have : h * den ≤ den * c := by rw [Nat.mul_comm h]; exact Nat.mul_le_mul_left _ (by omega)
      omega
    · intro hh
      have : den * (c + 1) ≤ h * den := by rw [Nat.mul_comm h]; exact Nat.mul_le_mul_left _ (by omega)
      rw [Nat.mul_succ] at this
      omega
  have e2 : ((h : ℚ) < (num : ℚ) / den) ↔ h ≤ c := by
    rw [lt_div_iff₀ hd']
    norm_cast
    constructor
    · intro hh
      by_contra hcon
      have : den * (c + 1) ≤ h * den := by rw [Nat.mul_comm h]; exact Nat.mul_le_mul_left _ (by omega)
      rw [Nat.mul_succ] at this
      omega
    · intro hh
      have : h * den ≤ den * c := by rw [Nat.mul_comm h]; exact Nat.mul_le_mul_left _ hh
      omega
  rw [e1, e2]
  split <;> omega

/-- A number with at most `prec` digits is its own rounding. -/
theorem roundsHalfEven_self {prec c : Nat} (hp : 0 < prec) (hc : c < 10 ^ prec) (e : Int) :
    RoundsHalfEven prec ((c : ℚ) * 10 ^ e) ((c : ℚ) * 10 ^ e) := by
  by_cases h0 : c = 0
  · left; simp [h0]
  · right
    obtain ⟨h1, h2, h3⟩ := natRepr_length c h0
    have hl := (natRepr_length_le hp).mpr hc
    set l := (natRepr c).length with hl'
    have hv : (c : ℚ) * 10 ^ e = ((c * 10 ^ (prec - l) : Nat) : ℚ) * 10 ^ (e - ((prec - l : Nat) : Int)) := by
      push_cast
      rw [mul_assoc, ← zpow_natCast, ← ten_zpow_add]
      congr 2; omega
    refine ⟨c * 10 ^ (prec - l), e - ((prec - l : Nat) : Int), ?_, ?_, ?_, ?_, Or.inl ⟨hv, Or.inl ?_⟩⟩
    · calc 10 ^ (prec - 1) = 10 ^ (l - 1) * 10 ^ (prec - l) := by rw [← pow_add]; congr 1; omega
        _ ≤ _ := Nat.mul_le_mul_right _ h1
    · calc c * 10 ^ (prec - l) < 10 ^ l * 10 ^ (prec - l) := Nat.mul_lt_mul_of_pos_right h2 (by positivity)
        _ = 10 ^ prec := by rw [← pow_add]; congr 1; omega
    · exact hv.ge
    · rw [hv]; exact mul_lt_mul_of_pos_right (by linarith) (ten_zpow_pos _)
    · rw [sub_self, mul_zero]; exact ten_zpow_pos _

/-- Rounding a magnitude: `t` counts units of `10^exp`. -/
theorem decFix_spec {prec : Nat} (hp : 0 < prec) (d : PyDec) (t : ℚ) (hs : SameSide t d.coeff)
    (hex : d.coeff < 10 ^ prec → t = d.coeff) :
    RoundsHalfEven prec (t * 10 ^ d.exp) (decFix prec d).mag ∧ (decFix prec d).neg = d.neg ∧
      (decFix prec d).coeff < 10 ^ prec := by
  by_cases hc : d.coeff < 10 ^ prec
  · have hl := (natRepr_length_le hp).mpr hc
    have : decFix prec d = d := by unfold decFix; simp only; rw [if_pos (by omega)]
    rw [this, hex hc]
    exact ⟨roundsHalfEven_self hp hc _, rfl, hc⟩
  · have hl : ¬ (natRepr d.coeff).length ≤ prec := fun h => hc ((natRepr_length_le hp).mp h)
    have h0 : d.coeff ≠ 0 := by have : 0 < 10 ^ prec := by positivity
                                omega
    obtain ⟨h1, h2, h3⟩ := natRepr_length d.coeff h0
    obtain ⟨k, hk⟩ : ∃ k, (natRepr d.coeff).length = prec + (k + 1) := ⟨(natRepr d.coeff).length - prec - 1, by omega⟩
    have hk' : (natRepr d.coeff).length - prec = k + 1 := by omega
    rw [hk] at h1 h2
    rw [show prec + (k + 1) - 1 = (prec - 1) + (k + 1) by omega, pow_add] at h1
    rw [pow_add] at h2
    have hP : 0 < 10 ^ (k + 1) := by positivity
    generalize hT : 10 ^ (k + 1) = T at *
    have hT10 : T = 10 * (T / 10) := by rw [← hT, pow_succ]; omega
    have hdm := Nat.div_add_mod d.coeff T
    have hlo := Nat.mod_lt d.coeff hP
    have hfix : decFix prec d = (let c := if T < 2 * (d.coeff % T) ∨ (2 * (d.coeff % T) = T ∧ d.coeff / T % 2 = 1)
          then d.coeff / T + 1 else d.coeff / T
        if prec < (natRepr c).length then ⟨d.neg, c / 10, d.exp + (k + 1 : Nat) + 1⟩
        else ⟨d.neg, c, d.exp + (k + 1 : Nat)⟩) := by
      unfold decFix; simp only [hk', hT]; rw [if_neg (by omega)]
    have hhi1 : 10 ^ (prec - 1) ≤ d.coeff / T := (Nat.le_div_iff_mul_le hP).mpr h1
    have hhi2 : d.coeff / T < 10 ^ prec := (Nat.div_lt_iff_lt_mul hP).mpr h2
    generalize hH : d.coeff / T = hi at *
    generalize hL : d.coeff % T = lo at *
    have hTq : (T : ℚ) = (10 : ℚ) ^ ((k + 1 : Nat) : Int) := by rw [← hT, zpow_natCast]; push_cast; rfl
    have he : ∀ x : ℚ, x * 10 ^ (d.exp + ((k + 1 : Nat) : Int)) = (x * T) * 10 ^ d.exp := by
      intro x; rw [ten_zpow_add, hTq]; ring
    have he1 : (10 : ℚ) ^ (d.exp + ((k + 1 : Nat) : Int)) = (T : ℚ) * 10 ^ d.exp := by
      have := he 1; simpa using this
    have hpe := ten_zpow_pos d.exp
    -- where t lies
    have b1 : ((hi * T : Nat) : ℚ) ≤ t := by
      by_contra hcon
      have := ((hs (hi * T) (by rw [hT10, Nat.mul_left_comm]; omega)).1).mp (not_le.mp hcon)
      rw [Nat.mul_comm] at this; omega
    have b2 : t < (((hi + 1) * T : Nat) : ℚ) := by
      refine ((hs ((hi + 1) * T) (by rw [hT10, Nat.mul_left_comm]; omega)).1).mpr ?_
      rw [Nat.mul_comm, Nat.mul_succ]; omega
    have hhalf := hs (hi * T + T / 2) (by rw [hT10, Nat.mul_left_comm]; omega)
    have hT2 : 2 * (T / 2) = T := by omega
    have hT2q : (2 : ℚ) * ((T / 2 : Nat) : ℚ) = T := by exact_mod_cast hT2
    push_cast at b1 b2
    have b1' : (hi : ℚ) * 10 ^ (d.exp + ((k + 1 : Nat) : Int)) ≤ t * 10 ^ d.exp := by
      rw [he]; exact mul_le_mul_of_nonneg_right b1 hpe.le
    have b2' : t * 10 ^ d.exp < ((hi : ℚ) + 1) * 10 ^ (d.exp + ((k + 1 : Nat) : Int)) := by
      rw [he]; exact mul_lt_mul_of_pos_right b2 hpe
    -- the result as a number
    have hres : ∀ c : Nat, c ≤ 10 ^ prec →
        let r : PyDec := if prec < (natRepr c).length then ⟨d.neg, c / 10, d.exp + (k + 1 : Nat) + 1⟩
          else ⟨d.neg, c, d.exp + (k + 1 : Nat)⟩
        r.mag = (c : ℚ) * 10 ^ (d.exp + ((k + 1 : Nat) : Int)) ∧ r.neg = d.neg ∧ r.coeff < 10 ^ prec := by
      intro c hc'
      by_cases hlen : prec < (natRepr c).length
      · have hc10 : c = 10 ^ prec := by
          by_contra hne
          have := (natRepr_length_le hp).mpr (show c < 10 ^ prec by omega)
          omega
        simp only [if_pos hlen, PyDec.mag]
        obtain ⟨p, rfl⟩ : ∃ p, prec = p + 1 := ⟨prec - 1, by omega⟩
        rw [hc10, pow_succ, Nat.mul_div_cancel _ (by omega)]
        refine ⟨?_, trivial, by have : 0 < 10 ^ p := by positivity
                                omega⟩
        rw [ten_zpow_add (d.exp + _) 1]; push_cast; ring
      · simp only [if_neg hlen, PyDec.mag]
        exact ⟨trivial, trivial, (natRepr_length_le hp).mp (by omega)⟩
    rw [hfix]
    by_cases hup : T < 2 * lo ∨ (2 * lo = T ∧ hi % 2 = 1)
    · obtain ⟨r1, r2, r3⟩ := hres (hi + 1) (by omega)
      simp only [if_pos hup]
      refine ⟨?_, r2, r3⟩
      rw [r1]
      right
      refine ⟨hi, d.exp + ((k + 1 : Nat) : Int), hhi1, hhi2, b1', b2', Or.inr ⟨by push_cast; rfl, ?_⟩⟩
      rw [he, he1, ← sub_mul, ← mul_assoc]
      rcases hup with hup | ⟨hup, hodd⟩
      · left
        refine mul_lt_mul_of_pos_right ?_ hpe
        have := hhalf.2.mpr (by rw [Nat.mul_comm hi]; omega)
        push_cast at this ⊢
        nlinarith
      · right
        refine ⟨?_, hodd⟩
        congr 1
        have n1 : ¬ t < ((hi * T + T / 2 : Nat) : ℚ) := fun h => by
          have := hhalf.1.mp h; rw [Nat.mul_comm hi] at this; omega
        have n2 : ¬ ((hi * T + T / 2 : Nat) : ℚ) < t := fun h => by
          have := hhalf.2.mp h; rw [Nat.mul_comm hi] at this; omega
        have : t = ((hi * T + T / 2 : Nat) : ℚ) := le_antisymm (not_lt.mp n2) (not_lt.mp n1)
        rw [this]; push_cast; linarith
    · obtain ⟨r1, r2, r3⟩ := hres hi (by omega)
      simp only [if_neg hup]
      refine ⟨?_, r2, r3⟩
      rw [r1]
      right
      refine ⟨hi, d.exp + ((k + 1 : Nat) : Int), hhi1, hhi2, b1', b2', Or.inl ⟨rfl, ?_⟩⟩
      rw [he, he1, ← sub_mul, ← mul_assoc]
      by_cases hlt : 2 * lo < T
      · left
        refine mul_lt_mul_of_pos_right ?_ hpe
        have := hhalf.1.mpr (by rw [Nat.mul_comm hi]; omega)
        push_cast at this ⊢
        nlinarith
      · right
        refine ⟨?_, by omega⟩
        congr 1
        have n1 : ¬ t < ((hi * T + T / 2 : Nat) : ℚ) := fun h => by
          have := hhalf.1.mp h; rw [Nat.mul_comm hi] at this; omega
        have n2 : ¬ ((hi * T + T / 2 : Nat) : ℚ) < t := fun h => by
          have := hhalf.2.mp h; rw [Nat.mul_comm hi] at this; omega
        have : t = ((hi * T + T / 2 : Nat) : ℚ) := le_antisymm (not_lt.mp n2) (not_lt.mp n1)
        rw [this]; push_cast; linarith

theorem decStrip_spec (fuel c : Nat) (e : Int) :
    ((decStrip fuel c e).1 : ℚ) * 10 ^ (decStrip fuel c e).2 = (c : ℚ) * 10 ^ e := by
  induction fuel generalizing c e with
  | zero => rfl
  | succ f ih =>
    unfold decStrip
    split
    · next h =>
      rw [ih]
      have : (c : ℚ) = ((c / 10 : Nat) : ℚ) * 10 := by exact_mod_cast (Nat.div_mul_cancel (Nat.dvd_of_mod_eq_zero h)).symm
      rw [ten_zpow_add, this]; ring
    · rfl

theorem value_eq (d : PyDec) : d.value = (if d.neg then -1 else 1) * d.mag := by
  unfold PyDec.value PyDec.mag; cases d.neg <;> simp

/-- Products are correctly rounded. -/
theorem decMul_spec {prec : Nat} (hp : 0 < prec) (a b : PyDec) :
    RoundsHalfEven prec (a.mag * b.mag) (decMul prec a b).mag ∧ (decMul prec a b).neg = (a.neg ^^ b.neg) ∧
      (decMul prec a b).coeff < 10 ^ prec := by
  have := decFix_spec hp ⟨a.neg ^^ b.neg, a.coeff * b.coeff, a.exp + b.exp⟩ _ (sameSide_self _) (fun _ => rfl)
  unfold decMul
  refine ⟨?_, this.2⟩
  have h := this.1
  simp only at h
  have e : a.mag * b.mag = ((a.coeff * b.coeff : Nat) : ℚ) * 10 ^ (a.exp + b.exp) := by
    unfold PyDec.mag; rw [ten_zpow_add]; push_cast; ring
  rwa [e]

/-- Quotients are correctly rounded. -/
theorem decDiv_spec {prec : Nat} (hp : 0 < prec) (a b : PyDec) (hb : b.coeff ≠ 0) :
    RoundsHalfEven prec (a.mag / b.mag) (decDiv prec a b).mag ∧ (decDiv prec a b).neg = (a.neg ^^ b.neg) ∧
      (decDiv prec a b).coeff < 10 ^ prec := by
  have hbq : (b.coeff : ℚ) ≠ 0 := by exact_mod_cast hb
  unfold decDiv
  by_cases ha : a.coeff = 0
  · rw [if_pos ha]
    have := decFix_spec hp ⟨a.neg ^^ b.neg, 0, a.exp - b.exp⟩ _ (sameSide_self _) (fun _ => rfl)
    refine ⟨?_, this.2⟩
    have h := this.1
    simp only [Nat.cast_zero, zero_mul] at h
    have e : a.mag / b.mag = 0 := by unfold PyDec.mag; rw [ha]; simp
    rwa [e]
  · rw [if_neg ha]
    obtain ⟨a1, a2, a3⟩ := natRepr_length a.coeff ha
    obtain ⟨b1, b2, b3⟩ := natRepr_length b.coeff hb
    generalize hsh : ((natRepr b.coeff).length - (natRepr a.coeff).length + prec + 1 : Int) = shift
    simp only
    generalize hnum : a.coeff * 10 ^ shift.toNat = num
    generalize hden : b.coeff * 10 ^ (-shift).toNat = den
    have hdpos : 0 < den := by rw [← hden]; positivity
    have hdq : (den : ℚ) ≠ 0 := by exact_mod_cast hdpos.ne'
    -- the quotient in units
    have hv : a.mag / b.mag = ((num : ℚ) / den) * 10 ^ (a.exp - b.exp - shift) := by
      have e1 : (num : ℚ) = a.coeff * 10 ^ ((shift.toNat : Nat) : Int) := by
        rw [← hnum, zpow_natCast]; push_cast; rfl
      have e2 : (den : ℚ) = b.coeff * 10 ^ (((-shift).toNat : Nat) : Int) := by
        rw [← hden, zpow_natCast]; push_cast; rfl
      have e3 : shift = (shift.toNat : Int) - ((-shift).toNat : Int) := by omega
      unfold PyDec.mag
      rw [e1, e2]
      generalize ((shift.toNat : Nat) : Int) = s1 at *
      generalize (((-shift).toNat : Nat) : Int) = s2 at *
      rw [e3, show a.exp - b.exp - (s1 - s2) = a.exp + (-b.exp) + (-s1) + s2 by ring,
        ten_zpow_add, ten_zpow_add, ten_zpow_add, zpow_neg, zpow_neg]
      have := (ten_zpow_pos b.exp).ne'
      have := (ten_zpow_pos s1).ne'
      have := (ten_zpow_pos s2).ne'
      field_simp
    -- it has more than `prec` digits
    have hbig : den * 10 ^ prec ≤ num := by
      rw [← hnum, ← hden]
      calc b.coeff * 10 ^ (-shift).toNat * 10 ^ prec
          ≤ 10 ^ (natRepr b.coeff).length * 10 ^ (-shift).toNat * 10 ^ prec :=
            Nat.mul_le_mul_right _ (Nat.mul_le_mul_right _ b2.le)
        _ = 10 ^ ((natRepr a.coeff).length - 1) * 10 ^ shift.toNat := by
            rw [← pow_add, ← pow_add, ← pow_add]; congr 1; omega
        _ ≤ _ := Nat.mul_le_mul_right _ a1
    have hc : 10 ^ prec ≤ num / den := (Nat.le_div_iff_mul_le hdpos).mpr (by rw [Nat.mul_comm]; exact hbig)
    rw [hv]
    by_cases hr : num % den ≠ 0
    · rw [if_pos hr]
      refine decFix_spec hp ⟨a.neg ^^ b.neg, if num / den % 5 = 0 then num / den + 1 else num / den, _⟩ _
        (sameSide_div hdpos hr) (fun h => absurd h ?_)
      simp only; split <;> omega
    · rw [if_neg hr]
      have hq : (num : ℚ) / den = ((num / den : Nat) : ℚ) := by
        rw [div_eq_iff hdq]; exact_mod_cast (Nat.div_mul_cancel (Nat.dvd_of_mod_eq_zero (by omega))).symm
      rw [hq, ← decStrip_spec shift.toNat]
      exact decFix_spec hp ⟨a.neg ^^ b.neg, _, _⟩ _ (sameSide_self _) (fun _ => rfl)

end Verif
