import Verif.Proofs.FractionText

/-! Storing fractions and reading them back, also as multiples of π. -/

namespace Verif

open Spec

theorem inRange_of_bounds {v : ℚ} (h1 : (10 : ℚ) ^ (-128 : Int) ≤ v) (h2 : v < 10 ^ (128 : Int)) : InExponentRange v :=
  ⟨h1, h2⟩

/-- Storing a fraction of moderate size: the error is half a unit in the last place. -/
theorem storeFraction (f : ℚ) (hq : f.den ≤ 10000) (k : Int) (hk : k ≤ 6) (hv : |f| < 10 ^ k)
    (b0 : UInt8) (rest : Bytes) (hl : rest.length = 8) :
    ∃ b' c e, loadFraction f ⟨true, b0 :: rest⟩ = ⟨.ok (), ⟨true, b'⟩, []⟩ ∧ b'.length = 9 ∧
      realDecimal ⟨true, b'⟩ = .ok (c, e) ∧ |(c : ℚ) * 10 ^ e - f| ≤ 10 ^ (k - 14) / 2 ∧
      (b'.headD 0).toNat % 128 = b0.toNat % 128 := by
  obtain ⟨hr, hc⟩ := fractionDec_rounds f
  have herr := rounds_error (by omega) hr hv
  have h6 : |f| < 10 ^ (6 : Int) := lt_of_lt_of_le hv (ten_zpow_le.mpr hk)
  have herr6 := rounds_error (by omega) hr h6
  have hrange : (decDiv 14 (decOfInt f.num) (decOfInt f.den)).value = 0 ∨
      InExponentRange |(decDiv 14 (decOfInt f.num) (decOfInt f.den)).value| := by
    generalize (decDiv 14 (decOfInt f.num) (decOfInt f.den)).value = x at *
    by_cases h0 : f = 0
    · left
      have := (roundsHalfEven_bounds hr.1).2.2.mp (by rw [h0, abs_zero])
      exact abs_eq_zero.mp this
    · right
      have hdp : (0 : ℚ) < f.den := by exact_mod_cast f.den_pos
      have hfl : (1 : ℚ) / 10000 ≤ |f| := by
        have e : |f| = |(f.num : ℚ)| / f.den := by
          conv_lhs => rw [← Rat.num_div_den f]
          rw [abs_div, abs_of_pos hdp]
        have h1 : (1 : ℚ) ≤ |(f.num : ℚ)| := by
          rw [← Int.cast_abs]
          exact_mod_cast Int.one_le_abs (Rat.num_ne_zero.mpr h0)
        have hdq : (f.den : ℚ) ≤ 10000 := by exact_mod_cast hq
        rw [e]
        exact div_le_div₀ (abs_nonneg _) h1 hdp hdq
      have e1 : (10 : ℚ) ^ ((6 : Int) - (14 : Nat)) / 2 = 1 / 200000000 := by
        rw [show ((6 : Int) - (14 : Nat)) = -((8 : Nat) : Int) by norm_num, zpow_neg, zpow_natCast]; norm_num
      rw [e1] at herr6
      have h66 : (10 : ℚ) ^ (6 : Int) = 1000000 := by
        rw [show (6 : Int) = ((6 : Nat) : Int) from rfl, zpow_natCast]; norm_num
      rw [h66] at h6
      have t1 := abs_sub_abs_le_abs_sub x f
      have t2 := abs_sub_abs_le_abs_sub f x
      rw [abs_sub_comm f x] at t2
      refine inRange_of_bounds ?_ ?_
      · calc (10 : ℚ) ^ (-128 : Int) ≤ 10 ^ (-5 : Int) := ten_zpow_le.mpr (by omega)
          _ = 1 / 100000 := by rw [show (-5 : Int) = -((5 : Nat) : Int) by norm_num, zpow_neg, zpow_natCast]; norm_num
          _ ≤ |x| := by linarith
      · calc |x| < 10000000 := by linarith
          _ = 10 ^ (7 : Int) := by rw [show (7 : Int) = ((7 : Nat) : Int) from rfl, zpow_natCast]; norm_num
          _ ≤ 10 ^ (128 : Int) := ten_zpow_le.mpr (by omega)
  obtain ⟨b', c, e, h1, h2, h3, h4, h5⟩ := loadDec hc hrange b0 rest hl
  refine ⟨b', c, e, h1, h2, h3, ?_, h5⟩
  rw [h4]
  exact herr

/-- Reading back a number close to a fraction. -/
theorem realFraction_near {b : Bytes} {c e : Int} (hb : realDecimal ⟨true, b⟩ = .ok (c, e)) {f : ℚ}
    (hq : f.den ≤ 10000) (hn : |(c : ℚ) * 10 ^ e - f| ≤ 1 / 200000000) : realFraction ⟨true, b⟩ = .ok f := by
  unfold realFraction
  rw [hb]
  simp only
  refine limitDenominator_near (by omega) hq ?_
  rw [fracOfDec_value]
  refine hn.trans_eq ?_
  norm_num

theorem signedDec_value (c e : Int) : (⟨decide (c < 0), c.natAbs, e⟩ : PyDec).value = (c : ℚ) * 10 ^ e := by
  have := decOfInt_value c
  unfold decOfInt PyDec.value at *
  simp only [zpow_zero, mul_one] at this ⊢
  rw [← mul_assoc, this]

theorem pi_value : pyPi.value = 31415926535898 / 10000000000000 := by
  unfold pyPi PyDec.value
  simp only [Bool.false_eq_true, if_false, Int.cast_one, one_mul]
  rw [show (-13 : Int) = -((13 : Nat) : Int) by norm_num, zpow_neg, zpow_natCast]; norm_num

/-- Reading back a number close to a fraction as a multiple of π. -/
theorem piFraction_near {b : Bytes} {c e : Int} (hb : realDecimal ⟨true, b⟩ = .ok (c, e)) {f : ℚ}
    (hq : f.den ≤ 10000) (hf : |f| < 100000) (hn : |(c : ℚ) * 10 ^ e - f| ≤ 1 / 2000000000) :
    piFraction ⟨true, b⟩ = .ok f := by
  unfold piFraction piDecimal
  rw [hb]
  simp only
  have hm := decMul_rounds (show 0 < 14 by omega) ⟨decide (c < 0), c.natAbs, e⟩ pyPi
  have hd := decDiv_rounds (show 0 < 28 by omega) (decMul 14 ⟨decide (c < 0), c.natAbs, e⟩ pyPi) pyPi (by decide)
  rw [signedDec_value] at hm
  generalize decMul 14 ⟨decide (c < 0), c.natAbs, e⟩ pyPi = d at *
  generalize (c : ℚ) * 10 ^ e = x at *
  refine limitDenominator_near (by omega) hq ?_
  rw [fracOfPyDec_value]
  generalize (decDiv 28 d pyPi).value = y at *
  generalize d.value = z at *
  rw [pi_value] at hm hd
  have e6 : (10 : ℚ) ^ (6 : Int) = 1000000 := by
    rw [show (6 : Int) = ((6 : Nat) : Int) from rfl, zpow_natCast]; norm_num
  have hx : |x| < 100001 := by
    have := abs_sub_abs_le_abs_sub x f
    linarith
  have m1 := rounds_error (by omega) hm (k := 6) (by
    rw [abs_mul, abs_of_pos (show (0 : ℚ) < 31415926535898 / 10000000000000 by norm_num), e6]; linarith)
  have e1 : (10 : ℚ) ^ ((6 : Int) - (14 : Nat)) / 2 = 1 / 200000000 := by
    rw [show ((6 : Int) - (14 : Nat)) = -((8 : Nat) : Int) by norm_num, zpow_neg, zpow_natCast]; norm_num
  rw [e1] at m1
  have hz : |z| < 1000000 := by
    have h1 := abs_sub_abs_le_abs_sub z (x * (31415926535898 / 10000000000000))
    rw [abs_mul, abs_of_pos (show (0 : ℚ) < 31415926535898 / 10000000000000 by norm_num)] at h1
    linarith
  have m2 := rounds_error (by omega) hd (k := 6) (by
    rw [abs_div, abs_of_pos (show (0 : ℚ) < 31415926535898 / 10000000000000 by norm_num), e6,
      div_lt_iff₀ (by norm_num)]; linarith)
  have e2 : (10 : ℚ) ^ ((6 : Int) - (28 : Nat)) / 2 ≤ 1 / 2000000000 := by
    rw [show ((6 : Int) - (28 : Nat)) = -((22 : Nat) : Int) by norm_num, zpow_neg, zpow_natCast]; norm_num
  have m2' := m2.trans e2
  rw [abs_le] at m1 m2' hn
  have e3 : z / (31415926535898 / 10000000000000) - x =
      (z - x * (31415926535898 / 10000000000000)) * (10000000000000 / 31415926535898) := by ring
  rw [abs_le]
  norm_num
  constructor <;> nlinarith [m1.1, m1.2, m2'.1, m2'.2, hn.1, hn.2, e3]

theorem decLit_abs (d : PyDec) : |d.value| = (decLit d).magnitude := by
  have h0 : 0 ≤ (decLit d).magnitude := by
    unfold Literal.magnitude; exact mul_nonneg (by positivity) (ten_zpow_pos _).le
  rw [← decLit_value, Literal.value, abs_mul, abs_of_nonneg h0]
  unfold Literal.sgn; split <;> simp

theorem decOfFloat_value (neg : Bool) (m : Nat) (q : Int) :
    (decOfFloat neg m q).value = (if neg then -1 else 1) * ((m : ℚ) * 2 ^ q) := by
  unfold decOfFloat PyDec.value
  by_cases hq : 0 ≤ q
  · rw [if_pos hq]
    obtain ⟨k, rfl⟩ := Int.eq_ofNat_of_zero_le hq
    cases neg <;> simp
  · rw [if_neg hq]
    obtain ⟨k, hk⟩ := Int.eq_ofNat_of_zero_le (show 0 ≤ -q by omega)
    obtain rfl : q = -(k : Int) := by omega
    have e5 : ((5 : ℚ) ^ k) * (10 : ℚ) ^ (-(k : Int)) = 2 ^ (-(k : Int)) := by
      rw [zpow_neg, zpow_neg, zpow_natCast, zpow_natCast, show (10 : ℚ) = 5 * 2 by norm_num, mul_pow]
      field_simp
    have : (-(-(k : Int))).toNat = k := by omega
    simp only [this]
    push_cast
    rw [mul_assoc (m : ℚ), e5]

theorem realFraction_den {b : Buf} {f : ℚ} (h : realFraction b = .ok f) : f.den ≤ 10000 := by
  unfold realFraction at h
  cases hd : realDecimal b with
  | error e => rw [hd] at h; cases h
  | ok p =>
    obtain ⟨c, e⟩ := p
    rw [hd] at h
    obtain ⟨g, hg, hb⟩ := limitDenominator_spec (show 1 ≤ 10000 by omega) (fracOfDec c e)
    simp only at h
    rw [hg] at h
    injection h with h
    rw [← h]; exact hb.1

theorem piFraction_den {b : Buf} {f : ℚ} (h : piFraction b = .ok f) : f.den ≤ 10000 := by
  unfold piFraction at h
  cases hd : piDecimal b with
  | error e => rw [hd] at h; cases h
  | ok d =>
    rw [hd] at h
    obtain ⟨g, hg, hb⟩ := limitDenominator_spec (show 1 ≤ 10000 by omega) (fracOfPyDec (decDiv 28 d pyPi))
    simp only at h
    rw [hg] at h
    injection h with h
    rw [← h]; exact hb.1

/-- The text of a fraction has no `π`; it has a slash unless the fraction is whole. -/
theorem fracStr_chars (f : ℚ) : 'π' ∉ fracStr f := by
  have hn : ∀ n, 'π' ∉ natRepr n := fun n h => by
    have := List.all_eq_true.mp (natRepr_spec n).1 _ h
    revert this; decide
  have hi : 'π' ∉ intRepr f.num := by
    unfold intRepr
    split
    · rw [List.mem_cons, not_or]; exact ⟨by decide, hn _⟩
    · exact hn _
  unfold fracStr
  split
  · exact hi
  · rw [List.mem_append, List.mem_cons, not_or, not_or]
    exact ⟨hi, by decide, hn _⟩

theorem filter_pi (s : Str) (h : 'π' ∉ s) : (replaceStr ['/'] ['π', '/'] s).filter (· ≠ 'π') = s := by
  rw [replaceStr_single]
  induction s with
  | nil => rfl
  | cons c cs ih =>
    rw [List.mem_cons, not_or] at h
    rw [List.flatMap_cons, List.filter_append, ih h.2]
    by_cases hc : c = '/'
    · subst hc; rw [if_pos rfl]; rfl
    · rw [if_neg hc]
      have : c ≠ 'π' := fun e => h.1 e.symm
      simp [this]

theorem piText (f : ℚ) (hw : f.den ≠ 1 ∨ f = 0) :
    (¬ (replaceStr ['/'] ['π', '/'] (fracStr f) ≠ ['0'] ∧ ¬ 'π' ∈ replaceStr ['/'] ['π', '/'] (fracStr f))) ∧
    (replaceStr ['/'] ['π', '/'] (fracStr f)).filter (· ≠ 'π') = fracStr f := by
  refine ⟨?_, filter_pi _ (fracStr_chars f)⟩
  rcases hw with hw | hw
  · rintro ⟨-, h⟩
    apply h
    rw [replaceStr_single]
    unfold fracStr
    rw [if_neg hw, List.mem_flatMap]
    exact ⟨'/', by simp, by simp⟩
  · subst hw
    decide +kernel

theorem render_chars (l : Literal) (hv : l.Valid) : ∀ c ∈ l.render, c ∈ "+-~.eE|".toList ∨ isDig c = true := by
  have hs : ∀ s : Sign, ∀ c ∈ s.str, c ∈ "+-~.eE|".toList := by
    intro s; cases s <;> simp [Sign.str]
  have hm : ∀ m : Marker, ∀ c ∈ m.str, c ∈ "+-~.eE|".toList := by
    intro s; cases s <;> simp [Marker.str]
  have hd : ∀ x, Digits x → ∀ c ∈ x, isDig c = true := fun x hx c hc =>
    List.all_eq_true.mp ((digits_iff x).mpr hx) c hc
  intro c hc
  unfold Literal.render at hc
  simp only [List.mem_append] at hc
  rcases hc with ((hc | hc) | hc) | hc
  · exact Or.inl (hs _ c hc)
  · exact Or.inr (hd _ hv.1 c hc)
  · unfold Literal.fracStr at hc
    cases hf : l.frac with
    | none => rw [hf] at hc; cases hc
    | some f =>
      rw [hf] at hc
      rcases List.mem_cons.mp hc with h | h
      · left; rw [h]; decide
      · exact Or.inr (hd _ (hv.2.1 f hf) c h)
  · unfold Literal.expStr at hc
    cases he : l.exp with
    | none => rw [he] at hc; cases hc
    | some p =>
      obtain ⟨m, s, x⟩ := p
      rw [he] at hc
      simp only [List.mem_append] at hc
      rcases hc with (h | h) | h
      · exact Or.inl (hm m c h)
      · exact Or.inl (hs s c h)
      · exact Or.inr (hd _ (hv.2.2 m s x he).1 c h)

theorem render_not_mem (l : Literal) (hv : l.Valid) : 'π' ∉ l.render ∧ 'p' ∉ l.render ∧ '*' ∉ l.render := by
  refine ⟨?_, ?_, ?_⟩ <;>
  · intro h
    have := render_chars l hv _ h
    revert this
    decide

theorem strip_pi (s : Str) (h : 'π' ∉ s) : stripChars ['π'] (s ++ ['π']) = s := by
  have hne : ∀ c ∈ s, (['π'].contains c) = false := by
    intro c hc
    have : c ≠ 'π' := by rintro rfl; exact h hc
    simp [this]
  unfold stripChars lstripChars rstripChars
  cases s with
  | nil => decide
  | cons c cs =>
    have h1 : ((c :: cs) ++ ['π']).dropWhile (['π'].contains ·) = (c :: cs) ++ ['π'] := by
      rw [List.cons_append, List.dropWhile_cons, hne c (by simp)]; rfl
    rw [h1, List.reverse_append]
    have h2 : (['π'].reverse ++ (c :: cs).reverse).dropWhile (['π'].contains ·) = (c :: cs).reverse := by
      rw [show ['π'].reverse = ['π'] from rfl, List.cons_append, List.dropWhile_cons, List.nil_append]
      rw [if_pos (by decide)]
      cases hr : (c :: cs).reverse with
      | nil => rfl
      | cons d ds =>
        have : d ∈ c :: cs := by rw [← List.mem_reverse, hr]; simp
        rw [List.dropWhile_cons, hne d this]; rfl
    rw [h2, List.reverse_reverse]

end Verif
