import Verif.Proofs.Fraction

/-! Reading fractions from text. -/

namespace Verif

open Spec

theorem takeWhile_digits {a r : Str} (ha : a.all isDig = true) (hr : r.head?.any isDig = false) :
    (a ++ r).takeWhile isDig = a ∧ (a ++ r).dropWhile isDig = r := by
  induction a with
  | nil =>
    cases r with
    | nil => simp
    | cons c cs => simp at hr; simp [hr]
  | cons c cs ih =>
    simp only [List.all_cons, Bool.and_eq_true] at ha
    have := ih ha.2
    simp [ha.1, this.1, this.2]

theorem isDig_ne {c d : Char} (h : isDig c = true) (hd : isDig d = false) : (c == d) = false := by
  rw [beq_eq_false_iff_ne]
  rintro rfl
  rw [h] at hd; cases hd

theorem startsWith_cons (c d : Char) (s : Str) : startsWith [c] (d :: s) = (c == d) := by
  simp [startsWith, List.isPrefixOf]

theorem startsWith_nil (c : Char) : startsWith [c] [] = false := rfl

theorem head_digit {s : Str} (h : s.all isDig = true) (r : Str) (c : Char) (hc : isDig c = false)
    (hr : startsWith [c] r = false) : startsWith [c] (s ++ r) = false := by
  cases s with
  | nil => simpa using hr
  | cons d ds =>
    simp only [List.all_cons, Bool.and_eq_true] at h
    rw [List.cons_append, startsWith_cons, beq_eq_false_iff_ne]
    rintro rfl
    rw [h.1] at hc; cases hc

theorem parseInt_exp {s : Sign} (hs : s ≠ .tilde) {x : Str} (hx : Digits x) (hne : x ≠ []) :
    parseInt (s.str ++ x) = .ok (if s.isNeg then -(digitsValue x : Int) else digitsValue x) := by
  have hd := (digits_iff x).mpr hx
  have hp : parseNat x = .ok (natVal x) := by
    unfold parseNat; rw [if_neg (by simp [hne, hd])]
  have hv := digitsValue_eq x
  cases s with
  | none =>
    cases x with
    | nil => exact absurd rfl hne
    | cons c cs =>
      have hc : isDig c = true := by simp only [List.all_cons, Bool.and_eq_true] at hd; exact hd.1
      have h1 : c ≠ '-' := by rintro rfl; revert hc; decide
      have h2 : c ≠ '+' := by rintro rfl; revert hc; decide
      simp only [Sign.str, List.nil_append]
      unfold parseInt
      split
      · next heq => exact absurd (by injection heq) h1
      · next heq => exact absurd (by injection heq) h2
      · rw [hp, hv]; rfl
  | plus => simp only [Sign.str, List.cons_append, List.nil_append, parseInt, hp, hv]; rfl
  | minus => simp only [Sign.str, List.cons_append, List.nil_append, parseInt, hp, hv]; rfl
  | tilde => exact absurd rfl hs

/-- After the sign. -/
theorem sign_split {s : Sign} (hs : s ≠ .tilde) {r : Str} (h1 : startsWith ['-'] r = false)
    (h2 : startsWith ['+'] r = false) :
    startsWith ['-'] (s.str ++ r) = s.isNeg ∧
    (if startsWith ['-'] (s.str ++ r) || startsWith ['+'] (s.str ++ r) then (s.str ++ r).drop 1 else s.str ++ r)
      = r := by
  cases s with
  | none => simp [Sign.str, h1, h2, Sign.isNeg]
  | plus => simp [Sign.str, startsWith_cons, Sign.isNeg]
  | minus => simp [Sign.str, startsWith_cons, Sign.isNeg]
  | tilde => exact absurd rfl hs

theorem expStr_head (l : Literal) (hm : ∀ m s x, l.exp = some (m, s, x) → m = .e ∨ m = .E) :
    l.expStr = [] ∨ ∃ m s x, l.exp = some (m, s, x) ∧ (l.expStr = 'e' :: (s.str ++ x) ∨ l.expStr = 'E' :: (s.str ++ x)) := by
  unfold Literal.expStr
  cases h : l.exp with
  | none => left; rfl
  | some p =>
    obtain ⟨m, s, x⟩ := p
    right
    refine ⟨m, s, x, rfl, ?_⟩
    rcases hm m s x h with rfl | rfl
    · left; rfl
    · right; rfl

/-- A decimal literal is read as its value. -/
theorem parseFraction_literal {l : Literal} (hv : l.Valid) (hf : FractionLiteral l) :
    parseFraction l.render = .ok l.value := by
  have hi := (digits_iff l.int).mpr hv.1
  have hexp := expStr_head l (fun m s x h => (hf.marker m s x h).1)
  have hexpd : l.expStr.head?.any isDig = false := by
    rcases hexp with h | ⟨m, s, x, -, h | h⟩ <;> rw [h]
    · decide
    · simp only [List.head?_cons, Option.any_some]; decide
    · simp only [List.head?_cons, Option.any_some]; decide
  have hexpc : ∀ c, c = '-' ∨ c = '+' ∨ c = '/' ∨ c = '.' → startsWith [c] l.expStr = false := by
    intro c hc
    rcases hexp with h | ⟨m, s, x, -, h | h⟩ <;> rw [h]
    · rfl
    · rw [startsWith_cons]; rcases hc with rfl | rfl | rfl | rfl <;> decide
    · rw [startsWith_cons]; rcases hc with rfl | rfl | rfl | rfl <;> decide
  have hfd : l.fracDigits.all isDig = true := by
    unfold Literal.fracDigits
    cases h : l.frac with
    | none => rfl
    | some f => exact (digits_iff f).mpr (hv.2.1 f h)
  set t := l.fracStr ++ l.expStr with ht
  have htd : t.head?.any isDig = false := by
    rw [ht]; unfold Literal.fracStr
    cases l.frac with
    | none => simpa using hexpd
    | some f => simp only [List.cons_append, List.head?_cons, Option.any_some]; decide
  have htc : ∀ c, c = '-' ∨ c = '+' ∨ c = '/' → startsWith [c] t = false := by
    intro c hc
    rw [ht]; unfold Literal.fracStr
    cases l.frac with
    | none => exact hexpc c (by rcases hc with h | h | h <;> simp [h])
    | some f => rw [List.cons_append, startsWith_cons]; rcases hc with rfl | rfl | rfl <;> decide
  have hrender : l.render = l.sign.str ++ (l.int ++ t) := by simp [Literal.render, ht]
  obtain ⟨hn, hdrop⟩ := sign_split hf.sign (r := l.int ++ t)
    (head_digit hi _ _ (by decide) (htc _ (by simp))) (head_digit hi _ _ (by decide) (htc _ (by simp)))
  obtain ⟨ht1, ht2⟩ := takeWhile_digits hi htd
  have hdec : (if startsWith ['.'] t then (t.drop 1).takeWhile isDig else []) = l.fracDigits ∧
      (if startsWith ['.'] t then (t.drop 1).dropWhile isDig else t) = l.expStr := by
    rw [ht]; unfold Literal.fracStr
    unfold Literal.fracDigits at hfd ⊢
    cases h : l.frac with
    | none =>
      have := hexpc '.' (by simp)
      simp [this]
    | some f =>
      rw [h] at hfd
      have := takeWhile_digits hfd hexpd
      simp only [Option.getD_some] at this
      simp [startsWith_cons, this.1, this.2]
  have hguard : ¬ (l.int = [] ∧ (startsWith ['.'] t && (t.drop 1).head?.any isDig) = false) := by
    rintro ⟨h0, h1⟩
    rcases hf.digit with h | h
    · exact h h0
    · unfold Literal.fracDigits at h hfd
      rw [ht] at h1
      unfold Literal.fracStr at h1
      cases hfr : l.frac with
      | none => rw [hfr] at h; exact h rfl
      | some f =>
        rw [hfr] at h h1 hfd
        simp only [Option.getD_some] at h hfd
        cases f with
        | nil => exact h rfl
        | cons c cs =>
          simp only [List.all_cons, Bool.and_eq_true] at hfd
          simp [startsWith_cons, hfd.1] at h1
  have hco : ((natVal l.int * 10 ^ l.fracDigits.length + natVal l.fracDigits : Nat) : Int) = (l.coeff : Int) := by
    rw [coeff_eq]
  have hval : ∀ x : Int, x = l.expValue →
      (if l.sign.isNeg = true then -(fracOfDec (l.coeff : Int) (x - l.fracDigits.length))
        else fracOfDec (l.coeff : Int) (x - l.fracDigits.length)) = l.value := by
    intro x hx
    rw [fracOfDec_value, hx]
    unfold Literal.value Literal.sgn Literal.magnitude Literal.scale
    split <;> simp
  unfold parseFraction
  simp only [hrender, hn]
  rw [hn] at hdrop
  simp only [hdrop, ht1, ht2, hdec.1, hdec.2]
  rw [if_neg hguard, htc '/' (by simp), if_neg (by simp)]
  have hn' : ((natVal l.int : Int) * 10 ^ l.fracDigits.length + natVal l.fracDigits) = (l.coeff : Int) := by
    rw [← hco]; push_cast; rfl
  rw [hn']
  rcases hexp with h | ⟨m, s, x, hx, h⟩
  · rw [if_pos h]
    have h0 : l.expValue = 0 := by
      unfold Literal.expValue
      cases he : l.exp with
      | none => rfl
      | some p =>
        obtain ⟨m, s, x⟩ := p
        unfold Literal.expStr at h
        rw [he] at h
        simp only [List.append_eq_nil_iff] at h
        exact absurd h.2 (hv.2.2 m s x he).2
    have := hval 0 h0.symm
    rw [Int.zero_sub] at this
    rw [this]
  · have hpi := parseInt_exp (hf.marker m s x hx).2 (hv.2.2 m s x hx).1 (hv.2.2 m s x hx).2
    have hne : l.expStr ≠ [] := by rcases h with h | h <;> rw [h] <;> simp
    have hst : (startsWith ['e'] l.expStr || startsWith ['E'] l.expStr) = true := by
      rcases h with h | h <;> rw [h, startsWith_cons, startsWith_cons] <;> decide
    have hdr : l.expStr.drop 1 = s.str ++ x := by rcases h with h | h <;> rw [h] <;> rfl
    rw [if_neg hne, if_pos hst, hdr, hpi]
    simp only
    have := hval _ (show (if s.isNeg = true then -(digitsValue x : Int) else digitsValue x) = l.expValue by
      unfold Literal.expValue; rw [hx])
    rw [this]

/-- `±p/q` is read as that fraction. -/
theorem parseFraction_ratio {s : Sign} (hs : s ≠ .tilde) {p q : Str} (hp : Digits p) (hp0 : p ≠ []) (hq : Digits q)
    (hq0 : natVal q ≠ 0) (hqne : q ≠ []) :
    parseFraction (s.str ++ (p ++ '/' :: q)) = .ok ((if s.isNeg then -1 else 1) * ((natVal p : ℚ) / natVal q)) := by
  have hpd := (digits_iff p).mpr hp
  have hqd := (digits_iff q).mpr hq
  obtain ⟨hn, hdrop⟩ := sign_split hs (r := p ++ '/' :: q)
    (head_digit hpd _ _ (by decide) (by rw [startsWith_cons]; decide))
    (head_digit hpd _ _ (by decide) (by rw [startsWith_cons]; decide))
  obtain ⟨ht1, ht2⟩ := takeWhile_digits (r := '/' :: q) hpd
    (by simp only [List.head?_cons, Option.any_some]; decide)
  have hpn : parseNat q = .ok (natVal q) := by
    unfold parseNat; rw [if_neg (by simp [hqne, hqd])]
  unfold parseFraction
  simp only [hn]
  rw [hn] at hdrop
  simp only [hdrop, ht1, ht2]
  rw [if_neg (by simp [hp0]), startsWith_cons, if_pos (by decide)]
  simp only [List.drop_succ_cons, List.drop_zero, hpn, if_neg hq0]
  rw [Rat.mkRat_eq_div]
  cases s <;> simp [Sign.isNeg]

theorem parseFraction_ratio_zero {s : Sign} (hs : s ≠ .tilde) {p q : Str} (hp : Digits p) (hp0 : p ≠ []) (hq : Digits q)
    (hq0 : natVal q = 0) (hqne : q ≠ []) : parseFraction (s.str ++ (p ++ '/' :: q)) = .error .zeroDivisionError := by
  have hpd := (digits_iff p).mpr hp
  have hqd := (digits_iff q).mpr hq
  obtain ⟨hn, hdrop⟩ := sign_split hs (r := p ++ '/' :: q)
    (head_digit hpd _ _ (by decide) (by rw [startsWith_cons]; decide))
    (head_digit hpd _ _ (by decide) (by rw [startsWith_cons]; decide))
  obtain ⟨ht1, ht2⟩ := takeWhile_digits (r := '/' :: q) hpd
    (by simp only [List.head?_cons, Option.any_some]; decide)
  have hpn : parseNat q = .ok (natVal q) := by
    unfold parseNat; rw [if_neg (by simp [hqne, hqd])]
  unfold parseFraction
  simp only [hn]
  rw [hn] at hdrop
  simp only [hdrop, ht1, ht2]
  rw [if_neg (by simp [hp0]), startsWith_cons, if_pos (by decide)]
  simp only [List.drop_succ_cons, List.drop_zero, hpn, if_pos hq0]

theorem decLit_fraction (d : PyDec) : FractionLiteral (decLit d) := by
  refine ⟨?_, Or.inl ?_, ?_⟩
  · simp only [decLit]; cases d.neg <;> simp
  · simp only [decLit]
    split
    · simp
    · next h =>
      have := (natRepr_spec d.coeff).2.2
      intro h0
      rw [List.take_eq_nil_iff] at h0
      rcases h0 with h0 | h0
      · omega
      · exact this h0
  · intro m s x h
    simp only [decLit] at h
    split at h
    · cases h
    · injection h with h
      simp only [Prod.mk.injEq] at h
      obtain ⟨rfl, rfl, -⟩ := h
      refine ⟨Or.inr rfl, ?_⟩
      split <;> simp

theorem parseFraction_dec (d : PyDec) : parseFraction (squash (decStr d)) = .ok d.value := by
  rw [← decLit_render, squash_render _ (decLit_valid d), parseFraction_literal (decLit_valid d) (decLit_fraction d),
    decLit_value]

theorem parseFraction_str (f : ℚ) : parseFraction (squash (fracStr f)) = .ok f := by
  have hd := fun n => (digits_iff _).mp (natRepr_spec n).1
  have hsq : squash (fracStr f) = fracStr f := by
    have h1 : ∀ v : Int, squash (intRepr v) = intRepr v := by
      intro v; unfold intRepr
      split
      · rw [show ('-' :: natRepr v.natAbs) = ['-'] ++ natRepr v.natAbs from rfl, squash_append,
          squash_digits (natRepr_spec _).1]; rfl
      · exact squash_digits (natRepr_spec _).1
    unfold fracStr
    split
    · exact h1 _
    · rw [show intRepr f.num ++ '/' :: natRepr f.den = intRepr f.num ++ (['/'] ++ natRepr f.den) from rfl,
        squash_append, squash_append, h1, squash_digits (natRepr_spec _).1]; rfl
  rw [hsq]
  have hrep : ∀ v : Int, ∃ s : Sign, s ≠ .tilde ∧ intRepr v = s.str ++ natRepr v.natAbs ∧
      ((if s.isNeg then -1 else 1 : ℚ) * (v.natAbs : ℚ)) = v := by
    intro v
    unfold intRepr
    by_cases h : v < 0
    · refine ⟨.minus, by simp, by simp [h, Sign.str], ?_⟩
      rw [show (v.natAbs : ℚ) = ((v.natAbs : Int) : ℚ) from (Int.cast_natCast _).symm, Int.ofNat_natAbs_of_nonpos h.le]
      simp [Sign.isNeg]
    · refine ⟨.none, by simp, by simp [h, Sign.str], ?_⟩
      rw [show (v.natAbs : ℚ) = ((v.natAbs : Int) : ℚ) from (Int.cast_natCast _).symm, Int.natAbs_of_nonneg (by omega)]
      simp [Sign.isNeg]
  obtain ⟨s, hs, hr, hv⟩ := hrep f.num
  unfold fracStr
  by_cases h1 : f.den = 1
  · rw [if_pos h1]
    let l : Literal := ⟨s, natRepr f.num.natAbs, none, none⟩
    have hl : l.Valid := ⟨hd _, by simp [l], by simp [l]⟩
    have hfl : FractionLiteral l := ⟨hs, Or.inl (natRepr_spec _).2.2, by simp [l]⟩
    have hrl : l.render = intRepr f.num := by simp [l, Literal.render, Literal.fracStr, Literal.expStr, hr]
    rw [← hrl, parseFraction_literal hl hfl]
    congr 1
    unfold Literal.value Literal.magnitude Literal.sgn Literal.scale Literal.expValue
    rw [Literal.coeff, digitsValue_eq]
    simp only [Literal.fracDigits, l, Option.getD_none, List.append_nil, (natRepr_spec _).2.1]
    simp only [List.length_nil, Nat.cast_zero, sub_zero, zpow_zero, mul_one]
    have hf1 : f = f.num := by
      conv_lhs => rw [← Rat.num_div_den f, h1]
      simp
    refine Eq.trans ?_ hf1.symm
    rw [← hv]
    congr 1
    split <;> simp
  · rw [if_neg h1, hr, List.append_assoc]
    rw [parseFraction_ratio hs (hd _) (natRepr_spec _).2.2 (hd _) (by rw [(natRepr_spec _).2.1]; exact f.den_ne_zero)
      (natRepr_spec _).2.2]
    congr 1
    rw [(natRepr_spec _).2.1, (natRepr_spec _).2.1, ← mul_div_assoc, hv, Rat.num_div_den]

end Verif
