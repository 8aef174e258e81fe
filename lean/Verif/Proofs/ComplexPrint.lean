import Verif.Proofs.ComplexHolds

/-! Lemmas about the text of complex numbers. -/

namespace Verif
open Spec

theorem replaceStr_skip {a : Char} {as new s : Str} (h : a ∉ s) (t : Str) :
    replaceStr (a :: as) new (s ++ t) = s ++ replaceStr (a :: as) new t := by
  unfold replaceStr
  rw [replaceStr_go_skip _ _ _ _ _ h _ (Nat.le_refl _)]
  simp

theorem replaceStr_hit (a : Char) (as new t : Str) :
    replaceStr (a :: as) new ((a :: as) ++ t) = new ++ replaceStr (a :: as) new t := by
  unfold replaceStr
  simp only [List.cons_append, List.length_cons]
  rw [replaceStr.go]
  have h : List.isPrefixOf (a :: as) (a :: (as ++ t)) = true := by
    rw [List.isPrefixOf_iff_prefix]
    exact ⟨t, by simp⟩
  rw [if_pos h]
  have : List.drop (a :: as).length (a :: (as ++ t)) = t := by simp
  rw [this, replaceStr_go_fuel _ _ _ t.length t (Nat.le_refl _) _ (by simp)]

theorem replaceStr_miss {a : Char} {as : Str} (new : Str) {c : Char} {t : Str} (h : List.isPrefixOf (a :: as) (c :: t) = false) :
    replaceStr (a :: as) new (c :: t) = c :: replaceStr (a :: as) new t := by
  unfold replaceStr
  simp only [List.length_cons]
  rw [replaceStr.go, if_neg (by simp [h])]

/-- The literal that `str` prints for a real number. -/
def printLit (c e : Int) : Literal := if c = 0 then zeroLit else plainLit ⟨decide (c < 0), c.natAbs, e⟩

theorem printLit_str {b : Buf} {c e : Int} (hr : realDecimal b = .ok (c, e)) : realStr b = .ok (printLit c e).render := by
  unfold realStr printLit
  rw [hr]
  by_cases h : c = 0
  · simp only [if_pos h]; rfl
  · simp only [if_neg h]; rw [plainLit_render]

/-- What is needed of it. -/
structure Printed (l : Literal) : Prop where
  valid : l.Valid
  zeros : l.NoLeadingZeros
  int : l.int ≠ []
  exp : l.exp = none
  sign : l.sign = .none ∨ l.sign = .minus

theorem printLit_spec (c e : Int) : Printed (printLit c e) := by
  unfold printLit
  by_cases h : c = 0
  · rw [if_pos h]
    exact ⟨zeroLit_valid, Or.inl (by decide), by decide, rfl, Or.inl rfl⟩
  · rw [if_neg h]
    refine ⟨plainLit_valid _, plainLit_noLeading _, (fix_spec 14 _).2.2.2.1, rfl, ?_⟩
    simp only [plainLit]
    split
    · exact Or.inr rfl
    · exact Or.inl rfl

theorem printLit_value {c e n : Int} (hm : (c : ℚ) * 10 ^ e * 10 ^ 14 = n) : (printLit c e).value = (c : ℚ) * 10 ^ e := by
  unfold printLit
  by_cases h : c = 0
  · rw [if_pos h, Literal.value, zeroLit_magnitude, h]; simp
  · rw [if_neg h]
    exact roundsAt_exact ((signedDec_value c e) ▸ plainLit_rounds _) hm

theorem Printed.proper {l : Literal} (h : Printed l) : l.Proper := ⟨h.valid, by simp [h.int]⟩

/-- A literal that prints as a single digit has that value. -/
theorem Printed.single {l : Literal} (h : Printed l) {d : Char} (hd : l.int ++ l.fracStr = [d]) :
    l.magnitude = ((d.toNat - 48 : Nat) : ℚ) := by
  have hf : l.frac = none := by
    cases hf : l.frac with
    | none => rfl
    | some f =>
      have : l.fracStr = '.' :: f := by unfold Literal.fracStr; rw [hf]
      rw [this] at hd
      match hi : l.int, h.int with
      | x :: xs, _ => rw [hi] at hd; simp at hd
  have hi : l.int = [d] := by
    have : l.fracStr = [] := by unfold Literal.fracStr; rw [hf]
    rw [this, List.append_nil] at hd
    exact hd
  unfold Literal.magnitude Literal.coeff Literal.scale Literal.expValue Literal.fracDigits
  rw [hf, hi, h.exp]
  simp [digitsValue]

theorem Printed.render {l : Literal} (h : Printed l) : l.render = l.sign.str ++ (l.int ++ l.fracStr) := by
  have : l.expStr = [] := by unfold Literal.expStr; rw [h.exp]
  unfold Literal.render
  rw [this]; simp

theorem Printed.ne_zero {l : Literal} (h : Printed l) (hv : l.value ≠ 0) : l.render ≠ ['0'] := by
  intro hr
  rw [h.render] at hr
  have hs : l.sign.str = [] := by
    rcases h.sign with hs | hs
    · rw [hs]; rfl
    · rw [hs] at hr; simp [Sign.str] at hr
  rw [hs, List.nil_append] at hr
  have := h.single hr
  apply hv
  rw [Literal.value, this]
  simp

/-- The characters of a printed number. -/
theorem Printed.chars {l : Literal} (h : Printed l) {c : Char} (hc : c ∈ l.int ++ l.fracStr) : isDig c = true ∨ c = '.' := by
  rcases List.mem_append.1 hc with hc | hc
  · exact Or.inl ((isDig_iff c).2 (h.valid.1 c hc))
  · unfold Literal.fracStr at hc
    split at hc
    · cases hc
    · next f hf =>
      rcases List.mem_cons.1 hc with rfl | hc
      · exact Or.inr rfl
      · exact Or.inl ((isDig_iff c).2 (h.valid.2.1 f hf c hc))

theorem Printed.not_mem {l : Literal} (h : Printed l) {c : Char} (hc : isDig c = false) (hd : c ≠ '.') : c ∉ l.int ++ l.fracStr := by
  intro hm
  rcases h.chars hm with h | h
  · rw [h] at hc; cases hc
  · exact hd h

theorem Printed.squash {l : Literal} (h : Printed l) : squash (l.int ++ l.fracStr) = l.int ++ l.fracStr := by
  have := squash_render _ h.valid
  rw [h.render, squash_append] at this
  have hs : Verif.squash l.sign.str = l.sign.str := by rcases h.sign with hs | hs <;> rw [hs] <;> decide
  rw [hs] at this
  exact List.append_cancel_left this

/-- The text of both parts. -/
theorem both_text {l l' : Literal} (h : Printed l) (h' : Printed l') :
    replaceStr [' ', '1', 'i'] [' ', 'i'] (replaceStr ['+', ' ', '-'] ['-', ' '] (l.render ++ [' ', '+', ' '] ++ (l'.render ++ ['i']))) =
      l.render ++ [' ', if l'.sign.isNeg then '-' else '+', ' '] ++
        (if l'.int ++ l'.fracStr = ['1'] then [] else l'.int ++ l'.fracStr) ++ ['i'] := by
  have hp : '+' ∉ l.render ++ [' '] := by
    rw [h.render]
    simp only [List.mem_append, not_or]
    have := h.not_mem (c := '+') (by decide) (by decide)
    simp only [List.mem_append, not_or] at this
    refine ⟨⟨?_, this⟩, by decide⟩
    rcases h.sign with hs | hs <;> rw [hs] <;> decide
  have hp' : '+' ∉ (l'.int ++ l'.fracStr) ++ ['i'] := by
    simp only [List.mem_append, not_or]
    have := h'.not_mem (c := '+') (by decide) (by decide)
    simp only [List.mem_append, not_or] at this
    exact ⟨this, by decide⟩
  have hsp : ' ' ∉ l.render := by
    rw [h.render]
    simp only [List.mem_append, not_or]
    have := h.not_mem (c := ' ') (by decide) (by decide)
    simp only [List.mem_append, not_or] at this
    refine ⟨?_, this⟩
    rcases h.sign with hs | hs <;> rw [hs] <;> decide
  have hsp' : ' ' ∉ (l'.int ++ l'.fracStr) ++ ['i'] := by
    simp only [List.mem_append, not_or]
    have := h'.not_mem (c := ' ') (by decide) (by decide)
    simp only [List.mem_append, not_or] at this
    exact ⟨this, by decide⟩
  have hx0 : (l'.int ++ l'.fracStr).head? ≠ some '-' ∧ l'.int ++ l'.fracStr ≠ [] := by
    refine ⟨fun hh => ?_, by simp [h'.int]⟩
    have hm : '-' ∈ l'.int ++ l'.fracStr := by
      cases hx : l'.int ++ l'.fracStr with
      | nil => rw [hx] at hh; cases hh
      | cons c cs => rw [hx] at hh; simp at hh; simp [hh]
    exact h'.not_mem (by decide) (by decide) hm
  have hi : 'i' ∉ l'.int ++ l'.fracStr := h'.not_mem (by decide) (by decide)
  have hr' := h'.render
  generalize l'.int ++ l'.fracStr = x at *
  -- the sign between the parts
  have e1 : replaceStr ['+', ' ', '-'] ['-', ' '] (l.render ++ [' ', '+', ' '] ++ (l'.render ++ ['i'])) =
      l.render ++ ([' ', if l'.sign.isNeg then '-' else '+'] ++ (' ' :: (x ++ ['i']))) := by
    have a1 : l.render ++ [' ', '+', ' '] ++ (l'.render ++ ['i']) = (l.render ++ [' ']) ++ ('+' :: ' ' :: (l'.render ++ ['i'])) := by simp
    rw [a1, replaceStr_skip hp, hr']
    rcases h'.sign with hs | hs
    · rw [hs]
      have : replaceStr ['+', ' ', '-'] ['-', ' '] ('+' :: ' ' :: (Sign.none.str ++ x ++ ['i'])) = '+' :: ' ' :: (x ++ ['i']) := by
        rw [replaceStr_miss]
        · rw [replaceStr_not_mem]
          · rfl
          · show '+' ∉ ' ' :: (x ++ ['i'])
            simp only [List.mem_cons, not_or]
            exact ⟨by decide, hp'⟩
        · match x, hx0 with
          | c :: cs, hx0 =>
            have : c ≠ '-' := by rintro rfl; simp at hx0
            simp [Sign.str, List.isPrefixOf, this.symm]
      rw [this]
      simp [Sign.isNeg]
    · rw [hs]
      have : replaceStr ['+', ' ', '-'] ['-', ' '] ('+' :: ' ' :: (Sign.minus.str ++ x ++ ['i'])) = '-' :: ' ' :: (x ++ ['i']) := by
        have := replaceStr_hit '+' [' ', '-'] ['-', ' '] (x ++ ['i'])
        rw [replaceStr_not_mem _ _ _ _ hp'] at this
        simpa [Sign.str] using this
      rw [this]
      simp [Sign.isNeg]
  rw [e1, replaceStr_skip hsp]
  have e2 : replaceStr [' ', '1', 'i'] [' ', 'i'] ([' ', if l'.sign.isNeg then '-' else '+'] ++ (' ' :: (x ++ ['i']))) =
      [' ', if l'.sign.isNeg then '-' else '+'] ++ replaceStr [' ', '1', 'i'] [' ', 'i'] (' ' :: (x ++ ['i'])) := by
    rw [List.cons_append, replaceStr_miss]
    · rw [replaceStr_skip (s := [if l'.sign.isNeg then '-' else '+'])]
      · rfl
      · split <;> decide
    · split <;> simp [List.isPrefixOf]
  rw [e2]
  by_cases h1 : x = ['1']
  · subst h1
    have := replaceStr_hit ' ' ['1', 'i'] [' ', 'i'] []
    rw [show (' ' :: (['1'] ++ ['i']) : Str) = [' ', '1', 'i'] ++ [] from rfl, this, if_pos rfl]
    simp [replaceStr, replaceStr.go]
  · rw [replaceStr_miss, replaceStr_not_mem _ _ _ _ hsp', if_neg h1]
    · simp
    · match x, hx0, h1 with
      | [c], _, h1 =>
        have : c ≠ '1' := by rintro rfl; exact h1 rfl
        simp [List.isPrefixOf, this.symm]
      | c :: c' :: cs, _, _ =>
        have : c' ≠ 'i' := by rintro rfl; exact hi (by simp)
        simp [List.isPrefixOf, this.symm]

theorem Printed.safe {l : Literal} (h : Printed l) (hm : l.magnitude = 0 ∨ InExponentRange l.magnitude) : l.Safe :=
  ⟨h.zeros, hm, fun m s x hx => by rw [h.exp] at hx; cases hx⟩

/-- A number with a different sign. -/
def resign (s : Sign) (l : Literal) : Literal := { l with sign := s }

/-- The parts of a printed complex number. -/
def printed (c c' : Int) (l l' : Literal) : ComplexText :=
  if c' = 0 then .re l
  else if c = 0 then .im (.number l') false .i
  else if l'.int ++ l'.fracStr = ['1'] then .both l (.bare (if l'.sign.isNeg then .minus else .plus)) false .i
  else .both l (.number (resign (if l'.sign.isNeg then .minus else .plus) l')) false .i

theorem holds_decimal {c e : Int} (h1 : c = 0 ∨ 10 ^ 13 ≤ c.natAbs) (h2 : c.natAbs < 10 ^ 14) {v : Bytes}
    (h : Holds ((c : ℚ) * 10 ^ e) v) : realDecimal ⟨true, v⟩ = .ok (if c = 0 then (0, -13) else (c, e)) := by
  obtain ⟨-, k1, k2⟩ := h
  have hp := ten_zpow_pos e
  by_cases h0 : c = 0
  · rw [if_pos h0]
    exact k1 (by rw [h0]; simp)
  · rw [if_neg h0]
    have hq : (c : ℚ) ≠ 0 := by exact_mod_cast h0
    obtain ⟨m, x, ht, hx⟩ := k2 (mul_ne_zero hq hp.ne')
    have habs : |(c : ℚ) * 10 ^ e| = (c.natAbs : ℚ) * 10 ^ e := by
      rw [abs_mul, abs_of_pos hp, Nat.cast_natAbs, Int.cast_abs]
    have ht' : Truncates14 |(c : ℚ) * 10 ^ e| c.natAbs e := by
      rw [habs]
      exact ⟨h1.resolve_left h0, h2, le_refl _, by nlinarith⟩
    obtain ⟨rfl, rfl⟩ := truncates14_unique ht ht'
    rw [hx]
    rcases lt_or_gt_of_ne h0 with hn | hn
    · rw [if_pos (mul_neg_of_neg_of_pos (by exact_mod_cast hn) hp)]
      congr 2; omega
    · rw [if_neg (not_lt.2 (mul_pos (by exact_mod_cast hn) hp).le)]
      congr 2; omega

theorem printLit_range {c e n : Int} (h1 : c = 0 ∨ 10 ^ 13 ≤ c.natAbs) (h2 : c.natAbs < 10 ^ 14) (h3 : -141 ≤ e) (h4 : e ≤ 114)
    (hm : (c : ℚ) * 10 ^ e * 10 ^ 14 = n) :
    (printLit c e).magnitude = 0 ∨ InExponentRange (printLit c e).magnitude := by
  by_cases h0 : c = 0
  · left
    unfold printLit
    rw [if_pos h0, zeroLit_magnitude]
  · right
    have hp := ten_zpow_pos e
    have hv := congrArg abs (printLit_value hm)
    have hmag0 : 0 ≤ (printLit c e).magnitude := mul_nonneg (by positivity) (ten_zpow_pos _).le
    rw [Literal.value, abs_mul, abs_mul, abs_of_nonneg hmag0, abs_of_pos hp] at hv
    have hs : |((printLit c e).sgn : ℚ)| = 1 := by unfold Literal.sgn; split <;> simp
    have habs : |(c : ℚ)| = (c.natAbs : ℚ) := by rw [Nat.cast_natAbs, Int.cast_abs]
    rw [hs, one_mul, habs] at hv
    have ht : Truncates14 (printLit c e).magnitude c.natAbs e := by
      rw [hv]
      exact ⟨h1.resolve_left h0, h2, le_refl _, by nlinarith⟩
    exact (truncates14_range ht).mpr (by omega)

end Verif
