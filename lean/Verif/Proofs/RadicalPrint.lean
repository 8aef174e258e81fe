import Verif.Proofs.RadicalText

/-! Lemmas about printing radicals. -/

namespace Verif
open Spec

theorem squash_term {t : RadTerm} (h : t.Valid) : squash t.render = t.render := by
  have hs : squash t.sign.str = t.sign.str := by cases t.sign <;> decide
  have h1 : squash t.scalar = t.scalar := squash_digits ((digits_iff _).2 h.1)
  have h2 : squash t.rootStr = t.rootStr := by
    unfold RadTerm.rootStr
    rcases hr : t.root with _ | r
    · rfl
    · have hd : squash r.digits = r.digits := squash_digits ((digits_iff _).2 (h.2.2 r hr).1)
      have e1 : squash (if r.star then ['*'] else []) = if r.star then ['*'] else [] := by cases r.star <;> decide
      have e2 : squash (if r.word then ['s', 'q', 'r', 't'] else ['√']) = if r.word then ['s', 'q', 'r', 't'] else ['√'] := by
        cases r.word <;> decide
      have e3 : squash (if r.paren then '(' :: r.digits ++ [')'] else r.digits) =
          if r.paren then '(' :: r.digits ++ [')'] else r.digits := by
        cases r.paren
        · exact hd
        · show squash (['('] ++ (r.digits ++ [')'])) = ['('] ++ (r.digits ++ [')'])
          rw [squash_append, squash_append, hd]
          rfl
      simp only [Root.render, squash_append, e1, e2, e3]
  simp only [RadTerm.render, squash_append, hs, h1, h2]

theorem squash_text {t : RadText} (h : t.Valid) : squash t.render = t.render := by
  have h1 : squash t.sum = t.sum := by
    unfold RadText.sum RadText.secondStr
    rcases hu : t.second with _ | u
    · simp only [squash_append, squash_term h.1]; rfl
    · simp only [squash_append, squash_term h.1, squash_term (h.2.1 u hu).1]
  have h2 : squash t.denStr = t.denStr := by
    unfold RadText.denStr
    rcases hd : t.den with _ | ⟨s, d⟩
    · rfl
    · have e1 : squash d = d := squash_digits ((digits_iff _).2 (h.2.2 s d hd).1)
      have e2 : squash s.str = s.str := by cases s <;> decide
      show squash (['/'] ++ (s.str ++ d)) = ['/'] ++ (s.str ++ d)
      rw [squash_append, squash_append, e1, e2]
      rfl
  unfold RadText.render
  rw [squash_append, h2]
  congr 1
  cases t.paren
  · exact h1
  · show squash (['('] ++ (t.sum ++ [')'])) = ['('] ++ (t.sum ++ [')'])
    rw [squash_append, squash_append, h1]
    rfl

/-! ### Summands -/

theorem intRepr_mem {x : Int} {c : Char} (hc : isDig c = false) (hm : c ≠ '-') : c ∉ intRepr x := by
  unfold intRepr
  have := not_mem_of_digits (natRepr_spec x.natAbs).1 hc
  split
  · simp [this, hm]
  · exact this

theorem intRepr_inj {x y : Int} (h : intRepr x = intRepr y) : x = y := by
  have h1 := parseInt_intRepr x
  rw [h, parseInt_intRepr] at h1
  exact (Except.ok.inj h1).symm

theorem startsWith_one {a b : Str} {c : Char} (h : '√' ∉ a) (hne : a ≠ []) :
    startsWith [c, '√'] (a ++ '√' :: b) = true ↔ a = [c] := by
  unfold startsWith
  rcases a with _ | ⟨x, _ | ⟨y, ys⟩⟩
  · exact absurd rfl hne
  · simp only [List.cons_append, List.nil_append, List.isPrefixOf, beq_self_eq_true, Bool.and_true, beq_iff_eq, List.cons.injEq,
      and_true]
    exact eq_comm
  · simp only [List.mem_cons, not_or] at h
    simp [List.isPrefixOf, h.2.1]

/-- The summand that is printed. -/
def termOf (x : Int) (m : Nat) (s : Sign) : RadTerm :=
  ⟨s, if x = 1 ∧ m ≠ 1 then [] else natRepr x.natAbs, if m = 1 then none else some ⟨false, false, false, natRepr m⟩⟩

theorem natRepr_digits (n : Nat) : Digits (natRepr n) := (digits_iff _).1 (natRepr_spec n).1

theorem natRepr_value (n : Nat) : digitsValue (natRepr n) = n := by rw [digitsValue_eq, (natRepr_spec n).2.1]

theorem termOf_valid (x : Int) (m : Nat) (s : Sign) : (termOf x m s).Valid := by
  refine ⟨?_, ?_, ?_⟩
  · show Digits (if _ then _ else _)
    split
    · intro c hc; simp at hc
    · exact natRepr_digits _
  · intro h
    have hm : m = 1 := by
      by_contra hm
      simp [termOf, hm] at h
    simp only [termOf, hm]
    simpa using (natRepr_spec x.natAbs).2.2
  · intro r hr
    have hm : m ≠ 1 := by
      rintro rfl
      simp [termOf] at hr
    simp only [termOf, if_neg hm, Option.some.injEq] at hr
    subst hr
    exact ⟨natRepr_digits _, (natRepr_spec m).2.2⟩

theorem termOf_factor {x : Int} {m : Nat} {s : Sign} (hs : s.isNeg = decide (x < 0)) : (termOf x m s).factor = x := by
  have hne := (natRepr_spec x.natAbs).2.2
  unfold RadTerm.factor termOf
  by_cases h : x = 1 ∧ m ≠ 1
  · obtain ⟨rfl, h2⟩ := h
    simp [h2, hs]
  · simp only [if_neg h, hs, natRepr_value]
    rw [if_neg hne]
    by_cases hx : x < 0
    · simp only [hx, decide_true, if_true]; omega
    · simp only [hx, decide_false, Bool.false_eq_true, if_false]; omega

theorem termOf_radicand (x : Int) (m : Nat) (s : Sign) : (termOf x m s).radicand = m := by
  unfold RadTerm.radicand termOf
  by_cases h : m = 1
  · simp [h]
  · simp only [if_neg h, natRepr_value]

theorem radReduce_zero {x m : Int} (h : x = 0 ∨ m = 0) : radReduce (radPart x m) = [] := by
  have hx := intRepr_mem (x := x) (c := '√') (by decide) (by decide)
  have hm := intRepr_mem (x := m) (c := '√') (by decide) (by decide)
  unfold radReduce radPart
  rcases h with rfl | rfl
  · have : startsWith ['0', '√'] (intRepr 0 ++ '√' :: intRepr m) = true := rfl
    rw [if_pos this]
  · split
    · rfl
    · have : startsWith ['0', '√'] (intRepr x ++ '√' :: intRepr 0).reverse = true := by
        rw [List.reverse_append]
        rfl
      rw [if_pos this]

theorem intRepr_eq_digit (x : Int) (c : Char) (y : Int) (hy : intRepr y = [c]) : intRepr x = [c] ↔ x = y :=
  ⟨fun h => intRepr_inj (h.trans hy.symm), fun h => h ▸ hy⟩

theorem radReduce_term {x : Int} {m : Nat} (hx : x ≠ 0) (hm : m ≠ 0) :
    radReduce (radPart x m) = (termOf x m (if x < 0 then .minus else .none)).render := by
  have hx1 := intRepr_mem (x := x) (c := '√') (by decide) (by decide)
  have hm1 := intRepr_mem (x := (m : Int)) (c := '√') (by decide) (by decide)
  have hxn : intRepr x ≠ [] := by
    unfold intRepr
    split
    · simp
    · exact (natRepr_spec _).2.2
  have hmn : intRepr (m : Int) ≠ [] := by
    unfold intRepr
    split
    · simp
    · exact (natRepr_spec _).2.2
  have hrev : (intRepr x ++ '√' :: intRepr (m : Int)).reverse = (intRepr (m : Int)).reverse ++ '√' :: (intRepr x).reverse := by
    rw [List.reverse_append, List.reverse_cons]; simp
  have hmr : '√' ∉ (intRepr (m : Int)).reverse := by simpa using hm1
  have hmrn : (intRepr (m : Int)).reverse ≠ [] := by simpa using hmn
  have hrs : ∀ c : Char, (intRepr (m : Int)).reverse = [c] ↔ intRepr (m : Int) = [c] := by
    intro c
    rw [List.reverse_eq_iff]; simp
  have hir : intRepr x = (if x < 0 then Sign.minus else Sign.none).str ++ natRepr x.natAbs := by
    unfold intRepr
    split <;> simp [Sign.str]
  have him : intRepr (m : Int) = natRepr m := by
    unfold intRepr
    rw [if_neg (by omega)]; rfl
  unfold radReduce radPart
  rw [hrev]
  simp only [startsWith_one hx1 hxn, startsWith_one hmr hmrn, hrs, intRepr_eq_digit x '0' 0 rfl, intRepr_eq_digit (m : Int) '0' 0 rfl,
    intRepr_eq_digit x '1' 1 rfl, intRepr_eq_digit (m : Int) '1' 1 rfl]
  rw [if_neg hx, if_neg (by omega)]
  unfold RadTerm.render RadTerm.rootStr termOf
  by_cases h1 : m = 1
  · subst h1
    rw [if_pos (by rfl)]
    have ht : (intRepr x ++ '√' :: intRepr ((1 : Nat) : Int)).take ((intRepr x ++ '√' :: intRepr ((1 : Nat) : Int)).length - 2) =
        intRepr x := List.take_left' (by
      rw [List.length_append, show ('√' :: intRepr ((1 : Nat) : Int)).length = 2 from rfl]; omega)
    rw [ht, hir]
    simp
  · rw [if_neg (by omega)]
    by_cases h2 : x = 1
    · subst h2
      simp [h1, him, Root.render, Sign.str, show intRepr 1 = ['1'] from rfl]
    · rw [if_neg h2]
      simp [h1, h2, him, hir, Root.render]

/-! ### The sign between the summands -/

theorem replace_plus_minus {a b : Str} (ha : '+' ∉ a) (hb : '+' ∉ b) :
    replaceStr ['+', '-'] ['-'] (a ++ '+' :: b) = a ++ (if b.head? = some '-' then b else '+' :: b) := by
  rcases b with _ | ⟨c, cs⟩
  · unfold replaceStr
    rw [replaceStr_go_skip _ _ _ _ _ ha _ (Nat.le_refl _)]
    simp [replaceStr.go, List.isPrefixOf]
  · by_cases hc : c = '-'
    · subst hc
      have := replaceStr_once '+' ['-'] ['-'] a cs ha (by simp at hb; exact hb)
      simp only [List.append_assoc, List.cons_append, List.nil_append] at this
      rw [this]
      simp
    · unfold replaceStr
      rw [replaceStr_go_skip _ _ _ _ _ ha _ (Nat.le_refl _)]
      simp only [List.length_append, List.length_cons, Nat.add_sub_cancel_left]
      rw [replaceStr.go]
      have hp : List.isPrefixOf ['+', '-'] ('+' :: c :: cs) = false := by
        simp [List.isPrefixOf]
        exact fun e => hc e.symm
      have hn := replaceStr_not_mem '+' ['-'] ['-'] (c :: cs) hb
      unfold replaceStr at hn
      simp only [List.length_cons] at hn
      rw [hp]
      simp [hn, hc]

/-! ### The whole text -/

/-- Sign of a first summand. -/
def sgnOf (x : Int) : Sign := if x < 0 then .minus else .none

theorem sgnOf_neg (x : Int) : (sgnOf x).isNeg = decide (x < 0) := by
  unfold sgnOf
  split <;> simp_all [Sign.isNeg]

/-- Sign of a second summand. -/
def sgn2Of (x : Int) : Sign := if x < 0 then .minus else .plus

theorem sgn2Of_neg (x : Int) : (sgn2Of x).isNeg = decide (x < 0) := by
  unfold sgn2Of
  split <;> simp_all [Sign.isNeg]

/-- A single summand over a denominator. -/
def singleOf (d : Nat) (x : Int) (m : Nat) : RadText :=
  ⟨false, termOf x m (sgnOf x), none, if d = 1 then none else some (.none, natRepr d)⟩

/-- Two summands over a denominator. -/
def doubleOf (d : Nat) (x : Int) (m : Nat) (y : Int) (n : Nat) : RadText :=
  ⟨true, termOf x m (sgnOf x), some (termOf y n (sgn2Of y)), some (.none, natRepr d)⟩

/-- The text that is printed. -/
def textOf (d : Nat) (x : Int) (m : Nat) (y : Int) (n : Nat) : RadText :=
  if x = 0 ∨ m = 0 then if y = 0 ∨ n = 0 then ⟨false, ⟨.none, ['0'], none⟩, none, none⟩ else singleOf d y n
  else if y = 0 ∨ n = 0 then singleOf d x m else doubleOf d x m y n

theorem singleOf_valid {d : Nat} (hd : d ≠ 0) (x : Int) (m : Nat) : (singleOf d x m).Valid := by
  refine ⟨termOf_valid _ _ _, fun u hu => by simp [singleOf] at hu, fun s e he => ?_⟩
  simp only [singleOf] at he
  split at he
  · cases he
  · simp only [Option.some.injEq, Prod.mk.injEq] at he
    obtain ⟨-, rfl⟩ := he
    exact ⟨natRepr_digits _, by rw [natRepr_value]; exact hd⟩

theorem doubleOf_valid {d : Nat} (hd : d ≠ 0) (x : Int) (m : Nat) (y : Int) (n : Nat) : (doubleOf d x m y n).Valid := by
  refine ⟨termOf_valid _ _ _, fun u hu => ?_, fun s e he => ?_⟩
  · simp only [doubleOf, Option.some.injEq] at hu
    subst hu
    refine ⟨termOf_valid _ _ _, ?_⟩
    show sgn2Of y ≠ .none
    unfold sgn2Of
    split <;> simp
  · simp only [doubleOf, Option.some.injEq, Prod.mk.injEq] at he
    obtain ⟨-, rfl⟩ := he
    exact ⟨natRepr_digits _, by rw [natRepr_value]; exact hd⟩

theorem zeroText_valid : (⟨false, ⟨.none, ['0'], none⟩, none, none⟩ : RadText).Valid :=
  ⟨⟨(digits_iff _).1 (by decide), by simp, by simp⟩, by simp, by simp⟩

theorem textOf_valid {d : Nat} (hd : d ≠ 0) (x : Int) (m : Nat) (y : Int) (n : Nat) : (textOf d x m y n).Valid := by
  unfold textOf
  split
  · split
    · exact zeroText_valid
    · exact singleOf_valid hd _ _
  · split
    · exact singleOf_valid hd _ _
    · exact doubleOf_valid hd _ _ _ _

theorem singleOf_den {d : Nat} (x : Int) (m : Nat) : (singleOf d x m).denominator = d := by
  unfold RadText.denominator singleOf
  by_cases h : d = 1
  · simp [h]
  · simp [h, Sign.isNeg, natRepr_value]

theorem singleOf_value {d : Nat} (x : Int) (m : Nat) : (singleOf d x m).value = x * Real.sqrt m / d := by
  unfold RadText.value
  rw [singleOf_den]
  have h1 : (singleOf d x m).first.factor = x := termOf_factor (sgnOf_neg x)
  have h2 : (singleOf d x m).first.radicand = m := termOf_radicand _ _ _
  rw [h1, h2]
  simp [RadText.factor2, singleOf]

theorem doubleOf_den {d : Nat} (x : Int) (m : Nat) (y : Int) (n : Nat) : (doubleOf d x m y n).denominator = d := by
  unfold RadText.denominator doubleOf
  simp [Sign.isNeg, natRepr_value]

theorem doubleOf_value {d : Nat} (x : Int) (m : Nat) (y : Int) (n : Nat) :
    (doubleOf d x m y n).value = (x * Real.sqrt m + y * Real.sqrt n) / d := by
  unfold RadText.value
  rw [doubleOf_den]
  have h1 : (doubleOf d x m y n).first.factor = x := termOf_factor (sgnOf_neg x)
  have h2 : (doubleOf d x m y n).first.radicand = m := termOf_radicand _ _ _
  have h3 : (doubleOf d x m y n).factor2 = y := termOf_factor (sgn2Of_neg y)
  have h4 : (doubleOf d x m y n).radicand2 = n := termOf_radicand _ _ _
  rw [h1, h2, h3, h4]
  simp

theorem zero_summand {x : Int} {m : Nat} (h : x = 0 ∨ m = 0) : (x : ℝ) * Real.sqrt m = 0 := by
  rcases h with rfl | rfl <;> simp

theorem textOf_value (d : Nat) (x : Int) (m : Nat) (y : Int) (n : Nat) :
    (textOf d x m y n).value = (x * Real.sqrt m + y * Real.sqrt n) / d := by
  unfold textOf
  split
  · next h1 =>
    rw [zero_summand h1]
    split
    · next h2 =>
      rw [zero_summand h2]
      simp [RadText.value, RadText.factor2, RadTerm.factor, digitsValue]
    · rw [singleOf_value]; simp
  · split
    · next h2 => rw [singleOf_value, zero_summand h2]; simp
    · rw [doubleOf_value]

theorem termOf_noPlus (x : Int) (m : Nat) {s : Sign} (hs : s ≠ .plus) : '+' ∉ (termOf x m s).render := by
  have hv := termOf_valid x m s
  unfold RadTerm.render RadTerm.rootStr
  rw [List.mem_append, List.mem_append, not_or, not_or]
  refine ⟨⟨?_, digit_ne hv.1 (notDigit (by decide))⟩, ?_⟩
  · show '+' ∉ s.str
    cases s <;> simp_all [Sign.str]
  · rcases hr : (termOf x m s).root with _ | r
    · simp
    · have hm : m ≠ 1 := by
        rintro rfl
        simp [termOf] at hr
      simp only [termOf, if_neg hm, Option.some.injEq] at hr
      subst hr
      have := digit_ne (natRepr_digits m) (notDigit (c := '+') (by decide))
      simp [Root.render, this]

theorem sgnOf_ne (x : Int) : sgnOf x ≠ .plus := by
  unfold sgnOf
  split <;> simp

theorem termOf_ne (x : Int) (m : Nat) (s : Sign) : (termOf x m s).render ≠ [] := by
  intro h
  unfold RadTerm.render RadTerm.rootStr at h
  rw [List.append_eq_nil_iff, List.append_eq_nil_iff] at h
  have hv := termOf_valid x m s
  rcases hr : (termOf x m s).root with _ | r
  · exact hv.2.1 hr h.1.2
  · have h2 := h.2
    rw [hr] at h2
    have := (hv.2.2 r hr).2
    simp only [Root.render, List.append_eq_nil_iff] at h2
    have h3 := h2.1.2
    split at h3 <;> simp at h3

/-- The sign between the summands. -/
theorem termOf_join (y : Int) (n : Nat) (z : Str) :
    (if ((termOf y n (sgnOf y)).render ++ z).head? = some '-' then (termOf y n (sgnOf y)).render ++ z
      else '+' :: ((termOf y n (sgnOf y)).render ++ z)) = (termOf y n (sgn2Of y)).render ++ z := by
  have hr : ∀ s, (termOf y n s).render = s.str ++ (termOf y n .none).render := by
    intro s
    simp [RadTerm.render, termOf, RadTerm.rootStr, Sign.str]
  have hne := termOf_ne y n .none
  rw [hr (sgnOf y), hr (sgn2Of y)]
  unfold sgnOf sgn2Of
  by_cases hy : y < 0
  · simp [hy, Sign.str]
  · simp only [if_neg hy, Sign.str, List.nil_append, List.cons_append]
    rw [if_neg]
    intro hh
    rcases ht : (termOf y n .none).render with _ | ⟨c, cs⟩
    · exact hne ht
    · rw [ht] at hh
      simp only [List.cons_append, List.head?_cons, Option.some.injEq] at hh
      subst hh
      have hv := termOf_valid y n .none
      unfold RadTerm.render RadTerm.rootStr at ht
      rcases hsc : (termOf y n .none).scalar with _ | ⟨c, cs'⟩
      · rw [hsc] at ht
        rcases hrr : (termOf y n .none).root with _ | r
        · exact hv.2.1 hrr hsc
        · rw [hrr] at ht
          have hm : n ≠ 1 := by
            rintro rfl
            simp [termOf] at hrr
          simp only [termOf, if_neg hm, Option.some.injEq] at hrr
          subst hrr
          simp [Root.render, termOf, Sign.str] at ht
      · rw [hsc] at ht
        have : (termOf y n .none).sign.str = [] := rfl
        rw [this] at ht
        simp only [List.nil_append, List.cons_append, List.cons.injEq] at ht
        exact notDigit (c := c) (by rw [ht.1]; decide) (hv.1 c (by rw [hsc]; simp))

theorem radStr_text {b : Buf} {d m n : Nat} {x y : Int} (h : radFields b = .ok ((d : Int), x, (m : Int), y, (n : Int))) :
    radStr b = .ok (textOf d x m y n).render := by
  have hd : intRepr (d : Int) = natRepr d := by
    unfold intRepr
    rw [if_neg (by omega)]; rfl
  have hdp : '+' ∉ natRepr d := digit_ne (natRepr_digits d) (notDigit (by decide))
  have hzero : ∀ {x : Int} {m : Nat}, (x = 0 ∨ m = 0) → radReduce (radPart x m) = [] := fun h => radReduce_zero (by omega)
  have hterm : ∀ {x : Int} {m : Nat}, ¬ (x = 0 ∨ m = 0) → radReduce (radPart x m) = (termOf x m (sgnOf x)).render :=
    fun h => radReduce_term (by omega) (by omega)
  have hsing : ∀ (x : Int) (m : Nat), (singleOf d x m).render =
      (if (d : Int) = 1 then (termOf x m (sgnOf x)).render else (termOf x m (sgnOf x)).render ++ '/' :: natRepr d) := by
    intro x m
    unfold RadText.render RadText.sum RadText.secondStr RadText.denStr singleOf
    by_cases h1 : d = 1
    · simp [h1]
    · have : ¬ (d : Int) = 1 := by omega
      simp [h1, Sign.str]
  have hnp : ∀ (x : Int) (m : Nat), '+' ∉ (singleOf d x m).render := by
    intro x m
    rw [hsing]
    have := termOf_noPlus x m (sgnOf_ne x)
    split
    · exact this
    · simp [this, hdp]
  unfold radStr textOf
  rw [h]
  simp only [hd]
  by_cases h1 : x = 0 ∨ m = 0
  · rw [if_pos h1, hzero h1]
    by_cases h2 : y = 0 ∨ n = 0
    · rw [if_pos h2, hzero h2]
      simp only [and_self, if_true]
      rfl
    · rw [if_neg h2, hterm h2]
      have hne := termOf_ne y n (sgnOf y)
      have := replaceStr_not_mem '+' ['-'] ['-'] _ (hnp y n)
      rw [← this, hsing]
      by_cases h3 : (d : Int) = 1
      · simp [h3, hne]
      · simp [h3, hne]
  · rw [if_neg h1, hterm h1]
    have hne1 := termOf_ne x m (sgnOf x)
    by_cases h2 : y = 0 ∨ n = 0
    · rw [if_pos h2, hzero h2]
      have := replaceStr_not_mem '+' ['-'] ['-'] _ (hnp x m)
      rw [← this, hsing]
      by_cases h3 : (d : Int) = 1
      · simp [h3, hne1]
      · simp [h3, hne1]
    · rw [if_neg h2, hterm h2]
      have hne := termOf_ne y n (sgnOf y)
      simp only [hne1, hne, false_and, and_false, if_false]
      have e1 : '(' :: (termOf x m (sgnOf x)).render ++ '+' :: (termOf y n (sgnOf y)).render ++ ')' :: '/' :: natRepr d =
          ('(' :: (termOf x m (sgnOf x)).render) ++ '+' :: ((termOf y n (sgnOf y)).render ++ ')' :: '/' :: natRepr d) := by simp
      rw [e1, replace_plus_minus (by simp [termOf_noPlus x m (sgnOf_ne x)]) (by simp [termOf_noPlus y n (sgnOf_ne y), hdp]),
        termOf_join]
      simp [RadText.render, RadText.sum, RadText.secondStr, RadText.denStr, doubleOf, Sign.str]

/-! ### Loading what was printed -/

theorem pySign_nat {d : Nat} (hd : d ≠ 0) : pySign (d : Int) = 1 := by
  unfold pySign
  rw [if_pos (by omega)]

theorem radOrder_lt {x y : Int} {m n : Nat} (h : n < m) : radOrder x m y n = (x, (m : Int), y, (n : Int)) := by
  unfold radOrder
  rw [if_neg (by omega), if_neg (by omega)]

theorem termOf_root (x : Int) (m : Nat) (s : Sign) : (termOf x m s).root = none ↔ m = 1 := by
  unfold termOf
  by_cases h : m = 1 <;> simp [h]

/-- Loading the printed text gives the same leading summand and the same text. -/
theorem radLoad_printed {d m n : Nat} {x y : Int} (hd : d ≠ 0) (hd' : d < 1000) (hx : x ≠ 0) (hx' : x.natAbs < 1000)
    (hy : y.natAbs < 1000) (hmn : n < m) (hm : m < 1000) (b : Bytes) (hb : b.length = 9) :
    ∃ b' : Bytes, radLoadString (textOf d x m y n).render ⟨true, b⟩ = ⟨.ok (), ⟨true, b'⟩, []⟩ ∧ b'.length = 9 ∧ b'[0]? = b[0]? ∧
      ∃ (y' : Int) (n' : Nat), radFields ⟨true, b'⟩ = .ok ((d : Int), x, (m : Int), y', (n' : Int)) ∧
        (y' : ℝ) * Real.sqrt n' = y * Real.sqrt n ∧ textOf d x m y' n' = textOf d x m y n ∧ (y ≠ 0 → n ≠ 0 → y' = y ∧ n' = n) := by
  have hx0 : ¬ (x = 0 ∨ m = 0) := by omega
  have hv := textOf_valid hd x m y n
  have hs := squash_text hv
  have hne := render_ne hv hs
  by_cases h2 : y = 0 ∨ n = 0
  · have ht : textOf d x m y n = singleOf d x m := by unfold textOf; rw [if_neg hx0, if_pos h2]
    rw [ht] at hs hne hv ⊢
    have hden := singleOf_den (d := d) x m
    have h1 : (singleOf d x m).first.factor = x := termOf_factor (sgnOf_neg x)
    have hr : (singleOf d x m).first.radicand = m := termOf_radicand _ _ _
    have h3 : (singleOf d x m).factor2 = 0 := rfl
    have h4 : (singleOf d x m).radicand2 = 1 := rfl
    have hp := radParse_text hv (fun u hu => by simp [singleOf] at hu) (fun g e _ _ he => by
      simp only [singleOf] at he
      split at he
      · cases he
      · simp only [Option.some.injEq, Prod.mk.injEq] at he
        exact he.1.symm) hs
    rw [hden, h1, hr, h3, h4] at hp
    have hz : ∀ k : Nat, ((0 : Int) : ℝ) * Real.sqrt k = y * Real.sqrt n := by
      intro k
      rw [zero_summand h2]; simp
    have htx : ∀ k : Nat, textOf d x m 0 k = singleOf d x m := by
      intro k
      unfold textOf
      rw [if_neg hx0, if_pos (Or.inl rfl)]
    have hd0 : (d : Int) ≠ 0 := by omega
    have hvac : y ≠ 0 → n ≠ 0 → ∀ {P : Prop}, P := by
      intro a1 a2
      rcases h2 with h | h
      · exact absurd h a1
      · exact absurd h a2
    by_cases hm1 : m = 1
    · subst hm1
      have ho : radOrder x (1 : Nat) 0 (1 : Nat) = (x, 1, 0, 0) := by simp [radOrder]
      have ho' : radOrder 0 (1 : Nat) x (1 : Nat) = (x, 1, 0, 0) := by simp [radOrder]
      rcases hp with hp | hp
      · obtain ⟨b', k1, k2, k3, k4⟩ := radLoad_fields hne hp hd0 (by simpa using hd') hx' (by decide) (by decide) (by decide) ho
          ⟨hx, hx'⟩ b hb
        rw [pySign_nat hd] at k4
        exact ⟨b', k1, k2, k3, 0, 0, by rw [k4]; simp, hz _, htx _, fun a1 a2 => hvac a1 a2⟩
      · obtain ⟨b', k1, k2, k3, k4⟩ := radLoad_fields hne hp hd0 (by simpa using hd') (by decide) hx' (by decide) (by decide) ho'
          ⟨hx, hx'⟩ b hb
        rw [pySign_nat hd] at k4
        exact ⟨b', k1, k2, k3, 0, 0, by rw [k4]; simp, hz _, htx _, fun a1 a2 => hvac a1 a2⟩
    · have hm1' : 1 < m := by omega
      have ho := radOrder_lt (x := x) (y := 0) hm1'
      have ho' : radOrder 0 (1 : Nat) x m = (x, (m : Int), 0, ((1 : Nat) : Int)) := by
        unfold radOrder
        rw [if_pos (by omega)]
      rcases hp with hp | hp
      · obtain ⟨b', k1, k2, k3, k4⟩ := radLoad_fields hne hp hd0 (by simpa using hd') hx' (by decide) hm (by decide) ho
          ⟨hx, hx'⟩ b hb
        rw [pySign_nat hd] at k4
        exact ⟨b', k1, k2, k3, 0, 1, by rw [k4]; simp, hz _, htx _, fun a1 a2 => hvac a1 a2⟩
      · obtain ⟨b', k1, k2, k3, k4⟩ := radLoad_fields hne hp hd0 (by simpa using hd') (by decide) hx' (by decide) hm ho'
          ⟨hx, hx'⟩ b hb
        rw [pySign_nat hd] at k4
        exact ⟨b', k1, k2, k3, 0, 1, by rw [k4]; simp, hz _, htx _, fun a1 a2 => hvac a1 a2⟩
  · have ht : textOf d x m y n = doubleOf d x m y n := by unfold textOf; rw [if_neg hx0, if_neg h2]
    rw [ht] at hs hne hv
    have h1 : (doubleOf d x m y n).first.factor = x := termOf_factor (sgnOf_neg x)
    have hr : (doubleOf d x m y n).first.radicand = m := termOf_radicand _ _ _
    have h3 : (doubleOf d x m y n).factor2 = y := termOf_factor (sgn2Of_neg y)
    have h4 : (doubleOf d x m y n).radicand2 = n := termOf_radicand _ _ _
    have hroot : (doubleOf d x m y n).first.root ≠ none := by
      show (termOf x m (sgnOf x)).root ≠ none
      rw [ne_eq, termOf_root]
      omega
    have hp := radParse_text hv (fun u _ hn => absurd hn hroot) (fun g e hn => by simp [doubleOf] at hn) hs
    rw [doubleOf_den, h1, hr, h3, h4] at hp
    have hd0 : (d : Int) ≠ 0 := by omega
    have ho := radOrder_lt (x := x) (y := y) hmn
    have ho' : radOrder y n x m = (x, (m : Int), y, (n : Int)) := by
      unfold radOrder
      rw [if_pos (by omega)]
    rw [ht]
    rcases hp with hp | hp
    · obtain ⟨b', k1, k2, k3, k4⟩ := radLoad_fields hne hp hd0 (by simpa using hd') hx' hy hm (by omega) ho ⟨hx, hx'⟩ b hb
      rw [pySign_nat hd] at k4
      exact ⟨b', k1, k2, k3, y, n, by rw [k4]; simp, rfl, ht, fun _ _ => ⟨rfl, rfl⟩⟩
    · obtain ⟨b', k1, k2, k3, k4⟩ := radLoad_fields hne hp hd0 (by simpa using hd') hy hx' (by omega) hm ho' ⟨hx, hx'⟩ b hb
      rw [pySign_nat hd] at k4
      exact ⟨b', k1, k2, k3, y, n, by rw [k4]; simp, rfl, ht, fun _ _ => ⟨rfl, rfl⟩⟩

/-! ### The full form -/

/-- A summand with all its parts. -/
def fullTerm (x : Int) (m : Nat) (s : Sign) : RadTerm := ⟨s, natRepr x.natAbs, some ⟨false, false, false, natRepr m⟩⟩

theorem fullTerm_valid (x : Int) (m : Nat) (s : Sign) : (fullTerm x m s).Valid := by
  refine ⟨natRepr_digits _, fun h => by simp [fullTerm] at h, fun r hr => ?_⟩
  simp only [fullTerm, Option.some.injEq] at hr
  subst hr
  exact ⟨natRepr_digits _, (natRepr_spec m).2.2⟩

theorem fullTerm_factor {x : Int} {m : Nat} {s : Sign} (hs : s.isNeg = decide (x < 0)) : (fullTerm x m s).factor = x := by
  unfold RadTerm.factor fullTerm
  simp only [hs, natRepr_value]
  rw [if_neg (natRepr_spec x.natAbs).2.2]
  by_cases hx : x < 0
  · simp only [hx, decide_true, if_true]; omega
  · simp only [hx, decide_false, Bool.false_eq_true, if_false]; omega

theorem fullTerm_radicand (x : Int) (m : Nat) (s : Sign) : (fullTerm x m s).radicand = m := natRepr_value m

theorem fullTerm_render (x : Int) (m : Nat) (s : Sign) : (fullTerm x m s).render = s.str ++ (natRepr x.natAbs ++ '√' :: natRepr m) := by
  simp [RadTerm.render, RadTerm.rootStr, fullTerm, Root.render]

/-- The text in full. -/
def fullOf (d : Nat) (x : Int) (m : Nat) (y : Int) (n : Nat) : RadText :=
  ⟨true, fullTerm x m (sgnOf x), some (fullTerm y n (sgn2Of y)), some (.none, natRepr d)⟩

theorem fullOf_valid {d : Nat} (hd : d ≠ 0) (x : Int) (m : Nat) (y : Int) (n : Nat) : (fullOf d x m y n).Valid := by
  refine ⟨fullTerm_valid _ _ _, fun u hu => ?_, fun s e he => ?_⟩
  · simp only [fullOf, Option.some.injEq] at hu
    subst hu
    refine ⟨fullTerm_valid _ _ _, ?_⟩
    show sgn2Of y ≠ .none
    unfold sgn2Of
    split <;> simp
  · simp only [fullOf, Option.some.injEq, Prod.mk.injEq] at he
    obtain ⟨-, rfl⟩ := he
    exact ⟨natRepr_digits _, by rw [natRepr_value]; exact hd⟩

theorem fullOf_parts (d : Nat) (x : Int) (m : Nat) (y : Int) (n : Nat) :
    (fullOf d x m y n).denominator = d ∧ (fullOf d x m y n).first.factor = x ∧ (fullOf d x m y n).first.radicand = m ∧
      (fullOf d x m y n).factor2 = y ∧ (fullOf d x m y n).radicand2 = n :=
  ⟨by unfold RadText.denominator fullOf; simp [Sign.isNeg, natRepr_value], fullTerm_factor (sgnOf_neg x), fullTerm_radicand _ _ _,
    fullTerm_factor (sgn2Of_neg y), fullTerm_radicand y n (sgn2Of y)⟩

theorem fullOf_value (d : Nat) (x : Int) (m : Nat) (y : Int) (n : Nat) :
    (fullOf d x m y n).value = (x * Real.sqrt m + y * Real.sqrt n) / d := by
  obtain ⟨h1, h2, h3, h4, h5⟩ := fullOf_parts d x m y n
  unfold RadText.value
  rw [h1, h2, h3, h4, h5]
  simp

theorem radStrFull_text {b : Buf} {d m n : Nat} {x y : Int} (h : radFields b = .ok ((d : Int), x, (m : Int), y, (n : Int))) :
    radStrFull b = .ok (fullOf d x m y n).render := by
  have hn : ∀ k : Nat, intRepr (k : Int) = natRepr k := by
    intro k
    unfold intRepr
    rw [if_neg (by omega)]; rfl
  have hi : ∀ x : Int, intRepr x = (sgnOf x).str ++ natRepr x.natAbs := by
    intro x
    unfold intRepr sgnOf
    split <;> simp [Sign.str]
  have hk : ∀ k : Nat, '+' ∉ natRepr k := fun k => digit_ne (natRepr_digits k) (notDigit (by decide))
  have hs : '+' ∉ (sgnOf x).str := by unfold sgnOf; split <;> simp [Sign.str]
  have hs2 : '+' ∉ (sgnOf y).str := by unfold sgnOf; split <;> simp [Sign.str]
  unfold radStrFull
  rw [h]
  simp only [hn, radPart, hi x, hi y]
  have e1 : '(' :: ((sgnOf x).str ++ natRepr x.natAbs ++ '√' :: natRepr m) ++ '+' ::
      ((sgnOf y).str ++ natRepr y.natAbs ++ '√' :: natRepr n) ++ ')' :: '/' :: natRepr d =
      ('(' :: ((sgnOf x).str ++ natRepr x.natAbs ++ '√' :: natRepr m)) ++ '+' ::
        ((sgnOf y).str ++ (natRepr y.natAbs ++ '√' :: natRepr n ++ ')' :: '/' :: natRepr d)) := by simp
  rw [e1, replace_plus_minus (by simp [hs, hk]) (by simp [hs2, hk])]
  have hj : (if ((sgnOf y).str ++ (natRepr y.natAbs ++ '√' :: natRepr n ++ ')' :: '/' :: natRepr d)).head? = some '-' then
      (sgnOf y).str ++ (natRepr y.natAbs ++ '√' :: natRepr n ++ ')' :: '/' :: natRepr d)
      else '+' :: ((sgnOf y).str ++ (natRepr y.natAbs ++ '√' :: natRepr n ++ ')' :: '/' :: natRepr d))) =
      (sgn2Of y).str ++ (natRepr y.natAbs ++ '√' :: natRepr n ++ ')' :: '/' :: natRepr d) := by
    unfold sgnOf sgn2Of
    by_cases hy : y < 0
    · simp [hy, Sign.str]
    · simp only [if_neg hy, Sign.str, List.nil_append, List.cons_append]
      rw [if_neg]
      rcases hc : natRepr y.natAbs with _ | ⟨c, cs⟩
      · exact absurd hc (natRepr_spec _).2.2
      · intro hh
        simp only [List.cons_append, List.head?_cons, Option.some.injEq] at hh
        exact notDigit (c := c) (by rw [hh]; decide) (natRepr_digits y.natAbs c (by rw [hc]; simp))
  rw [hj]
  simp [RadText.render, RadText.sum, RadText.secondStr, RadText.denStr, fullOf, fullTerm_render, Sign.str]

theorem radLoad_full {d m n : Nat} {x y : Int} (hd : d ≠ 0) (hd' : d < 1000) (hx : x ≠ 0) (hx' : x.natAbs < 1000)
    (hy : y.natAbs < 1000) (hmn : n < m) (hm : m < 1000) (b : Bytes) (hb : b.length = 9) :
    ∃ b' : Bytes, radLoadString (fullOf d x m y n).render ⟨true, b⟩ = ⟨.ok (), ⟨true, b'⟩, []⟩ ∧ b'.length = 9 ∧ b'[0]? = b[0]? ∧
      radFields ⟨true, b'⟩ = .ok ((d : Int), x, (m : Int), y, (n : Int)) := by
  have hv := fullOf_valid hd x m y n
  have hs := squash_text hv
  have hne := render_ne hv hs
  obtain ⟨h1, h2, h3, h4, h5⟩ := fullOf_parts d x m y n
  have hroot : (fullOf d x m y n).first.root ≠ none := by simp [fullOf, fullTerm]
  have hp := radParse_text hv (fun u _ hn => absurd hn hroot) (fun g e hn => by simp [fullOf] at hn) hs
  rw [h1, h2, h3, h4, h5] at hp
  have hd0 : (d : Int) ≠ 0 := by omega
  have ho := radOrder_lt (x := x) (y := y) hmn
  have ho' : radOrder y n x m = (x, (m : Int), y, (n : Int)) := by
    unfold radOrder
    rw [if_pos (by omega)]
  rcases hp with hp | hp
  · obtain ⟨b', k1, k2, k3, k4⟩ := radLoad_fields hne hp hd0 (by simpa using hd') hx' hy hm (by omega) ho ⟨hx, hx'⟩ b hb
    rw [pySign_nat hd] at k4
    exact ⟨b', k1, k2, k3, by rw [k4]; simp⟩
  · obtain ⟨b', k1, k2, k3, k4⟩ := radLoad_fields hne hp hd0 (by simpa using hd') hy hx' (by omega) hm ho' ⟨hx, hx'⟩ b hb
    rw [pySign_nat hd] at k4
    exact ⟨b', k1, k2, k3, by rw [k4]; simp⟩

/-! ### Which texts can be loaded -/

theorem singleOf_loads {d : Nat} {x : Int} {m : Nat} (hx : x ≠ 0) (hm : m ≠ 0) : (singleOf d x m).Loads ∧ (singleOf d x m).lead = x := by
  have h1 : (singleOf d x m).first.factor = x := termOf_factor (sgnOf_neg x)
  have h2 : (singleOf d x m).first.radicand = m := termOf_radicand _ _ _
  have h3 : (singleOf d x m).factor2 = 0 := rfl
  have h4 : (singleOf d x m).radicand2 = 1 := rfl
  have hl : (singleOf d x m).lead = x := by
    unfold RadText.lead
    rw [h1, h2, h3, h4]
    split
    · rfl
    · rw [if_pos (by omega)]; omega
  refine ⟨⟨by rw [hl]; exact hx, fun u hu => by simp [singleOf] at hu, fun s e _ _ he => ?_⟩, hl⟩
  simp only [singleOf] at he
  split at he
  · cases he
  · simp only [Option.some.injEq, Prod.mk.injEq] at he
    exact he.1.symm

theorem doubleOf_lead (d : Nat) (x : Int) (m : Nat) (y : Int) (n : Nat) : (doubleOf d x m y n).lead = leadFactor x m y n := by
  have h1 : (doubleOf d x m y n).first.factor = x := termOf_factor (sgnOf_neg x)
  have h2 : (doubleOf d x m y n).first.radicand = m := termOf_radicand _ _ _
  have h3 : (doubleOf d x m y n).factor2 = y := termOf_factor (sgn2Of_neg y)
  have h4 : (doubleOf d x m y n).radicand2 = n := termOf_radicand _ _ _
  unfold RadText.lead leadFactor
  rw [h1, h2, h3, h4]

theorem doubleOf_loads (d : Nat) (x : Int) (m : Nat) (y : Int) (n : Nat) :
    (doubleOf d x m y n).Loads ↔ leadFactor x m y n ≠ 0 ∧ ¬ (m = 1 ∧ n = 1) := by
  constructor
  · rintro ⟨h1, h2, -⟩
    rw [doubleOf_lead] at h1
    refine ⟨h1, fun ⟨a, b⟩ => h2 _ rfl ?_ ?_⟩
    · exact (termOf_root _ _ _).2 a
    · exact (termOf_root _ _ _).2 b
  · rintro ⟨h1, h2⟩
    refine ⟨by rw [doubleOf_lead]; exact h1, fun u hu hn hu' => h2 ⟨?_, ?_⟩, fun s e hn => by simp [doubleOf] at hn⟩
    · exact (termOf_root x m (sgnOf x)).1 hn
    · simp only [doubleOf, Option.some.injEq] at hu
      subst hu
      exact (termOf_root y n (sgn2Of y)).1 hu'

theorem textOf_loads (d : Nat) (x : Int) (m : Nat) (y : Int) (n : Nat) : (textOf d x m y n).Loads ↔ ShortReads x m y n := by
  unfold textOf ShortReads
  by_cases h1 : x = 0 ∨ m = 0 <;> by_cases h2 : y = 0 ∨ n = 0
  · rw [if_pos h1, if_pos h2]
    refine ⟨fun h => absurd ?_ h.lead, fun h => ?_⟩
    · simp [RadText.lead, RadText.factor2, RadText.radicand2, RadTerm.factor, RadTerm.radicand, digitsValue]
    · rcases h with h | h | h <;> simp only [h1, h2, not_true, and_false, false_and] at h
  · rw [if_pos h1, if_neg h2]
    exact ⟨fun _ => .inr (.inl ⟨h1, h2⟩), fun _ => (singleOf_loads (by omega) (by omega)).1⟩
  · rw [if_neg h1, if_pos h2]
    exact ⟨fun _ => .inl ⟨h1, h2⟩, fun _ => (singleOf_loads (by omega) (by omega)).1⟩
  · rw [if_neg h1, if_neg h2, doubleOf_loads]
    refine ⟨fun h => .inr (.inr ⟨h1, h2, h.1, h.2⟩), fun h => ?_⟩
    rcases h with h | h | h
    · exact absurd h.2 h2
    · exact absurd h.1 h1
    · exact h.2.2

theorem textOf_small {d m n : Nat} {x y : Int} (hd : d < 1000) (hx : x.natAbs < 1000) (hy : y.natAbs < 1000) (hm : m < 1000)
    (hn : n < 1000) (hl : (leadFactor x m y n).natAbs < 1000) (h : ShortReads x m y n) : (textOf d x m y n).Small := by
  have single : ∀ {x : Int} {m : Nat}, x.natAbs < 1000 → m < 1000 → ¬ (x = 0 ∨ m = 0) → (singleOf d x m).Small := by
    intro x m hx hm h
    have h1 : (singleOf d x m).first.factor = x := termOf_factor (sgnOf_neg x)
    have h2 : (singleOf d x m).first.radicand = m := termOf_radicand _ _ _
    exact ⟨by rw [h1, h2]; exact ⟨hx, hm⟩, fun u hu => by simp [singleOf] at hu, by rw [singleOf_den]; simpa using hd,
      by rw [(singleOf_loads (by omega) (by omega)).2]; exact hx⟩
  unfold textOf
  rcases h with ⟨h1, h2⟩ | ⟨h1, h2⟩ | ⟨h1, h2, -⟩
  · rw [if_neg h1, if_pos h2]; exact single hx hm h1
  · rw [if_pos h1, if_neg h2]; exact single hy hn h2
  · rw [if_neg h1, if_neg h2]
    have h3 : (doubleOf d x m y n).first.factor = x := termOf_factor (sgnOf_neg x)
    have h4 : (doubleOf d x m y n).first.radicand = m := termOf_radicand _ _ _
    refine ⟨by rw [h3, h4]; exact ⟨hx, hm⟩, fun u hu => ?_, by rw [doubleOf_den]; simpa using hd, by rw [doubleOf_lead]; exact hl⟩
    simp only [doubleOf, Option.some.injEq] at hu
    subst hu
    rw [termOf_factor (sgn2Of_neg y), termOf_radicand]
    exact ⟨hy, hn⟩

theorem fullOf_lead (d : Nat) (x : Int) (m : Nat) (y : Int) (n : Nat) : (fullOf d x m y n).lead = leadFactor x m y n := by
  obtain ⟨-, h2, h3, h4, h5⟩ := fullOf_parts d x m y n
  unfold RadText.lead leadFactor
  rw [h2, h3, h4, h5]

theorem fullOf_loads (d : Nat) (x : Int) (m : Nat) (y : Int) (n : Nat) : (fullOf d x m y n).Loads ↔ leadFactor x m y n ≠ 0 := by
  rw [← fullOf_lead d]
  exact ⟨fun h => h.lead, fun h => ⟨h, fun u _ hn => by simp [fullOf, fullTerm] at hn, fun s e hn => by simp [fullOf] at hn⟩⟩

theorem fullOf_small {d m n : Nat} {x y : Int} (hd : d < 1000) (hx : x.natAbs < 1000) (hy : y.natAbs < 1000) (hm : m < 1000)
    (hn : n < 1000) (hl : (leadFactor x m y n).natAbs < 1000) : (fullOf d x m y n).Small := by
  obtain ⟨h1, h2, h3, h4, h5⟩ := fullOf_parts d x m y n
  refine ⟨by rw [h2, h3]; exact ⟨hx, hm⟩, fun u hu => ?_, by rw [h1]; simpa using hd, by rw [fullOf_lead]; exact hl⟩
  simp only [fullOf, Option.some.injEq] at hu
  subst hu
  rw [fullTerm_factor (sgn2Of_neg y), fullTerm_radicand]
  exact ⟨hy, hn⟩

end Verif
