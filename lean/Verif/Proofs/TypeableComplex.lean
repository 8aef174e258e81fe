import Verif.Proofs.Typeable
import Verif.Proofs.ComplexOther

/-! Lemmas about the text of complex numbers that can be typed on a calculator. -/

namespace Verif
open Spec Ent

/-! ### Replacing characters -/

/-- What becomes of a character of the text of a complex number. -/
def keyOfC (c : Char) : Str := if c = 'i' then ['[', 'i', ']'] else if c = '-' then ['~'] else [c]

theorem squash_keysC (s : Str) : squash (s.flatMap keyOfC) = (squash s).flatMap keyOfC := by
  induction s with
  | nil => rfl
  | cons c s ih =>
    rw [List.flatMap_cons, squash_append, ih]
    by_cases hc : isSpaceChar c = true
    · have h1 : c ≠ 'i' := by rintro rfl; revert hc; decide
      have h2 : c ≠ '-' := by rintro rfl; revert hc; decide
      have : keyOfC c = [c] := by rw [keyOfC, if_neg h1, if_neg h2]
      rw [this]
      simp [squash, hc]
    · have h3 : squash (keyOfC c) = keyOfC c := by
        unfold keyOfC
        split
        · decide
        · split
          · decide
          · simp [squash, hc]
      rw [h3]
      simp [squash, hc]

theorem typeable_keysC (s : Str) : typeableComplex s = (squash s).flatMap keyOfC := by
  unfold typeableComplex
  rw [replaceStr_single, replaceStr_single, List.flatMap_assoc, ← squash_keysC]
  congr 2
  funext c
  unfold keyOfC
  by_cases h : c = 'i'
  · simp [h]
  · simp [h]

theorem keysC_plain {s : Str} (h1 : 'i' ∉ s) (h2 : '-' ∉ s) : s.flatMap keyOfC = s := by
  induction s with
  | nil => rfl
  | cons c s ih =>
    simp only [List.mem_cons, not_or] at h1 h2
    rw [List.flatMap_cons, ih h1.2 h2.2, keyOfC, if_neg (Ne.symm h1.1), if_neg (Ne.symm h2.1)]
    rfl

theorem keysC_sign (s : Sign) : s.str.flatMap keyOfC = s.calc := by cases s <;> decide

theorem keysC_lit {l : Literal} (h : l.Valid) (he : l.exp = none) : l.render.flatMap keyOfC = l.calc := by
  have hf : 'i' ∉ l.fracStr ∧ '-' ∉ l.fracStr := by
    refine ⟨?_, (printed_frac h).1⟩
    unfold Literal.fracStr
    rcases hf : l.frac with _ | f
    · simp
    · simp [digit_not (h.2.1 f hf) (c := 'i') (by decide)]
  have : l.expStr = [] := by unfold Literal.expStr; rw [he]
  unfold Literal.render Literal.calc
  rw [this, he, List.append_nil, List.flatMap_append, List.flatMap_append, keysC_sign,
    keysC_plain (digit_not h.1 (by decide)) (digit_not h.1 (by decide)), keysC_plain hf.1 hf.2]
  simp

/-- The literals of the text have no exponents. -/
def NoExponents : ComplexText → Prop
  | .re l => l.exp = none
  | .im (.number l) _ _ => l.exp = none
  | .im (.bare _) _ _ => True
  | .both l (.number m) _ _ => l.exp = none ∧ m.exp = none
  | .both l (.bare _) _ _ => l.exp = none

/-- The unit is written as printed. -/
def PlainUnit : ComplexText → Prop
  | .re _ => True
  | .im _ star u | .both _ _ star u => star = false ∧ u = .i

theorem keysC_text {d : ComplexText} (h : d.Valid) (he : NoExponents d) (hu : PlainUnit d) : d.render.flatMap keyOfC = d.calc := by
  have hunit : (unitStr false .i).flatMap keyOfC = ['[', 'i', ']'] := by decide
  cases d with
  | re l => exact keysC_lit h.1 he
  | im f star u =>
    obtain ⟨rfl, rfl⟩ := hu
    show (f.render ++ unitStr false .i).flatMap keyOfC = f.calc ++ ['[', 'i', ']']
    rw [List.flatMap_append, hunit]
    congr 1
    cases f with
    | number l => exact keysC_lit h.1 he
    | bare s => exact keysC_sign s
  | both l f star u =>
    obtain ⟨rfl, rfl⟩ := hu
    show (l.render ++ f.render ++ unitStr false .i).flatMap keyOfC = l.calc ++ f.calc ++ ['[', 'i', ']']
    rw [List.flatMap_append, List.flatMap_append, hunit]
    congr 1
    cases f with
    | number m => rw [keysC_lit h.1.1 he.1]; congr 1; exact keysC_lit h.2.1.1 he.2
    | bare s => rw [keysC_lit h.1.1 he]; congr 1; exact keysC_sign s

/-! ### What is printed -/

theorem printed_forms {c c' : Int} {l l' : Literal} (h : Printed l) (h' : Printed l') :
    (printed c c' l l').Valid ∧ NoExponents (printed c c' l l') ∧ PlainUnit (printed c c' l l') := by
  have hsg : (if l'.sign.isNeg then Sign.minus else Sign.plus) = .plus ∨ (if l'.sign.isNeg then Sign.minus else Sign.plus) = .minus := by
    cases l'.sign.isNeg
    · exact Or.inl rfl
    · exact Or.inr rfl
  unfold printed
  split
  · exact ⟨h.proper, h.exp, trivial⟩
  · split
    · exact ⟨h'.proper, h'.exp, rfl, rfl⟩
    · split
      · exact ⟨⟨h.proper, trivial, hsg⟩, h.exp, rfl, rfl⟩
      · exact ⟨⟨h.proper, h'.proper, hsg⟩, ⟨h.exp, h'.exp⟩, rfl, rfl⟩

theorem printed_values {c x c' x' : Int} {l l' : Literal} (hl' : Printed l')
    (hval : l.value = (c : ℚ) * 10 ^ x) (hval' : l'.value = (c' : ℚ) * 10 ^ x') :
    (printed c c' l l').reValue = (c : ℚ) * 10 ^ x ∧ (printed c c' l l').imValue = (c' : ℚ) * 10 ^ x' := by
  unfold printed
  by_cases hc' : c' = 0
  · rw [if_pos hc']
    exact ⟨hval, by rw [hc']; simp [ComplexText.imValue]⟩
  · rw [if_neg hc']
    by_cases hc : c = 0
    · rw [if_pos hc]
      exact ⟨by rw [hc]; simp [ComplexText.reValue], hval'⟩
    · rw [if_neg hc]
      by_cases h1 : l'.int ++ l'.fracStr = ['1']
      · rw [if_pos h1]
        refine ⟨hval, ?_⟩
        rw [← hval']
        have hm := hl'.single h1
        unfold Literal.value Literal.sgn
        rw [hm, show ('1'.toNat - 48 : Nat) = 1 from rfl]
        show (if (if l'.sign.isNeg then Sign.minus else Sign.plus).isNeg then (-1 : ℚ) else 1) = _
        cases l'.sign.isNeg <;> norm_num [Sign.isNeg]
      · rw [if_neg h1]
        refine ⟨hval, ?_⟩
        rw [← hval']
        show (resign _ l').value = _
        unfold Literal.value Literal.sgn
        show ((if (if l'.sign.isNeg then Sign.minus else Sign.plus).isNeg then (-1 : Int) else 1 : Int) : ℚ) * l'.magnitude = _
        cases l'.sign.isNeg <;> rfl

theorem printLit_neg {c e : Int} (h0 : c ≠ 0) : (printLit c e).sign.isNeg = decide (c < 0) := by
  unfold printLit
  rw [if_neg h0]
  show (plainLit ⟨decide (c < 0), c.natAbs, e⟩).sign.isNeg = _
  unfold plainLit
  by_cases h : c < 0 <;> simp [h, Sign.isNeg]

theorem printLit_frac (c e : Int) : ∀ f, (printLit c e).frac = some f → f ≠ [] := by
  intro f
  unfold printLit
  split
  · intro h
    exact absurd h (by simp [zeroLit])
  · unfold plainLit
    simp only
    split
    · intro h; cases h
    · next h => intro h'; cases h'; exact h

/-! ### Loading -/

/-- The text as a text that can be loaded. -/
def tilComplex : ComplexText → ComplexText
  | .re l => .re (tilLit l)
  | .im (.number l) _ _ => .im (.number (tilLit l)) false .bracket
  | .im (.bare s) _ _ => .im (.bare s) false .bracket
  | .both l f _ _ => .both (tilLit l) f false .bracket

/-- The imaginary part of a sum is not negative. -/
def NoMinus : ComplexText → Prop
  | .both _ f _ _ => f.sign = .plus
  | .im (.bare s) _ _ => s = .plus
  | _ => True

theorem tilLit_calc {l : Literal} (h : l.exp = none) : (tilLit l).render = l.calc := by
  have : (tilLit l).expStr = [] := by
    unfold Literal.expStr tilLit
    rw [show ({ l with sign := tilSign l.sign } : Literal).exp = none from h]
  unfold Literal.render Literal.calc
  rw [this, h, List.append_nil, List.append_nil]
  show (tilSign l.sign).str ++ l.int ++ l.fracStr = _
  rw [til_str]

theorem plus_calc {l : Literal} (h : l.exp = none) (hs : l.sign = .plus) : l.render = l.calc := by
  unfold Literal.render Literal.calc Literal.expStr
  rw [h, hs]
  rfl

theorem tilComplex_spec {d : ComplexText} (h : d.Valid) (he : NoExponents d) (hs : d.Safe) (hm : NoMinus d) :
    (tilComplex d).Valid ∧ (tilComplex d).Safe ∧ (tilComplex d).render = d.calc ∧ (tilComplex d).reValue = d.reValue ∧
      (tilComplex d).imValue = d.imValue := by
  cases d with
  | re l => exact ⟨h, hs, tilLit_calc he, tilLit_value l, rfl⟩
  | im f star u =>
    cases f with
    | number l =>
      refine ⟨h, hs, ?_, rfl, tilLit_value l⟩
      show (tilLit l).render ++ unitStr false .bracket = l.calc ++ ['[', 'i', ']']
      rw [tilLit_calc he]; rfl
    | bare s =>
      have hm : s = .plus := hm
      subst hm
      exact ⟨h, hs, rfl, rfl, rfl⟩
  | both l f star u =>
    have hm : f.sign = .plus := hm
    refine ⟨⟨h.1, h.2.1, h.2.2⟩, hs, ?_, tilLit_value l, rfl⟩
    show (tilLit l).render ++ f.render ++ unitStr false .bracket = l.calc ++ f.calc ++ ['[', 'i', ']']
    congr 1
    cases f with
    | number m => rw [tilLit_calc he.1]; congr 1; exact plus_calc he.2 hm
    | bare s =>
      have hm : s = .plus := hm
      subst hm
      rw [tilLit_calc he]; rfl

/-! ### Text that is refused -/

theorem splitChar_head {sep : Char} {x : Str} (h : sep ∉ x) {y a : Str} {r : List Str} (hy : splitChar sep y = a :: r) :
    splitChar sep (x ++ y) = (x ++ a) :: r := by
  induction x with
  | nil => exact hy
  | cons c x ih =>
    simp only [List.mem_cons, not_or] at h
    rw [List.cons_append, splitChar, if_neg (Ne.symm h.1), ih h.2]
    rfl

theorem parseInt_minus {x y : Str} (h : Digits x) (hne : x ≠ []) : parseInt (x ++ '-' :: y) = .error .valueError := by
  match x, hne with
  | c :: x, _ =>
    have hc := h c (by simp)
    have h1 : c ≠ '-' := by rintro rfl; exact absurd hc (notDigit (by decide))
    have h2 : c ≠ '+' := by rintro rfl; exact absurd hc (notDigit (by decide))
    have := parseNat_odd (c := '-') (by decide) (s := c :: (x ++ '-' :: y)) (by simp)
    unfold parseInt
    rw [List.cons_append]
    split
    · next h => cases h; exact absurd rfl h1
    · next h => cases h; exact absurd rfl h2
    · rw [this]; rfl

/-- A sign of negation inside a number is refused. -/
theorem inner_minus {I F m : Str} {g : Sign} (hg : g = .none ∨ g = .tilde) (hI : Digits I) (hIne : I ≠ [])
    (hF : F = [] ∨ ∃ f, F = '.' :: f ∧ Digits f ∧ f ≠ []) (hm : ∀ c ∈ m, isDig c = true ∨ c = '.') :
    realParse (g.str ++ (I ++ (F ++ '~' :: m))) = .error .valueError := by
  have hdg : ∀ c, isDig c = true → 'A' ≤ c → False := by
    intro c hc hA
    have h1 := ((isDig_iff c).1 hc).2
    have h2 : 'A'.val ≤ c.val := hA
    have h3 : ('A'.val).toNat ≤ c.val.toNat := UInt32.le_iff_toNat_le.1 h2
    have h4 : c.val.toNat = c.toNat := rfl
    have h5 : ('A'.val).toNat = 65 := rfl
    omega
  have hchars : ∀ c ∈ g.str ++ (I ++ (F ++ '~' :: m)), isDig c = true ∨ c = '.' ∨ c = '~' := by
    intro c hc
    simp only [List.mem_append, List.mem_cons] at hc
    rcases hc with hc | hc | hc | hc | hc
    · rcases hg with rfl | rfl
      · cases hc
      · right; right; simpa [Sign.str] using hc
    · exact Or.inl ((isDig_iff c).2 (hI c hc))
    · rcases hF with rfl | ⟨f, rfl, hf, -⟩
      · cases hc
      · rcases List.mem_cons.1 hc with rfl | hc
        · exact Or.inr (Or.inl rfl)
        · exact Or.inl ((isDig_iff c).2 (hf c hc))
    · exact Or.inr (Or.inr hc)
    · exact (hm c hc).imp id Or.inl
  have hsq : squash (g.str ++ (I ++ (F ++ '~' :: m))) = g.str ++ (I ++ (F ++ '~' :: m)) := by
    unfold squash
    rw [List.filter_eq_self]
    intro c hc
    rcases hchars c hc with h | rfl | rfl
    · rw [isDig_not_space h]; rfl
    · decide
    · decide
  have hlow : lowerAscii (g.str ++ (I ++ (F ++ '~' :: m))) = g.str ++ (I ++ (F ++ '~' :: m)) := by
    unfold lowerAscii
    conv_rhs => rw [← List.map_id (g.str ++ (I ++ (F ++ '~' :: m)))]
    refine List.map_congr_left fun c hc => ?_
    rw [if_neg, id]
    rintro ⟨h1, h2⟩
    rcases hchars c hc with h | rfl | rfl
    · exact hdg c h h1
    · revert h1; decide
    · revert h2; decide
  have hdash : ∀ {s : Str}, '~' ∉ s → (s.flatMap fun c => if c = '~' then ['-'] else [c]) = s := flatMap_replace_of_not_mem
  have hIt : '~' ∉ I := digit_not hI (by decide)
  have hFt : '~' ∉ F := by
    rcases hF with rfl | ⟨f, rfl, hf, -⟩
    · simp
    · simp [digit_not hf (c := '~') (by decide)]
  have hmt : '~' ∉ m := by
    intro h
    rcases hm _ h with h | h
    · revert h; decide
    · revert h; decide
  obtain ⟨G, hG, hGs⟩ : ∃ G : Str, (g.str.flatMap fun c => if c = '~' then ['-'] else [c]) = G ∧ (G = [] ∨ G = ['-']) := by
    rcases hg with rfl | rfl
    · exact ⟨[], rfl, Or.inl rfl⟩
    · exact ⟨['-'], by decide, Or.inr rfl⟩
  have hrep : replaceStr ['~'] ['-'] (g.str ++ (I ++ (F ++ '~' :: m))) = G ++ (I ++ (F ++ '-' :: m)) := by
    rw [replaceStr_single, List.flatMap_append, List.flatMap_append, List.flatMap_append, List.flatMap_cons, hG, hdash hIt, hdash hFt, hdash hmt]
    rfl
  have hno : ∀ c, isDig c = false → c ≠ '.' → c ≠ '-' → c ∉ G ++ (I ++ (F ++ '-' :: m)) := by
    intro c h1 h2 h3 h
    simp only [List.mem_append, List.mem_cons] at h
    rcases h with h | h | h | h | h
    · rcases hGs with rfl | rfl
      · cases h
      · exact h3 (by simpa using h)
    · exact digit_not hI h1 h
    · rcases hF with rfl | ⟨f, rfl, hf, -⟩
      · cases h
      · rcases List.mem_cons.1 h with h | h
        · exact h2 h
        · exact digit_not hf h1 h
    · exact h3 h
    · rcases hm c h with h | h
      · rw [h] at h1; cases h1
      · exact h2 h
  -- the digits after the sign of negation
  obtain ⟨m', hn⟩ : ∃ m' : Str, 'e' ∉ m' ∧ ∃ neg, realNormalize (g.str ++ (I ++ (F ++ '~' :: m))) = (neg, I ++ (F ++ '-' :: m') ++ ['e', '0']) := by
    have hstrip : ∀ m' : Str, stripChars ['+', '-'] (G ++ (I ++ (F ++ '-' :: m')) ++ ['e', '0']) = I ++ (F ++ '-' :: m') ++ ['e', '0'] := by
      intro m'
      have hl : lstripChars ['+', '-'] (G ++ (I ++ (F ++ '-' :: m')) ++ ['e', '0']) = I ++ (F ++ '-' :: m') ++ ['e', '0'] := by
        match I, hIne with
        | c :: I, _ =>
          have hc := hI c (by simp)
          have h1 : c ≠ '-' := by rintro rfl; exact absurd hc (notDigit (by decide))
          have h2 : c ≠ '+' := by rintro rfl; exact absurd hc (notDigit (by decide))
          rcases hGs with rfl | rfl
          · simp [lstripChars, h1, h2]
          · simp [lstripChars, h1, h2]
      unfold stripChars
      rw [hl]
      unfold rstripChars
      rw [List.reverse_append]
      simp
    unfold realNormalize
    simp only
    rw [hsq, hlow, hrep, replaceStr_absent ['e'] (d := 'e') (by simp) (hno _ (by decide) (by decide) (by decide)),
      if_neg (hno _ (by decide) (by decide) (by decide))]
    have hme : 'e' ∉ m := by
      intro h
      rcases hm _ h with h | h
      · revert h; decide
      · revert h; decide
    split
    · exact ⟨m, hme, _, by rw [hstrip]⟩
    · refine ⟨m ++ ['.'], by simp [hme], startsWith ['-'] (G ++ (I ++ (F ++ '-' :: m)) ++ ['.', 'e'] ++ ['0']), ?_⟩
      have := replaceStr_once 'e' [] ['.', 'e'] (G ++ (I ++ (F ++ '-' :: m))) ['0'] (hno _ (by decide) (by decide) (by decide)) (by decide)
      rw [show G ++ (I ++ (F ++ '-' :: m)) ++ ['e', '0'] = G ++ (I ++ (F ++ '-' :: m)) ++ ['e'] ++ ['0'] by simp, this, ← hstrip]
      simp
  obtain ⟨hm'e, neg, hn⟩ := hn
  have hAe : 'e' ∉ I ++ (F ++ '-' :: m') := by
    have : 'e' ∉ F := by
      rcases hF with rfl | ⟨f, rfl, hf, -⟩
      · simp
      · simp [digit_not hf (c := 'e') (by decide)]
    simp [digit_not hI (c := 'e') (by decide), this, hm'e]
  have hsplit : splitChar 'e' (I ++ (F ++ '-' :: m') ++ ['e', '0']) = [I ++ (F ++ '-' :: m'), ['0']] := by
    rw [splitChar_append hAe]; rfl
  unfold realParse
  rw [hn]
  simp only [hsplit]
  rw [exceptOk_bind]
  simp only
  have hId : '.' ∉ I := digit_not hI (by decide)
  -- what is in front of the sign
  obtain ⟨a, r, har⟩ : ∃ a r, splitChar '.' m' = a :: r := by
    cases h : splitChar '.' m' with
    | nil => exact absurd h (splitChar_ne_nil _ _)
    | cons a r => exact ⟨a, r, rfl⟩
  have har' : splitChar '.' ('-' :: m') = ('-' :: a) :: r := splitChar_head (x := ['-']) (by decide) har
  have hz : ∀ {x y : Str}, Digits x → x ≠ [] → parseInt (orZero (x ++ '-' :: y)) = .error .valueError := by
    intro x y h1 h2
    unfold orZero
    rw [if_neg (by simp), parseInt_minus h1 h2]
  rcases hF with rfl | ⟨f, rfl, hf, hfne⟩
  · have h1 : splitChar '.' (I ++ ([] ++ '-' :: m')) = (I ++ '-' :: a) :: r := splitChar_head hId har'
    rw [h1]
    match r with
    | [] => rfl
    | b :: _ :: _ => rfl
    | [b] =>
      simp only
      rw [exceptOk_bind]
      simp only
      rw [hz hI hIne]
      rfl
  · have h1 : splitChar '.' (I ++ ('.' :: f ++ '-' :: m')) = I :: (f ++ '-' :: a) :: r := by
      rw [List.cons_append, splitChar_append hId, splitChar_head (digit_not hf (by decide)) har']
    rw [h1]
    match r with
    | b :: _ => rfl
    | [] =>
      simp only
      rw [exceptOk_bind]
      simp only
      cases hi : parseInt (orZero I) with
      | error x => rw [parseInt_error hi]; rfl
      | ok i => rw [exceptOk_bind, hz hf hfne]; rfl

/-- The real part loads, but the imaginary part is refused. -/
theorem loadComplex_refused {e : Ent} {re im : Bytes} {c c' : Cls} {t : Nat} (hb : e.body = ⟨true, re ++ im⟩)
    (hr : re.length = 9) (hi : im.length = 9) (hc : e.realClass = .ok c) (hc' : e.imagClass = .ok c')
    (ht : partCode c = some t) {s p q : Str} (hs : complexParts s = .ok (p, q))
    {b : UInt8} {v : Bytes} (hv : v.length = 8)
    (h1 : loadRealString c p ⟨true, clearFull c⟩ = ⟨.ok (), ⟨true, b :: v⟩, []⟩) {x : PyErr}
    (h2 : loadRealString c' q ⟨true, clearFull c'⟩ = ⟨.error x, ⟨true, clearFull c'⟩, []⟩) :
    loadComplexString s e = ⟨.error x, { e with body := ⟨true, (retag t b :: v) ++ im⟩ }, []⟩ := by
  obtain ⟨g1, g2, -, -⟩ := partCode_imagSubtype ht
  have hre : loadRealPart p e = ⟨.ok (), { e with body := ⟨true, (retag t b :: v) ++ im⟩ }, []⟩ := by
    unfold loadRealPart orRetry
    have : (do let e ← PyM.get; let c ← PyM.ofExcept e.realClass; newPutReal c p : PyM Ent Unit) e =
        ⟨.ok (), { e with body := ⟨true, (retag t b :: v) ++ im⟩ }, []⟩ := by
      rw [PyM.bind_ok (PyM.get_run e), PyM.bind_ok ((PyM.ofExcept_run _ _).trans (by rw [hc]))]
      unfold newPutReal
      rw [PyM.bind_ok (newReal_run h1 e), PyM.bind_ok (putReal_run g1 hb hr hi b v hv)]
      simp
    simp only [this]
  have hcl : imagClass { e with body := ⟨true, (retag t b :: v) ++ im⟩ } = .ok c' := by
    match im, hi with
    | a :: im, hi =>
      have hi' : im.length = 8 := by simpa using hi
      rw [← hc']
      unfold imagClass
      rw [imagSub_get (re := retag t b :: v) rfl (by simp [hv]) hi', imagSub_get hb hr hi']
  have him : loadImagPart q { e with body := ⟨true, (retag t b :: v) ++ im⟩ } =
      ⟨.error x, { e with body := ⟨true, (retag t b :: v) ++ im⟩ }, []⟩ := by
    unfold loadImagPart
    have hn : newReal c' q { e with body := ⟨true, (retag t b :: v) ++ im⟩ } =
        ⟨.error x, { e with body := ⟨true, (retag t b :: v) ++ im⟩ }, []⟩ := by
      unfold newReal
      simp only [h2]
    rw [PyM.bind_ok (PyM.get_run _), PyM.bind_ok ((PyM.ofExcept_run _ _).trans (by rw [hcl])), PyM.bind_error hn]
    simp
  unfold loadComplexString
  rw [PyM.bind_ok ((PyM.ofExcept_run _ _).trans (by rw [hs]))]
  show (loadRealPart p >>= fun _ => loadImagPart q) e = _
  rw [PyM.bind_ok hre, him]
  rfl

/-- A printed complex number with a nonzero real part and a negative imaginary part. -/
theorem minus_refused {c c' x x' : Int} (hc : c ≠ 0) (hc' : c' < 0) {e : Ent} {re im : Bytes} (hb : e.body = ⟨true, re ++ im⟩)
    (hr : re.length = 9) (hi : im.length = 9) (hcl : e.realClass = .ok .real) (hcl' : e.imagClass = .ok .real) :
    loadComplexString (printed c c' (printLit c x) (printLit c' x')).calc e =
      ⟨.error .valueError, { e with body := ⟨true, [0x0C, 0x80, 0, 0, 0, 0, 0, 0, 0] ++ im⟩ }, []⟩ := by
  have hl := printLit_spec c x
  have hl' := printLit_spec c' x'
  have hneg : (printLit c' x').sign.isNeg = true := by rw [printLit_neg (by omega)]; simpa using hc'
  obtain ⟨g, hg, hgs⟩ : ∃ g : Sign, (g = .none ∨ g = .tilde) ∧ (printLit c x).sign.calc = g.str := by
    rcases hl.sign with h | h
    · exact ⟨.none, Or.inl rfl, by rw [h]; rfl⟩
    · exact ⟨.tilde, Or.inr rfl, by rw [h]; rfl⟩
  have hF : (printLit c x).fracStr = [] ∨ ∃ f, (printLit c x).fracStr = '.' :: f ∧ Digits f ∧ f ≠ [] := by
    unfold Literal.fracStr
    cases h : (printLit c x).frac with
    | none => exact Or.inl rfl
    | some f => exact Or.inr ⟨f, rfl, hl.valid.2.1 f h, printLit_frac c x f h⟩
  obtain ⟨m, hm, hcalc⟩ : ∃ m : Str, (∀ a ∈ m, isDig a = true ∨ a = '.') ∧
      (printed c c' (printLit c x) (printLit c' x')).calc =
        g.str ++ ((printLit c x).int ++ ((printLit c x).fracStr ++ '~' :: m)) ++ ['[', 'i', ']'] := by
    unfold printed
    rw [if_neg (by omega), if_neg hc, hneg]
    split
    · refine ⟨[], by simp, ?_⟩
      show (printLit c x).calc ++ ['~'] ++ _ = _
      rw [calc_lit hl, hgs]
      simp
    · refine ⟨(printLit c' x').int ++ (printLit c' x').fracStr, ?_, ?_⟩
      · intro a ha
        rcases List.mem_append.1 ha with ha | ha
        · exact Or.inl ((isDig_iff a).2 (hl'.valid.1 a ha))
        · unfold Literal.fracStr at ha
          split at ha
          · cases ha
          · next f hf =>
            rcases List.mem_cons.1 ha with h | ha
            · exact Or.inr h
            · exact Or.inl ((isDig_iff a).2 (hl'.valid.2.1 f hf a ha))
      · have h1 : (resign .minus (printLit c' x')).calc = ['~'] ++ (printLit c' x').int ++ (printLit c' x').fracStr := by
          unfold Literal.calc
          rw [show (resign .minus (printLit c' x')).exp = none from hl'.exp]
          simp [resign, Sign.calc, Literal.fracStr]
        show (printLit c x).calc ++ (resign .minus (printLit c' x')).calc ++ _ = _
        rw [calc_lit hl, hgs, h1]
        simp
  have hpl : PlainText (g.str ++ ((printLit c x).int ++ ((printLit c x).fracStr ++ '~' :: m))) := by
    refine plain_append ?_ (plain_append (plain_digits hl.valid.1) (plain_append (plain_frac hl.valid) ?_))
    · rcases hg with rfl | rfl <;> (intro c hc; revert c; decide)
    · intro a ha
      rcases List.mem_cons.1 ha with rfl | ha
      · decide
      · rcases hm a ha with h | rfl
        · refine ⟨?_, ?_, ?_, ?_, ?_, ?_⟩ <;> rintro rfl <;> revert h <;> decide
        · decide
  have hsq : ∀ {s : Str}, PlainText s → (∀ a ∈ s, isSpaceChar a = false) → squash (s ++ ['[', 'i', ']']) = s ++ ['[', 'i', ']'] := by
    intro s _ h
    unfold squash
    rw [List.filter_eq_self]
    intro a ha
    rcases List.mem_append.1 ha with ha | ha
    · rw [h a ha]; rfl
    · simp only [List.mem_cons, List.not_mem_nil, or_false] at ha
      rcases ha with rfl | rfl | rfl <;> decide
  have hspace : ∀ a ∈ g.str ++ ((printLit c x).int ++ ((printLit c x).fracStr ++ '~' :: m)), isSpaceChar a = false := by
    intro a ha
    simp only [List.mem_append, List.mem_cons] at ha
    have hd : ∀ a, isDig a = true → isSpaceChar a = false := fun a h => isDig_not_space h
    rcases ha with ha | ha | ha | ha | ha
    · rcases hg with rfl | rfl
      · cases ha
      · rw [show a = '~' by simpa [Sign.str] using ha]; decide
    · exact hd a ((isDig_iff a).2 (hl.valid.1 a ha))
    · rcases hF with h | ⟨f, h, hf, -⟩
      · rw [h] at ha; cases ha
      · rw [h] at ha
        rcases List.mem_cons.1 ha with rfl | ha
        · decide
        · exact hd a ((isDig_iff a).2 (hf a ha))
    · rw [ha]; decide
    · rcases hm a ha with h | rfl
      · exact hd a h
      · decide
  have hparts := complexParts_im .none (q := g.str ++ ((printLit c x).int ++ ((printLit c x).fracStr ++ '~' :: m))) (r := []) hpl
    (by intro c hc; cases hc) false .bracket (s := (printed c c' (printLit c x) (printLit c' x')).calc)
    (by rw [hcalc, hsq hpl hspace]; simp [Lead.str, unitStr, ImagUnit.str])
  rw [show Lead.keep .none ++ (g.str ++ ((printLit c x).int ++ ((printLit c x).fracStr ++ '~' :: m))) ++ [] =
      g.str ++ ((printLit c x).int ++ ((printLit c x).fracStr ++ '~' :: m)) by simp [Lead.keep]] at hparts
  unfold complexParts.orOne at hparts
  rw [if_neg (by simp)] at hparts
  have := loadComplex_refused (t := 0x0C) hb hr hi hcl hcl' (by decide) hparts
    (b := 0) (v := [0x80, 0, 0, 0, 0, 0, 0, 0]) (by decide) (by decide) (x := .valueError) (by
      show realLoadString _ _ = _
      unfold realLoadString
      rw [if_neg (by simp), inner_minus hg hl.valid.1 hl.int hF hm]
      rfl)
  rw [this]
  rfl

end Verif
