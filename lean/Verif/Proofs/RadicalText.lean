import Verif.Model.Radical
import Verif.Proofs.RealText
import Verif.Props.Radical
import Verif.Spec.RadicalText

/-! Lemmas about the text of radicals. -/

namespace Verif
open Spec

/-! ### Normalisation -/

theorem replaceStr_go_fuel (a : Char) (as new : Str) (n : Nat) : ∀ (s : Str), s.length ≤ n → ∀ fuel, s.length ≤ fuel →
    replaceStr.go (a :: as) new s fuel = replaceStr.go (a :: as) new s s.length := by
  induction n with
  | zero =>
    intro s hs fuel _
    have : s = [] := by simpa using hs
    subst this
    rw [replaceStr_go_nil, replaceStr_go_nil]
  | succ n ih =>
    intro s hs fuel hf
    cases s with
    | nil => rw [replaceStr_go_nil, replaceStr_go_nil]
    | cons c cs =>
      cases fuel with
      | zero => simp at hf
      | succ fuel =>
        simp only [List.length_cons] at hs hf ⊢
        have hd : ((c :: cs).drop (a :: as).length).length ≤ cs.length := by
          rw [List.length_drop]; simp
        rw [replaceStr.go, replaceStr.go, ih cs (by omega) fuel (by omega),
          ih _ (by omega) fuel (by omega), ih ((c :: cs).drop (a :: as).length) (by omega) cs.length (by omega)]

/-- Replacing the word by the sign. -/
def radR (s : Str) : Str := replaceStr ['s', 'q', 'r', 't'] ['√'] s

theorem radR_skip {a : Str} (h : 's' ∉ a) (b : Str) : radR (a ++ b) = a ++ radR b := by
  unfold radR replaceStr
  rw [replaceStr_go_skip _ _ _ _ _ h _ (Nat.le_refl _)]
  simp

theorem radR_word (b : Str) : radR (['s', 'q', 'r', 't'] ++ b) = '√' :: radR b := by
  unfold radR replaceStr
  simp only [List.cons_append, List.nil_append, List.length_cons]
  rw [replaceStr.go]
  have h : List.isPrefixOf ['s', 'q', 'r', 't'] ('s' :: 'q' :: 'r' :: 't' :: b) = true := by simp [List.isPrefixOf]
  rw [if_pos h]
  simp only [List.length_cons, List.length_nil, List.drop_succ_cons, List.drop_zero, List.cons_append, List.nil_append]
  rw [replaceStr_go_fuel _ _ _ b.length b (Nat.le_refl _) _ (by omega)]

/-- The replacements of single characters before that. -/
def radG (c : Char) : Str := if c = '(' ∨ c = ')' ∨ c = '*' then [] else if c = '~' then ['-'] else [c]

/-- The one after that. -/
def radH (c : Char) : Str := if c = '-' then ['+', '-'] else [c]

def norm0 (s : Str) : Str := (radR (s.flatMap radG)).flatMap radH

theorem radNormalize_eq (s : Str) : radNormalize s = lstripChars ['+'] (norm0 (squash s)) := by
  unfold radNormalize norm0
  have h : replaceStr ['~'] ['-'] (replaceStr ['*'] [] (replaceStr [')'] [] (replaceStr ['('] [] (squash s)))) =
      (squash s).flatMap radG := by
    simp only [replaceStr_single, List.flatMap_assoc]
    congr 1
    funext c
    unfold radG
    by_cases h1 : c = '('
    · simp [h1]
    by_cases h2 : c = ')'
    · simp [h2]
    by_cases h3 : c = '*'
    · simp [h3]
    by_cases h4 : c = '~'
    · simp [h4]
    simp [h1, h2, h3, h4]
  rw [h, replaceStr_single '-']
  rfl

theorem norm0_nil : norm0 [] = [] := rfl

theorem norm0_cons {c : Char} (h : c ≠ 's') (b : Str) : norm0 (c :: b) = (radG c).flatMap radH ++ norm0 b := by
  have : 's' ∉ radG c := by
    unfold radG
    split
    · simp
    · split
      · decide
      · simpa using fun e => h e.symm
  unfold norm0
  rw [List.flatMap_cons, radR_skip this, List.flatMap_append]

theorem notDigit {c : Char} (h : isDig c = false) : ¬ IsDigit c := fun hc => by
  rw [(isDig_iff c).2 hc] at h
  cases h

theorem norm0_digits {d : Str} (h : Digits d) (b : Str) : norm0 (d ++ b) = d ++ norm0 b := by
  induction d with
  | nil => rfl
  | cons c cs ih =>
    have hc : IsDigit c := h c (by simp)
    have hne : ∀ x : Char, ¬ IsDigit x → c ≠ x := fun x hx e => hx (e ▸ hc)
    have n1 := hne '(' (notDigit (by decide))
    have n2 := hne ')' (notDigit (by decide))
    have n3 := hne '*' (notDigit (by decide))
    have n4 := hne '~' (notDigit (by decide))
    have n5 := hne '-' (notDigit (by decide))
    rw [List.cons_append, norm0_cons (hne 's' (notDigit (by decide))), ih fun x hx => h x (by simp [hx])]
    simp [radG, radH, n1, n2, n3, n4, n5]

theorem norm0_word (b : Str) : norm0 ('s' :: 'q' :: 'r' :: 't' :: b) = '√' :: norm0 b := by
  have h : ('s' :: 'q' :: 'r' :: 't' :: b).flatMap radG = ['s', 'q', 'r', 't'] ++ b.flatMap radG := by
    simp [radG]
  unfold norm0
  rw [h, radR_word, List.flatMap_cons]
  simp [radH]

/-- A sign after normalisation. -/
def signN : Sign → Str
  | .none => []
  | .plus => ['+']
  | _ => ['+', '-']

theorem norm0_sign (s : Sign) (b : Str) : norm0 (s.str ++ b) = signN s ++ norm0 b := by
  cases s
  · rfl
  all_goals
    simp only [Sign.str, List.cons_append, List.nil_append]
    rw [norm0_cons (by decide)]
    simp [radG, radH, signN]

theorem norm0_drop {c : Char} (h : c = '(' ∨ c = ')' ∨ c = '*') (b : Str) : norm0 (c :: b) = norm0 b := by
  rw [norm0_cons (by rcases h with rfl | rfl | rfl <;> decide)]
  simp [radG, h]

theorem norm0_slash (b : Str) : norm0 ('/' :: b) = '/' :: norm0 b := by
  rw [norm0_cons (by decide)]
  simp [radG, radH]

theorem norm0_surd (b : Str) : norm0 ('√' :: b) = '√' :: norm0 b := by
  rw [norm0_cons (by decide)]
  simp [radG, radH]

theorem norm0_root {r : Root} (h : Digits r.digits) (b : Str) : norm0 (r.render ++ b) = '√' :: (r.digits ++ norm0 b) := by
  unfold Root.render
  have hd : norm0 ((if r.paren then '(' :: r.digits ++ [')'] else r.digits) ++ b) = r.digits ++ norm0 b := by
    split
    · rw [List.append_assoc, List.cons_append, norm0_drop (by simp), norm0_digits h, List.cons_append, norm0_drop (by simp)]
      rfl
    · rw [norm0_digits h]
  have hw : norm0 ((if r.word then ['s', 'q', 'r', 't'] else ['√']) ++
      ((if r.paren then '(' :: r.digits ++ [')'] else r.digits) ++ b)) = '√' :: (r.digits ++ norm0 b) := by
    split
    · simp only [List.cons_append, List.nil_append] at hd ⊢
      rw [norm0_word, hd]
    · simp only [List.cons_append, List.nil_append] at hd ⊢
      rw [norm0_surd, hd]
  rw [List.append_assoc, List.append_assoc]
  split
  · rw [List.cons_append, norm0_drop (by simp)]
    exact hw
  · exact hw

/-- The root after normalisation. -/
def rootN (t : RadTerm) : Str :=
  match t.root with
  | none => []
  | some r => '√' :: r.digits

theorem norm0_term {t : RadTerm} (h : t.Valid) (b : Str) :
    norm0 (t.render ++ b) = signN t.sign ++ (t.scalar ++ (rootN t ++ norm0 b)) := by
  unfold RadTerm.render RadTerm.rootStr rootN
  rw [List.append_assoc, List.append_assoc, norm0_sign, norm0_digits h.1]
  cases hr : t.root with
  | none => rfl
  | some r =>
    simp only
    rw [norm0_root (h.2.2 r hr).1]
    rfl

/-- A summand as it is read, without plus sign. -/
def bodyN (t : RadTerm) : Str := (if t.sign.isNeg then ['-'] else []) ++ (t.scalar ++ rootN t)

def secondN (t : RadText) : Str :=
  match t.second with
  | none => []
  | some u => '+' :: bodyN u

def denN (t : RadText) : Str :=
  match t.den with
  | none => []
  | some (s, d) => '/' :: (signN s ++ d)

theorem signN_body {s : Sign} (hs : s ≠ .none) (x : Str) : signN s ++ x = '+' :: ((if s.isNeg then ['-'] else []) ++ x) := by
  cases s <;> simp_all [signN, Sign.isNeg]

theorem digit_ne {d : Str} (h : Digits d) {x : Char} (hx : ¬ IsDigit x) : x ∉ d := fun hm => hx (h x hm)

theorem lstrip_body {t : RadTerm} (h : t.Valid) (x : Str) :
    lstripChars ['+'] (signN t.sign ++ (t.scalar ++ (rootN t ++ x))) = bodyN t ++ x := by
  have hrest : ∀ y, t.scalar ++ (rootN t ++ x) = '+' :: y → False := by
    intro y hy
    rcases hsc : t.scalar with _ | ⟨c, cs⟩
    · rw [hsc] at hy
      unfold rootN at hy
      rcases hr : t.root with _ | r
      · exact h.2.1 hr hsc
      · rw [hr] at hy
        simp at hy
    · rw [hsc] at hy
      simp only [List.cons_append, List.cons.injEq] at hy
      have : IsDigit c := h.1 c (by rw [hsc]; simp)
      rw [hy.1] at this
      exact notDigit (by decide) this
  have hst : ∀ y : Str, (∀ z, y = '+' :: z → False) → lstripChars ['+'] y = y := by
    intro y hy
    unfold lstripChars
    rcases y with _ | ⟨c, cs⟩
    · rfl
    · rw [List.dropWhile_cons_of_neg]
      intro hc
      simp at hc
      exact hy cs (by rw [hc])
  unfold bodyN
  have hplus : ∀ y, lstripChars ['+'] ('+' :: y) = lstripChars ['+'] y := fun y => rfl
  cases hs : t.sign with
  | none => simp only [signN, Sign.isNeg, List.nil_append]; rw [hst _ hrest]; simp
  | plus => simp only [signN, Sign.isNeg, List.nil_append, List.cons_append]; rw [hplus, hst _ hrest]; simp
  | minus =>
    simp only [signN, Sign.isNeg, List.nil_append, List.cons_append]
    rw [hplus, hst _ (by intro z hz; simp at hz)]; simp
  | tilde =>
    simp only [signN, Sign.isNeg, List.nil_append, List.cons_append]
    rw [hplus, hst _ (by intro z hz; simp at hz)]; simp

theorem norm0_text {t : RadText} (h : t.Valid) :
    norm0 t.render = signN t.first.sign ++ (t.first.scalar ++ (rootN t.first ++ (secondN t ++ denN t))) := by
  have hden : norm0 t.denStr = denN t := by
    unfold denN RadText.denStr
    rcases hd : t.den with _ | ⟨s, d⟩
    · rfl
    · simp only [List.cons_append]
      rw [norm0_slash, norm0_sign]
      have := norm0_digits (h.2.2 s d hd).1 []
      rw [List.append_nil, norm0_nil, List.append_nil] at this
      rw [this]
  have hsum : ∀ b, norm0 (t.sum ++ b) =
      signN t.first.sign ++ (t.first.scalar ++ (rootN t.first ++ (secondN t ++ norm0 b))) := by
    intro b
    unfold RadText.sum RadText.secondStr secondN
    rcases hu : t.second with _ | u
    · simp only [List.append_nil, List.nil_append]
      rw [norm0_term h.1]
    · simp only
      rw [List.append_assoc, norm0_term h.1, norm0_term (h.2.1 u hu).1, signN_body (h.2.1 u hu).2]
      simp [bodyN]
  unfold RadText.render
  split
  · rw [List.append_assoc, List.cons_append, norm0_drop (by simp), hsum, List.cons_append, norm0_drop (by simp)]
    rw [List.nil_append, hden]
  · rw [hsum, hden]

theorem radNormalize_text {t : RadText} (h : t.Valid) {s : Str} (hs : squash s = t.render) :
    radNormalize s = bodyN t.first ++ (secondN t ++ denN t) := by
  rw [radNormalize_eq, hs, norm0_text h, lstrip_body h.1]

/-! ### Summands -/

theorem parseInt_sign {d : Str} (h : Digits d) (hne : d ≠ []) (neg : Bool) :
    parseInt ((if neg then ['-'] else []) ++ d) = .ok ((if neg then -1 else 1) * (digitsValue d : Int)) := by
  have hd := (digits_iff d).2 h
  cases neg
  · rw [if_neg (by decide), List.nil_append, parseInt_of_digits hd hne, digitsValue_eq]
    simp
  · rw [if_pos rfl]
    show (parseNat d).map _ = _
    rw [parseNat_of_digits hd hne, digitsValue_eq]
    simp [Except.map]

theorem rstrip_digits {d : Str} (h : Digits d) (hne : d ≠ []) (a : Str) : rstripChars ['+', '-'] (a ++ d) ≠ [] := by
  rcases d with _ | ⟨c, cs⟩
  · exact absurd rfl hne
  · have hc : IsDigit c := h c (by simp)
    rw [rstrip_keep _ _ _ _ (by
      intro hm
      simp only [List.mem_cons, List.not_mem_nil, or_false] at hm
      rcases hm with rfl | rfl <;> exact notDigit (by decide) hc)]
    simp

/-- The factor as text. -/
def factorN (t : RadTerm) : Str := (if t.sign.isNeg then ['-'] else []) ++ t.scalar

theorem factor_parse {t : RadTerm} (h : t.Valid) :
    parseInt (if rstripChars ['+', '-'] (factorN t) ≠ [] then factorN t else factorN t ++ ['1']) = .ok t.factor := by
  unfold factorN RadTerm.factor
  by_cases hs : t.scalar = []
  · rw [hs]
    cases t.sign <;> decide
  · rw [if_pos (rstrip_digits h.1 hs _), parseInt_sign h.1 hs, if_neg hs]

theorem factorN_mem {t : RadTerm} (h : t.Valid) {c : Char} (hc : isDig c = false) (hm : c ≠ '-') : c ∉ factorN t := by
  unfold factorN
  rw [List.mem_append, not_or]
  refine ⟨?_, digit_ne h.1 (notDigit hc)⟩
  split <;> simp [hm]

theorem bodyN_eq (t : RadTerm) : bodyN t = factorN t ++ rootN t := by simp [bodyN, factorN]

theorem bodyN_mem {t : RadTerm} (h : t.Valid) {c : Char} (hc : isDig c = false) (hm : c ≠ '-') (hr : c ≠ '√') : c ∉ bodyN t := by
  rw [bodyN_eq, List.mem_append, not_or]
  refine ⟨factorN_mem h hc hm, ?_⟩
  unfold rootN
  rcases hr' : t.root with _ | r
  · simp
  · simp only [List.mem_cons, hr, false_or]
    exact digit_ne (h.2.2 r hr').1 (notDigit hc)

theorem bodyN_root {t : RadTerm} (h : t.Valid) : '√' ∈ bodyN t ↔ t.root ≠ none := by
  rw [bodyN_eq, List.mem_append]
  have := factorN_mem h (c := '√') (by decide) (by decide)
  unfold rootN
  rcases hr : t.root with _ | r <;> simp [this]

theorem radTerm_mk {a d : Str} (ha : '√' ∉ a) (hd : '√' ∉ d) {x y : Int}
    (hx : parseInt (if rstripChars ['+', '-'] a ≠ [] then a else a ++ ['1']) = .ok x) (hy : parseInt d = .ok y) :
    radTerm (a ++ '√' :: d) = .ok (x, y) := by
  unfold radTerm
  rw [if_pos (by simp)]
  simp only [splitChar_append ha, splitChar_of_not_mem hd, hx, hy]
  rfl

theorem radTerm_body {t : RadTerm} (h : t.Valid) : radTerm (bodyN t) = .ok (t.factor, (t.radicand : Int)) := by
  have hf := factorN_mem h (c := '√') (by decide) (by decide)
  rcases hr : t.root with _ | r
  · have hb : bodyN t = factorN t := by rw [bodyN_eq, rootN, hr]; simp
    have h1 : radTerm (bodyN t) = radTerm (factorN t ++ '√' :: ['1']) := by
      have hn : '√' ∉ bodyN t := by rw [bodyN_root h, hr]; simp
      unfold radTerm
      rw [if_neg hn, if_pos (by simp), hb]
    rw [h1, radTerm_mk hf (by decide) (factor_parse h) (show parseInt ['1'] = .ok 1 by decide), RadTerm.radicand, hr]
    rfl
  · have hd := h.2.2 r hr
    have hb : bodyN t = factorN t ++ '√' :: r.digits := by rw [bodyN_eq, rootN, hr]
    rw [hb, radTerm_mk hf (digit_ne hd.1 (notDigit (by decide))) (factor_parse h)
      (by rw [parseInt_of_digits ((digits_iff _).2 hd.1) hd.2]), RadTerm.radicand, hr]
    simp only [digitsValue_eq]

/-! ### The whole text -/

theorem radParse_split {s l r D : Str} (hdot : '.' ∉ radNormalize s)
    (hc : radComplete (radNormalize s) = l ++ '+' :: r ++ '/' :: D) (hl : '/' ∉ l) (hr : '/' ∉ r) (hD : '/' ∉ D)
    (hl' : '+' ∉ l) (hr' : '+' ∉ r) {ls lr rs rr d : Int} (h1 : radTerm l = .ok (ls, lr)) (h2 : radTerm r = .ok (rs, rr))
    (h3 : parseInt (lstripChars ['+'] D) = .ok d) : radParse s = radCore ls lr rs rr d := by
  unfold radParse
  have hm : '/' ∉ l ++ '+' :: r := by
    simp only [List.mem_append, List.mem_cons, not_or]
    exact ⟨hl, by decide, hr⟩
  simp only [if_neg hdot, hc, splitChar_append hm, splitChar_of_not_mem hD, splitChar_append hl', splitChar_of_not_mem hr',
    h1, h2, h3]

/-- The denominator as text. -/
def denText (t : RadText) : Str :=
  match t.den with
  | none => ['1']
  | some (s, d) => signN s ++ d

theorem digits_ne_nil {d : Str} (h : digitsValue d ≠ 0) : d ≠ [] := by
  rintro rfl
  exact h rfl

theorem denText_parse {t : RadText} (h : t.Valid) : parseInt (lstripChars ['+'] (denText t)) = .ok t.denominator := by
  unfold denText RadText.denominator
  rcases hd : t.den with _ | ⟨s, d⟩
  · decide
  · obtain ⟨h1, h2⟩ := h.2.2 s d hd
    have hne := digits_ne_nil h2
    have := parseInt_sign h1 hne s.isNeg
    simp only
    rw [← this]
    congr 1
    have hst : lstripChars ['+'] d = d := by
      rcases d with _ | ⟨c, cs⟩
      · rfl
      · unfold lstripChars
        rw [List.dropWhile_cons_of_neg]
        intro hc
        simp at hc
        exact notDigit (c := c) (by rw [hc]; decide) (h1 c (by simp))
    cases s
    · simpa [signN, Sign.isNeg] using hst
    · simpa [signN, Sign.isNeg, lstripChars] using hst
    · simp [signN, Sign.isNeg, lstripChars]
    · simp [signN, Sign.isNeg, lstripChars]

theorem denText_mem {t : RadText} (h : t.Valid) {c : Char} (hc : isDig c = false) (hm : c ≠ '-') (hp : c ≠ '+') : c ∉ denText t := by
  unfold denText
  rcases hd : t.den with _ | ⟨s, d⟩
  · intro hx
    simp at hx
    rw [hx] at hc
    revert hc; decide
  · simp only [List.mem_append, not_or]
    refine ⟨?_, digit_ne (h.2.2 s d hd).1 (notDigit hc)⟩
    cases s <;> simp [signN, hm, hp]

/-- The sum as text. -/
def sumN (t : RadText) : Str := bodyN t.first ++ secondN t

theorem sumN_mem {t : RadText} (h : t.Valid) {c : Char} (hc : isDig c = false) (hm : c ≠ '-') (hp : c ≠ '+') (hr : c ≠ '√') :
    c ∉ sumN t := by
  unfold sumN secondN
  rw [List.mem_append, not_or]
  refine ⟨bodyN_mem h.1 hc hm hr, ?_⟩
  rcases hu : t.second with _ | u
  · simp
  · simp only [List.mem_cons, not_or]
    exact ⟨hp, bodyN_mem (h.2.1 u hu).1 hc hm hr⟩

theorem radNormalize_dot {t : RadText} (h : t.Valid) {s : Str} (hs : squash s = t.render) : '.' ∉ radNormalize s := by
  rw [radNormalize_text h hs, ← List.append_assoc, List.mem_append, not_or]
  refine ⟨sumN_mem h (by decide) (by decide) (by decide) (by decide), ?_⟩
  have := denText_mem h (c := '.') (by decide) (by decide) (by decide)
  unfold denText at this
  unfold denN
  rcases hd : t.den with _ | ⟨s, d⟩
  · simp
  · rw [hd] at this
    simpa using this

theorem replaceStr_slash {a d new : Str} (ha : '/' ∉ a) (hd : '/' ∉ d) :
    replaceStr ['/'] new (a ++ '/' :: d) = a ++ new ++ d := by
  have := replaceStr_once '/' [] new a d ha hd
  rw [← this]
  simp

/-- The text after the denominator has been added. -/
theorem radComplete_den {t : RadText} (h : t.Valid) {s : Str} (hs : squash s = t.render) :
    radOver (radNormalize s) = sumN t ++ '/' :: denText t := by
  have hsl := sumN_mem h (c := '/') (by decide) (by decide) (by decide) (by decide)
  rw [radNormalize_text h hs, ← List.append_assoc]
  change radOver (sumN t ++ denN t) = _
  unfold radOver denN denText
  rcases hd : t.den with _ | ⟨s, d⟩
  · simp [hsl]
  · simp

theorem radParse_text {t : RadText} (h : t.Valid) (hroots : ∀ u, t.second = some u → t.first.root = none → u.root ≠ none)
    (hsign : ∀ s d, t.second = none → t.first.root ≠ none → t.den = some (s, d) → s = .none) {s : Str}
    (hs : squash s = t.render) :
    radParse s = radCore t.first.factor t.first.radicand t.factor2 t.radicand2 t.denominator ∨
    radParse s = radCore t.factor2 t.radicand2 t.first.factor t.first.radicand t.denominator := by
  have hdot := radNormalize_dot h hs
  have hsl := sumN_mem h (c := '/') (by decide) (by decide) (by decide) (by decide)
  have hDs := denText_mem h (c := '/') (by decide) (by decide) (by decide)
  have hDr := denText_mem h (c := '√') (by decide) (by decide) (by decide)
  have hden := denText_parse h
  have h1 := radTerm_body h.1
  have h01 : radTerm ['0', '√', '1'] = .ok (0, 1) := by decide
  have hb1 := bodyN_mem h.1 (c := '/') (by decide) (by decide) (by decide)
  have hb2 := bodyN_mem h.1 (c := '+') (by decide) (by decide) (by decide)
  have hcomp : radComplete (radNormalize s) = radFill (sumN t ++ '/' :: denText t) := by
    rw [radComplete, radComplete_den h hs]
  unfold radFill at hcomp
  simp only at hcomp
  rcases hu : t.second with _ | u
  · have hsum : sumN t = bodyN t.first := by simp [sumN, secondN, hu]
    have hf : t.factor2 = 0 := by rw [RadText.factor2, hu]
    have hr : t.radicand2 = 1 := by rw [RadText.radicand2, hu]
    rw [hf, hr]
    by_cases hroot : t.first.root = none
    · right
      have hn : '√' ∉ sumN t ++ '/' :: denText t := by
        rw [hsum, List.mem_append, not_or, bodyN_root h.1]
        simp [hroot, hDr]
      have hn' : '/' ∉ ['0', '√', '1', '+'] ++ sumN t := by
        rw [List.mem_append, not_or]
        exact ⟨by decide, hsl⟩
      rw [if_neg hn, ← List.append_assoc, replaceStr_slash hn' hDs, if_pos (by simp)] at hcomp
      have h2 : radTerm (bodyN t.first ++ ['√', '1']) = radTerm (bodyN t.first) := by
        have : '√' ∉ bodyN t.first := by rw [bodyN_root h.1]; simp [hroot]
        unfold radTerm
        rw [if_neg this, if_pos (by simp)]
      refine radParse_split hdot (l := ['0', '√', '1']) (r := bodyN t.first ++ ['√', '1']) (D := denText t)
        (by rw [hcomp, hsum]; simp) (by decide) ?_ hDs (by decide) ?_ h01 (by rw [h2, h1]) hden
      · rw [List.mem_append, not_or]; exact ⟨hb1, by decide⟩
      · rw [List.mem_append, not_or]; exact ⟨hb2, by decide⟩
    · left
      have hy : '√' ∈ sumN t ++ '/' :: denText t := by
        rw [hsum, List.mem_append, bodyN_root h.1]
        exact Or.inl hroot
      have hDp : '+' ∉ denText t := by
        unfold denText
        rcases hd : t.den with _ | ⟨g, d⟩
        · decide
        · have := hsign g d hu hroot hd
          subst this
          simpa [signN] using digit_ne (h.2.2 _ d hd).1 (notDigit (c := '+') (by decide))
      have hn : '+' ∉ sumN t ++ '/' :: denText t := by
        rw [hsum, List.mem_append, not_or, List.mem_cons, not_or]
        exact ⟨hb2, by decide, hDp⟩
      rw [if_pos hy, if_neg hn, replaceStr_slash hsl hDs] at hcomp
      exact radParse_split hdot (l := bodyN t.first) (r := ['0', '√', '1']) (D := denText t)
        (by rw [hcomp, hsum]; simp) hb1 (by decide) hDs hb2 (by decide) h1 h01 hden
  · left
    have hf : t.factor2 = u.factor := by rw [RadText.factor2, hu]
    have hr : t.radicand2 = u.radicand := by rw [RadText.radicand2, hu]
    rw [hf, hr]
    have hsum : sumN t = bodyN t.first ++ '+' :: bodyN u := by simp [sumN, secondN, hu]
    have hv := (h.2.1 u hu).1
    have hy : '√' ∈ sumN t ++ '/' :: denText t := by
      rw [hsum]
      by_cases hroot : t.first.root = none
      · have := (bodyN_root hv).2 (hroots u hu hroot)
        simp [this]
      · have := (bodyN_root h.1).2 hroot
        simp [this]
    rw [if_pos hy, if_pos (by rw [hsum]; simp)] at hcomp
    exact radParse_split hdot (l := bodyN t.first) (r := bodyN u) (D := denText t)
      (by rw [hcomp, hsum]) hb1 (bodyN_mem hv (by decide) (by decide) (by decide)) hDs hb2
      (bodyN_mem hv (by decide) (by decide) (by decide)) h1 (radTerm_body hv) hden

theorem radParse_noRoots {t : RadText} (h : t.Valid) {u : RadTerm} (hu : t.second = some u) (h1 : t.first.root = none)
    (h2 : u.root = none) {s : Str} (hs : squash s = t.render) : radParse s = .error .valueError := by
  have hv := (h.2.1 u hu).1
  have hDs := denText_mem h (c := '/') (by decide) (by decide) (by decide)
  have hDr := denText_mem h (c := '√') (by decide) (by decide) (by decide)
  have hsl := sumN_mem h (c := '/') (by decide) (by decide) (by decide) (by decide)
  have hsum : sumN t = bodyN t.first ++ '+' :: bodyN u := by simp [sumN, secondN, hu]
  have hn : '√' ∉ sumN t ++ '/' :: denText t := by
    rw [hsum]
    simp [bodyN_root h.1, bodyN_root hv, h1, h2, hDr]
  have hn' : '/' ∉ ['0', '√', '1', '+'] ++ sumN t := by
    rw [List.mem_append, not_or]
    exact ⟨by decide, hsl⟩
  have hcomp : radComplete (radNormalize s) = ['0', '√', '1', '+'] ++ sumN t ++ ['√', '1', '/'] ++ denText t := by
    rw [radComplete, radComplete_den h hs, radFill, if_neg hn, ← List.append_assoc, replaceStr_slash hn' hDs]
    rw [if_pos (by simp)]
  have e1 : ['0', '√', '1', '+'] ++ sumN t ++ ['√', '1', '/'] ++ denText t =
      (['0', '√', '1', '+'] ++ sumN t ++ ['√', '1']) ++ '/' :: denText t := by simp
  have e2 : ['0', '√', '1', '+'] ++ sumN t ++ ['√', '1'] = ['0', '√', '1'] ++ '+' :: (bodyN t.first ++ '+' :: (bodyN u ++ ['√', '1'])) := by
    rw [hsum]; simp
  have hm : '/' ∉ ['0', '√', '1', '+'] ++ sumN t ++ ['√', '1'] := by
    rw [List.mem_append, not_or]
    exact ⟨hn', by decide⟩
  unfold radParse
  simp only [if_neg (radNormalize_dot h hs), hcomp, e1, splitChar_append hm, splitChar_of_not_mem hDs]
  rw [e2, splitChar_append (by decide), splitChar_append (bodyN_mem h.1 (by decide) (by decide) (by decide)),
    splitChar_of_not_mem]
  rw [List.mem_append, not_or]
  exact ⟨bodyN_mem hv (by decide) (by decide) (by decide), by decide⟩

theorem radParse_signedDen {t : RadText} (h : t.Valid) (hu : t.second = none) (h1 : t.first.root ≠ none) {g : Sign} {d : Str}
    (hd : t.den = some (g, d)) (hg : g ≠ .none) {s : Str} (hs : squash s = t.render) : radParse s = .error .valueError := by
  have hDs := denText_mem h (c := '/') (by decide) (by decide) (by decide)
  have hsl := sumN_mem h (c := '/') (by decide) (by decide) (by decide) (by decide)
  have hsum : sumN t = bodyN t.first := by simp [sumN, secondN, hu]
  have hy : '√' ∈ sumN t ++ '/' :: denText t := by
    rw [hsum, List.mem_append, bodyN_root h.1]
    exact Or.inl h1
  have hp : '+' ∈ sumN t ++ '/' :: denText t := by
    rw [List.mem_append, List.mem_cons, denText, hd]
    right; right
    cases g <;> simp_all [signN]
  have hcomp : radComplete (radNormalize s) = sumN t ++ '/' :: denText t := by
    rw [radComplete, radComplete_den h hs, radFill, if_pos hy, if_pos hp]
  unfold radParse
  simp only [if_neg (radNormalize_dot h hs), hcomp, splitChar_append hsl, splitChar_of_not_mem hDs]
  rw [hsum, splitChar_of_not_mem (bodyN_mem h.1 (by decide) (by decide) (by decide))]

/-! ### The numbers -/

theorem pySign_cases (x : Int) : (0 < x ∧ pySign x = 1) ∨ (x < 0 ∧ pySign x = -1) ∨ (x = 0 ∧ pySign x = 0) := by
  unfold pySign
  split
  · left; exact ⟨by assumption, rfl⟩
  · split
    · right; left; exact ⟨by assumption, rfl⟩
    · right; right; exact ⟨by omega, rfl⟩

/-- The sign that a bit stands for. -/
def bitSign (n : Nat) : Int := if n % 2 = 1 then -1 else 1

theorem radSignType_ok {ls : Int} (rs : Int) (h : ls ≠ 0) : ∃ st, radSignType ls rs = .ok st ∧ 0 ≤ st ∧ st < 4 ∧
    (ls.natAbs : Int) * bitSign st.toNat = ls ∧ (rs.natAbs : Int) * bitSign (st.toNat / 2) = rs := by
  unfold radSignType
  rcases pySign_cases ls with ⟨h1, e1⟩ | ⟨h1, e1⟩ | ⟨h1, e1⟩
  · rcases pySign_cases rs with ⟨h2, e2⟩ | ⟨h2, e2⟩ | ⟨h2, e2⟩
    · exact ⟨0, by simp [e1, e2], by decide, by decide, by show (ls.natAbs : Int) * (1) = ls; omega, by show (rs.natAbs : Int) * (1) = rs; omega⟩
    · exact ⟨2, by simp [e1, e2], by decide, by decide, by show (ls.natAbs : Int) * (1) = ls; omega, by show (rs.natAbs : Int) * (-1) = rs; omega⟩
    · exact ⟨0, by simp [e1, e2], by decide, by decide, by show (ls.natAbs : Int) * (1) = ls; omega, by show (rs.natAbs : Int) * (1) = rs; omega⟩
  · rcases pySign_cases rs with ⟨h2, e2⟩ | ⟨h2, e2⟩ | ⟨h2, e2⟩
    · exact ⟨1, by simp [e1, e2], by decide, by decide, by show (ls.natAbs : Int) * (-1) = ls; omega, by show (rs.natAbs : Int) * (1) = rs; omega⟩
    · exact ⟨3, by simp [e1, e2], by decide, by decide, by show (ls.natAbs : Int) * (-1) = ls; omega, by show (rs.natAbs : Int) * (-1) = rs; omega⟩
    · exact ⟨3, by simp [e1, e2], by decide, by decide, by show (ls.natAbs : Int) * (-1) = ls; omega, by show (rs.natAbs : Int) * (-1) = rs; omega⟩
  · exact absurd h1 h

theorem radCore_ok {ls rs d : Int} {lr rr : Nat} (hd : d ≠ 0) {a b e f : Int} (ho : radOrder ls lr rs rr = (a, b, e, f))
    (ha : a ≠ 0) : ∃ st : Int, radCore ls lr rs rr d = .ok (st, (d.natAbs : Int), (a.natAbs : Int), (e.natAbs : Int), b, f) ∧
      0 ≤ st ∧ st < 4 ∧ (a.natAbs : Int) * bitSign st.toNat = a * pySign d ∧
      (e.natAbs : Int) * bitSign (st.toNat / 2) = e * pySign d := by
  have hs : pySign d = 1 ∨ pySign d = -1 := by
    rcases pySign_cases d with ⟨_, h⟩ | ⟨_, h⟩ | ⟨h, _⟩
    · exact Or.inl h
    · exact Or.inr h
    · exact absurd h hd
  have hne : a * pySign d ≠ 0 := by rcases hs with h | h <;> rw [h] <;> omega
  obtain ⟨st, h1, h2, h3, h4, h5⟩ := radSignType_ok (e * pySign d) hne
  have ea : (a * pySign d).natAbs = a.natAbs := by rcases hs with h | h <;> rw [h] <;> omega
  have ee : (e * pySign d).natAbs = e.natAbs := by rcases hs with h | h <;> rw [h] <;> omega
  rw [ea] at h4
  rw [ee] at h5
  refine ⟨st, ?_, h2, h3, h4, h5⟩
  unfold radCore
  rw [if_neg (by omega), ho]
  simp only
  rw [if_neg hd, h1]
  simp only [ea, ee]

theorem radOrder_ok {ls rs : Int} {lr rr : Nat} {a b e f : Int} (ho : radOrder ls lr rs rr = (a, b, e, f)) :
    ∃ m n : Nat, b = m ∧ f = n ∧ (n < m ∨ n = 0 ∧ e = 0) ∧
      (a : ℝ) * Real.sqrt m + e * Real.sqrt n = ls * Real.sqrt lr + rs * Real.sqrt rr := by
  unfold radOrder at ho
  split at ho
  · next h =>
    simp only [Prod.mk.injEq] at ho
    obtain ⟨rfl, rfl, rfl, rfl⟩ := ho
    exact ⟨rr, lr, rfl, rfl, Or.inl (by omega), by ring⟩
  · split at ho
    · next h =>
      simp only [Prod.mk.injEq] at ho
      obtain ⟨rfl, rfl, rfl, rfl⟩ := ho
      have : lr = rr := by omega
      subst this
      exact ⟨lr, 0, rfl, rfl, Or.inr ⟨rfl, rfl⟩, by push_cast; ring⟩
    · simp only [Prod.mk.injEq] at ho
      obtain ⟨rfl, rfl, rfl, rfl⟩ := ho
      exact ⟨lr, rr, rfl, rfl, Or.inl (by omega), rfl⟩

/-! ### Storing -/

theorem bind_pure_unit {σ : Type} (x : PyM σ Unit) : (x >>= fun _ => pure ()) = x := by
  rcases x with ⟨f⟩
  have : ∀ s, ((⟨f⟩ : PyM σ Unit) >>= fun _ => pure ()) s = f s := by
    intro s
    rw [PyM.bind_run]
    rcases h : f s with ⟨r, t, w⟩
    cases r <;> simp [PyM.pure_run, h]
  show PyM.mk _ = _
  congr 1
  funext s
  exact this s

theorem radStore_eq (st d ls rs lr rr : Int) : radStore st d ls rs lr rr =
    writeFields [(.signType, st), (.denominator, d), (.leftScalar, ls), (.rightScalar, rs), (.leftRadicand, lr),
      (.rightRadicand, rr)] := by
  unfold radStore
  simp only [writeFields, bind_pure_unit]

theorem radStore_ok {st d ls rs lr rr : Int} (h1 : 0 ≤ st ∧ st < 4) (h2 : 0 ≤ d ∧ d < 1000) (h3 : 0 ≤ ls ∧ ls < 1000)
    (h4 : 0 ≤ rs ∧ rs < 1000) (h5 : 0 ≤ lr ∧ lr < 1000) (h6 : 0 ≤ rr ∧ rr < 1000) (b : Bytes) (hb : b.length = 9) :
    ∃ b' : Bytes, radStore st d ls rs lr rr ⟨true, b⟩ = ⟨.ok (), ⟨true, b'⟩, []⟩ ∧ b'.length = 9 ∧ b'[0]? = b[0]? ∧
      radFields ⟨true, b'⟩ = .ok (d, ls * bitSign st.toNat, lr, rs * bitSign (st.toNat / 2), rr) := by
  obtain ⟨b', g1, g2, g3, g4⟩ := C13_radical_history [(.signType, st), (.denominator, d), (.leftScalar, ls),
    (.rightScalar, rs), (.leftRadicand, lr), (.rightRadicand, rr)] (by
      intro p hp
      simp only [List.mem_cons, List.not_mem_nil, or_false] at hp
      rcases hp with rfl | rfl | rfl | rfl | rfl | rfl <;> simp <;> omega) b hb
  refine ⟨b', by rw [radStore_eq]; exact g1, g2, g3, ?_⟩
  have e1 := g4 .signType
  have e2 := g4 .denominator
  have e3 := g4 .leftScalar
  have e4 := g4 .rightScalar
  have e5 := g4 .leftRadicand
  have e6 := g4 .rightRadicand
  simp only [lastWrite, reduceCtorEq, if_false, if_true] at e1 e2 e3 e4 e5 e6
  unfold radFields
  simp only [e1, e2, e3, e4, e5, e6, bind, Except.bind, bitSign]

/-! ### Loading -/

theorem radLoad_fields {s : Str} (hne : s ≠ []) {ls rs d : Int} {lr rr : Nat} (hp : radParse s = radCore ls lr rs rr d)
    (hd : d ≠ 0) (hd' : d.natAbs < 1000) (h1 : ls.natAbs < 1000) (h2 : rs.natAbs < 1000) (h3 : lr < 1000) (h4 : rr < 1000)
    {a bb e f : Int} (ho : radOrder ls lr rs rr = (a, bb, e, f))
    (hlead : a ≠ 0 ∧ a.natAbs < 1000) (b : Bytes) (hb : b.length = 9) :
    ∃ b' : Bytes, radLoadString s ⟨true, b⟩ = ⟨.ok (), ⟨true, b'⟩, []⟩ ∧ b'.length = 9 ∧ b'[0]? = b[0]? ∧
      radFields ⟨true, b'⟩ = .ok ((d.natAbs : Int), a * pySign d, bb, e * pySign d, f) := by
  obtain ⟨st, g1, g2, g3, g4, g5⟩ := radCore_ok hd ho hlead.1
  have hbound : e.natAbs < 1000 ∧ 0 ≤ bb ∧ bb < 1000 ∧ 0 ≤ f ∧ f < 1000 := by
    unfold radOrder at ho
    split at ho
    · simp only [Prod.mk.injEq] at ho; omega
    · split at ho <;> simp only [Prod.mk.injEq] at ho <;> omega
  obtain ⟨b', k1, k2, k3, k4⟩ := radStore_ok (st := st) (d := d.natAbs) (ls := a.natAbs) (rs := e.natAbs) (lr := bb) (rr := f)
    ⟨g2, g3⟩ (by omega) (by omega) (by omega) (by omega) (by omega) b hb
  refine ⟨b', ?_, k2, k3, by rw [k4, g4, g5]⟩
  unfold radLoadString
  rw [if_neg hne, hp, g1]
  simp only [PyM.bind_run, PyM.ofExcept_run, k1]
  rfl

theorem radLoad_ok {s : Str} (hne : s ≠ []) {ls rs d : Int} {lr rr : Nat} (hp : radParse s = radCore ls lr rs rr d) (hd : d ≠ 0)
    (hd' : d.natAbs < 1000) (h1 : ls.natAbs < 1000) (h2 : rs.natAbs < 1000) (h3 : lr < 1000) (h4 : rr < 1000)
    (hlead : (radOrder ls lr rs rr).1 ≠ 0 ∧ (radOrder ls lr rs rr).1.natAbs < 1000) (b : Bytes) (hb : b.length = 9) :
    ∃ b' : Bytes, radLoadString s ⟨true, b⟩ = ⟨.ok (), ⟨true, b'⟩, []⟩ ∧ b'.length = 9 ∧ b'[0]? = b[0]? ∧
      ∃ (x y : Int) (m n : Nat), radFields ⟨true, b'⟩ = .ok ((d.natAbs : Int), x, (m : Int), y, (n : Int)) ∧
        (n < m ∨ n = 0 ∧ y = 0) ∧ x ≠ 0 ∧
        ((x : ℝ) * Real.sqrt m + y * Real.sqrt n) / (d.natAbs : ℝ) = (ls * Real.sqrt lr + rs * Real.sqrt rr) / d := by
  rcases ho : radOrder ls lr rs rr with ⟨a, b2, e, f⟩
  rw [ho] at hlead
  obtain ⟨m, n, rfl, rfl, hmn, hval⟩ := radOrder_ok ho
  obtain ⟨b', k1, k2, k3, k4⟩ := radLoad_fields hne hp hd hd' h1 h2 h3 h4 ho hlead b hb
  refine ⟨b', k1, k2, k3, a * pySign d, e * pySign d, m, n, k4, ?_, ?_, ?_⟩
  · rcases hmn with h | ⟨h, h'⟩
    · exact Or.inl h
    · exact Or.inr ⟨h, by rw [h']; simp⟩
  · rcases pySign_cases d with ⟨_, h⟩ | ⟨_, h⟩ | ⟨h, _⟩
    · rw [h]; have := hlead.1; simp only at this; omega
    · rw [h]; have := hlead.1; simp only at this; omega
    · exact absurd h hd
  · rw [← hval]
    rcases pySign_cases d with ⟨hp, h⟩ | ⟨hp, h⟩ | ⟨h, _⟩
    · have : ((d.natAbs : Nat) : ℝ) = (d : ℝ) := by
        rw [← Int.cast_natCast, show ((d.natAbs : Nat) : Int) = d by omega]
      rw [this, h]
      simp
    · have : ((d.natAbs : Nat) : ℝ) = -(d : ℝ) := by
        rw [← Int.cast_natCast, show ((d.natAbs : Nat) : Int) = -d by omega, Int.cast_neg]
      rw [this, h]
      push_cast
      rw [div_neg, ← neg_div]
      congr 1
      ring
    · exact absurd h hd

theorem bodyN_ne {t : RadTerm} (h : t.Valid) : bodyN t ≠ [] := by
  rw [bodyN_eq]
  unfold factorN rootN
  rcases hr : t.root with _ | r
  · have := h.2.1 hr
    simp [this]
  · simp

theorem render_ne {t : RadText} (h : t.Valid) {s : Str} (hs : squash s = t.render) : s ≠ [] := by
  rintro rfl
  have := radNormalize_text h hs
  rw [show radNormalize [] = [] by decide] at this
  have h2 := bodyN_ne h.1
  rcases hb : bodyN t.first with _ | ⟨c, cs⟩
  · exact h2 hb
  · rw [hb] at this
    simp at this

theorem radOrder_swap_fst (ls rs : Int) (lr rr : Nat) : (radOrder ls lr rs rr).1 = (radOrder rs rr ls lr).1 := by
  unfold radOrder
  rcases lt_trichotomy lr rr with h | h | h
  · rw [if_pos (by exact_mod_cast h), if_neg (by omega), if_neg (by omega)]
  · subst h; simp; omega
  · rw [if_neg (by omega), if_neg (by omega), if_pos (by exact_mod_cast h)]

theorem radOrder_lead (t : RadText) :
    (radOrder t.first.factor t.first.radicand t.factor2 t.radicand2).1 = t.lead := by
  unfold radOrder RadText.lead
  rcases lt_trichotomy t.first.radicand t.radicand2 with h | h | h
  · rw [if_pos (by exact_mod_cast h), if_neg (by omega), if_neg (by omega)]
  · rw [if_neg (by omega), if_pos (by exact_mod_cast h), if_neg (by omega), if_pos h.symm]
  · rw [if_neg (by omega), if_neg (by omega), if_pos h]

theorem denominator_ne {t : RadText} (h : t.Valid) : t.denominator ≠ 0 := by
  unfold RadText.denominator
  rcases hd : t.den with _ | ⟨s, d⟩
  · decide
  · have := (h.2.2 s d hd).2
    simp only
    split <;> omega

theorem radCore_zero {ls rs d : Int} {lr rr : Nat} (h : (radOrder ls lr rs rr).1 = 0) :
    radCore ls lr rs rr d = .error .valueError := by
  rcases ho : radOrder ls lr rs rr with ⟨a, b, e, f⟩
  rw [ho] at h
  simp only at h
  unfold radCore
  rw [if_neg (by omega), ho]
  simp only
  split
  · rfl
  · rw [h, zero_mul]
    rfl

theorem radBlank_eq : radBlank =
    writeFields [(.signType, 0), (.denominator, 1), (.leftScalar, 0), (.leftRadicand, 0), (.rightScalar, 0),
      (.rightRadicand, 0)] := by
  unfold radBlank
  simp only [writeFields, bind_pure_unit]

theorem radLoad_empty (b : Bytes) (hb : b.length = 9) : ∃ b' : Bytes, radLoadString [] ⟨true, b⟩ = ⟨.ok (), ⟨true, b'⟩, []⟩ ∧
    radFields ⟨true, b'⟩ = .ok (1, 1, 1, 0, 0) := by
  obtain ⟨b1, g1, g2, -, -⟩ := C13_radical_history [(.signType, 0), (.denominator, 1), (.leftScalar, 0), (.leftRadicand, 0),
    (.rightScalar, 0), (.rightRadicand, 0)] (by
      intro p hp
      simp only [List.mem_cons, List.not_mem_nil, or_false] at hp
      rcases hp with rfl | rfl | rfl | rfl | rfl | rfl <;> simp) b hb
  obtain ⟨b2, k1, -, -, k4⟩ := radStore_ok (st := 0) (d := 1) (ls := 1) (rs := 0) (lr := 1) (rr := 0)
    (by decide) (by decide) (by decide) (by decide) (by decide) (by decide) b1 g2
  refine ⟨b2, ?_, k4⟩
  have hp : radParse [] = .ok (0, 1, 1, 0, 1, 0) := by decide +kernel
  unfold radLoadString
  rw [if_pos rfl, radBlank_eq, hp]
  simp only [PyM.bind_run, g1, PyM.ofExcept_run, k1]
  rfl

end Verif
