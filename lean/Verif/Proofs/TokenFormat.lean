import Verif.Spec.TokenFormat
import Verif.Proofs.Hex
import Verif.Proofs.ArrayText

/-! Lemmas about tokenized entries as text. -/

namespace Verif
open Spec

def langText : Option Str → Str
  | none => []
  | some w => '.' :: w

theorem dot_not_word : isWord '.' = false := by decide
theorem newline_not_word : isWord '\n' = false := by decide

theorem takeWhile_all {p : Char → Bool} {s : Str} (h : ∀ x ∈ s, p x = true) : s.takeWhile p = s ∧ s.dropWhile p = [] := by
  constructor
  · have := List.takeWhile_append_of_pos (l₂ := []) h
    simpa using this
  · have := List.dropWhile_append_of_pos (l₂ := []) h
    simpa using this

/-- Languages as the regular expression reads them: a word of at least two characters. -/
def LangOk (l : Option Str) : Prop := ∀ w, l = some w → 2 ≤ w.length ∧ ∀ x ∈ w, isWord x = true

theorem matchLang_text {l : Option Str} (h : LangOk l) : matchLang (langText l) = some (l.map ('.' :: ·)) := by
  cases l with
  | none => rfl
  | some w =>
    obtain ⟨h1, h2⟩ := h w rfl
    obtain ⟨t1, t2⟩ := takeWhile_all h2
    show (if w.takeWhile isWord ≠ [] ∧ atEnd (w.dropWhile isWord) = true then some (some ('.' :: w.takeWhile isWord)) else none) = _
    rw [t1, t2, if_pos]
    · rfl
    · refine ⟨?_, rfl⟩
      rintro rfl
      simp at h1

theorem matchLang_other {c : Char} {r : Str} (hc : c ≠ '.') (h : c ≠ '\n' ∨ r ≠ []) : matchLang (c :: r) = none := by
  unfold matchLang
  split
  · rename_i heq
    simp only [List.cons.injEq] at heq
    exact absurd heq.1 hc
  · rw [if_neg]
    unfold atEnd
    simp only [Bool.or_eq_true, beq_iff_eq, reduceCtorEq, List.cons.injEq, false_or, not_and]
    intro h1 h2
    rcases h with h | h
    · exact h h1
    · exact h h2

theorem word_ne {c : Char} (h : isWord c = true) : c ≠ '.' ∧ c ≠ '\n' := by
  constructor
  · rintro rfl; revert h; decide
  · rintro rfl; revert h; decide

theorem matchLang_word {c : Char} {r : Str} (h : isWord c = true) : matchLang (c :: r) = none :=
  matchLang_other (word_ne h).1 (.inl (word_ne h).2)

theorem matchKind_cons (c : Char) (r : Str) : matchKind (c :: r) =
    if isWord c then
      match matchLang r with
      | some l => some ([c], l)
      | none => (matchLang (c :: r)).map ([], ·)
    else (matchLang (c :: r)).map ([], ·) := rfl

/-- Nothing or one word character. -/
def KindOk (k : Str) : Prop := k = [] ∨ ∃ c, k = [c] ∧ isWord c = true

theorem matchKind_text {k : Str} {l : Option Str} (hk : KindOk k) (hl : LangOk l) :
    matchKind (k ++ langText l) = some (k, l.map ('.' :: ·)) := by
  rcases hk with rfl | ⟨c, rfl, hc⟩
  · rw [List.nil_append]
    have := matchLang_text hl
    cases l with
    | none => rfl
    | some w =>
      show matchKind ('.' :: w) = _
      have this : matchLang ('.' :: w) = _ := this
      rw [matchKind_cons, this]
      rfl
  · show (if isWord c = true then (match matchLang (langText l) with
      | some l => some ([c], l)
      | none => _) else _) = _
    rw [if_pos hc, matchLang_text hl]

theorem matchKind_word {w : Str} (h1 : 2 ≤ w.length) (h2 : ∀ x ∈ w, isWord x = true) : matchKind w = none := by
  match w, h1, h2 with
  | a :: b :: r, _, h2 =>
    show (if isWord a = true then (match matchLang (b :: r) with
      | some l => some ([a], l)
      | none => (matchLang (a :: b :: r)).map _) else _) = _
    rw [if_pos (h2 a (by simp)), matchLang_word (h2 b (by simp)), matchLang_word (h2 a (by simp))]
    rfl

theorem matchSep_word {w : Str} (h : ∀ x ∈ w, isWord x = true) : matchSep w = none := by
  cases w with
  | nil => rfl
  | cons c w => rw [matchSep, if_pos (h c (by simp))]

theorem matchSep_lang {l : Option Str} (h : LangOk l) : matchSep (langText l) = none := by
  cases l with
  | none => rfl
  | some w =>
    obtain ⟨h1, h2⟩ := h w rfl
    show matchSep ('.' :: w) = none
    rw [matchSep, if_neg (by decide), matchSep_word h2, matchKind_word h1 h2]
    rfl

theorem matchSep_kind {k : Str} {l : Option Str} (hk : KindOk k) (hl : LangOk l) : matchSep (k ++ langText l) = none := by
  rcases hk with rfl | ⟨c, rfl, hc⟩
  · exact matchSep_lang hl
  · show matchSep (c :: langText l) = none
    rw [matchSep, if_pos hc]

theorem matchSep_text {sep k : Str} {l : Option Str} (hne : sep ≠ []) (hs : ∀ x ∈ sep, isWord x = false) (hk : KindOk k)
    (hl : LangOk l) : matchSep (sep ++ (k ++ langText l)) = some (sep, k, l.map ('.' :: ·)) := by
  induction sep with
  | nil => exact absurd rfl hne
  | cons c sep ih =>
    have hc : ¬isWord c = true := by rw [hs c (by simp)]; simp
    rw [List.cons_append, matchSep, if_neg hc]
    cases sep with
    | nil =>
      rw [List.nil_append, matchSep_kind hk hl, matchKind_text hk hl]
      rfl
    | cons c' sep =>
      rw [ih (by simp) fun x hx => hs x (List.mem_cons_of_mem _ hx)]

theorem matchLines_text {pre sep k : Str} {c : Char} {l : Option Str} (hc : isLineType c = true)
    (hp : ∀ x ∈ pre, isLineType x = false ∧ x ≠ '\n') (hne : sep ≠ []) (hs : ∀ x ∈ sep, isWord x = false) (hk : KindOk k)
    (hl : LangOk l) :
    matchLines (pre ++ c :: (sep ++ (k ++ langText l))) = some (pre ++ [c], sep, k, l.map ('.' :: ·)) := by
  induction pre with
  | nil =>
    rw [List.nil_append, matchLines, if_pos hc, matchSep_text hne hs hk hl]
    rfl
  | cons x pre ih =>
    obtain ⟨h1, h2⟩ := hp x (by simp)
    rw [List.cons_append, matchLines, if_neg (by rw [h1]; simp)]
    simp only [h2, if_false]
    rw [ih fun y hy => hp y (List.mem_cons_of_mem _ hy)]
    rfl

theorem matchLines_word {w : Str} (h : ∀ x ∈ w, isWord x = true) : matchLines w = none := by
  induction w with
  | nil => rfl
  | cons c w ih =>
    have hw : ∀ x ∈ w, isWord x = true := fun x hx => h x (List.mem_cons_of_mem _ hx)
    rw [matchLines, matchSep_word hw, ih hw]
    simp

theorem matchLines_lang {l : Option Str} (h : LangOk l) : matchLines (langText l) = none := by
  cases l with
  | none => rfl
  | some w =>
    show matchLines ('.' :: w) = none
    rw [matchLines, if_neg (by decide), matchLines_word (h w rfl).2]
    rfl

theorem matchLines_kind {k : Str} {l : Option Str} (hk : KindOk k) (hl : LangOk l) : matchLines (k ++ langText l) = none := by
  rcases hk with rfl | ⟨c, rfl, hc⟩
  · exact matchLines_lang hl
  · show matchLines (c :: langText l) = none
    rw [matchLines, matchSep_lang hl, matchLines_lang hl]
    simp

theorem kind_ok {k : Str} (h : k ∈ [[], ['d'], ['a'], ['t']]) : KindOk k ∧
    nameMode k = some (decide (k = ['a'] ∨ k = ['t'])) := by
  simp only [List.mem_cons, List.not_mem_nil, or_false] at h
  rcases h with rfl | rfl | rfl | rfl
  · exact ⟨.inl rfl, rfl⟩
  · exact ⟨.inr ⟨_, rfl, by decide⟩, by decide⟩
  · exact ⟨.inr ⟨_, rfl, by decide⟩, by decide⟩
  · exact ⟨.inr ⟨_, rfl, by decide⟩, by decide⟩

/-- The regular expression reads the parts of a specification. -/
theorem matchToken_text {t : TokenText} (h : t.Well) :
    matchToken t.text = some ⟨t.numbers, t.kind, t.lang.map ('.' :: ·)⟩ := by
  obtain ⟨h1, h2, h3⟩ := h
  obtain ⟨hk, -⟩ := kind_ok h2
  have htext : t.text = (match t.numbers with
    | none => []
    | some (l, sep) => l ++ sep) ++ (t.kind ++ langText t.lang) := by
    unfold TokenText.text
    rw [List.append_assoc]
    rfl
  rw [htext]
  unfold matchToken
  cases hn : t.numbers with
  | none =>
    rw [List.nil_append, matchLines_kind hk h3, matchKind_text hk h3]
    rfl
  | some p =>
    obtain ⟨l, sep⟩ := p
    obtain ⟨⟨pre, c, rfl, hc, hp⟩, hne, hs⟩ := h1 l sep hn
    have : pre ++ [c] ++ sep ++ (t.kind ++ langText t.lang) = pre ++ c :: (sep ++ (t.kind ++ langText t.lang)) := by simp
    simp only [this]
    rw [matchLines_text hc hp hne hs hk h3]

theorem nameAll_ok {V : Type} {names : Names V} {lang : Str} {acc : Bool} {f : Tok V → Str × Str} {ts : List (Tok V)}
    (h : ∀ t ∈ ts, names t lang = some (f t)) :
    nameAll names lang acc ts = .ok (ts.flatMap fun t => if acc then (f t).2 else (f t).1) := by
  induction ts with
  | nil => rfl
  | cons t ts ih =>
    rw [nameAll, h t (by simp), ih fun x hx => h x (List.mem_cons_of_mem _ hx)]
    rfl

theorem nameAll_missing {V : Type} {names : Names V} {lang : Str} {acc : Bool} {t : Tok V} {ts : List (Tok V)}
    (ht : t ∈ ts) (h : names t lang = none) : nameAll names lang acc ts = .error .keyError := by
  induction ts with
  | nil => cases ht
  | cons a ts ih =>
    rw [nameAll]
    rcases List.mem_cons.1 ht with rfl | ht
    · rw [h]
    · rw [ih ht]
      cases names a lang <;> rfl

theorem joinStr_joinWith (sep : Char) : ∀ ls : List Str, joinStr [sep] ls = joinWith sep ls
  | [] => rfl
  | [_] => rfl
  | a :: b :: l => by
    rw [joinStr, joinWith, joinStr_joinWith sep (b :: l)]
    simp

theorem numberLines_ok {fmt : Str → Nat → Except PyErr Str} {l sep : Str} {num : Nat → Str} (ls : List Str) (k : Nat)
    (h : ∀ j, j < ls.length → fmt l (k + j) = .ok (num (k + j))) :
    numberLines fmt l sep k ls = .ok (ls.mapIdx fun j x => num (k + j) ++ sep ++ x) := by
  induction ls generalizing k with
  | nil => rfl
  | cons a ls ih =>
    have h0 := h 0 (by simp)
    rw [Nat.add_zero] at h0
    rw [numberLines, h0, ih (k + 1)]
    · simp only [Except.map, List.mapIdx_cons, Nat.add_zero]
      congr 3
      funext j x
      rw [show k + 1 + j = k + (j + 1) by omega]
    · intro j hj
      have := h (j + 1) (by simp only [List.length_cons]; omega)
      rw [show k + 1 + j = k + (j + 1) by omega]
      exact this

theorem numberLines_error {fmt : Str → Nat → Except PyErr Str} {l sep : Str} {x : PyErr} {num : Nat → Str} (ls : List Str)
    (k m : Nat) (hm : m < ls.length) (h : ∀ j, j < m → fmt l (k + j) = .ok (num j)) (hx : fmt l (k + m) = .error x) :
    numberLines fmt l sep k ls = .error x := by
  induction ls generalizing k m num with
  | nil => simp at hm
  | cons a ls ih =>
    cases m with
    | zero =>
      rw [Nat.add_zero] at hx
      rw [numberLines, hx]
    | succ m =>
      have h0 := h 0 (by omega)
      rw [Nat.add_zero] at h0
      rw [numberLines, h0, ih (k + 1) m (num := fun j => num (j + 1)) (by simpa using hm)]
      · rfl
      · intro j hj
        have := h (j + 1) (by omega)
        rw [show k + 1 + j = k + (j + 1) by omega]
        exact this
      · rw [show k + 1 + m = k + (m + 1) by omega]
        exact hx

theorem widthText_dot {wt : Str} {n : Int} (h : WidthText wt n) : '.' ∉ wt := by
  have : ∀ s : Str, (∀ c ∈ s, isDig c = true) → '.' ∉ s := fun s hs hm => by
    have := hs _ hm
    revert this
    decide
  cases h with
  | plain _ _ hd => exact this _ hd
  | plus s _ hd =>
    rw [List.mem_cons, not_or]
    exact ⟨by decide, this s hd⟩
  | minus s _ hd =>
    rw [List.mem_cons, not_or]
    exact ⟨by decide, this s hd⟩

theorem split_last {a p w st : Str} {c : Char} (h : a ++ c :: st = p ++ '.' :: w) (hc : c ≠ '.') (hst : st.length < w.length) :
    '.' ∈ a := by
  rcases List.append_eq_append_iff.1 h with ⟨x, h1, h2⟩ | ⟨x, h1, h2⟩
  · exfalso
    cases x with
    | nil =>
      simp only [List.nil_append, List.cons.injEq] at h2
      exact hc h2.1
    | cons y x =>
      simp only [List.cons_append, List.cons.injEq] at h2
      have := congrArg List.length h2.2
      simp only [List.length_append, List.length_cons] at this
      omega
  · cases x with
    | nil =>
      simp only [List.nil_append, List.cons.injEq] at h2
      exact absurd h2.1.symm hc
    | cons y x =>
      simp only [List.cons_append, List.cons.injEq] at h2
      rw [h1, ← h2.1]
      simp

/-- A specification with a language is not one for hexadecimal text. -/
theorem formatHex_lang (own : Str) (d p w : Str) (b : Bytes) (hw : 2 ≤ w.length) :
    d = p ++ '.' :: w → formatHex own b d = .error .typeError := by
  rintro rfl
  unfold formatHex
  cases hm : matchHex (p ++ '.' :: w) with
  | none => rw [if_neg (by simp)]
  | some m =>
    exfalso
    obtain ⟨wt, u, st, h1, h2, h3⟩ := matchHex_some hm
    have hst : st.length < w.length := by
      rcases h3 with rfl | ⟨c, rfl, -⟩
      · simp only [List.length_nil]; omega
      · simp only [List.length_cons, List.length_nil]; omega
    have := split_last h1.symm (by cases u <;> decide) hst
    rcases h2 with rfl | ⟨n, h2⟩
    · cases this
    · exact widthText_dot h2 this

/-! ### Specifications for hexadecimal text -/

theorem widthText_chars {wt : Str} {n : Int} (h : WidthText wt n) :
    wt ≠ [] ∧ ∀ x ∈ wt, (isDig x = true ∨ x = '+' ∨ x = '-') := by
  cases h with
  | plain _ hne hd => exact ⟨hne, fun x hx => .inl (hd x hx)⟩
  | plus s _ hd =>
    refine ⟨by simp, fun x hx => ?_⟩
    rcases List.mem_cons.1 hx with rfl | hx
    · exact .inr (.inl rfl)
    · exact .inl (hd x hx)
  | minus s _ hd =>
    refine ⟨by simp, fun x hx => ?_⟩
    rcases List.mem_cons.1 hx with rfl | hx
    · exact .inr (.inr rfl)
    · exact .inl (hd x hx)

theorem widthChar_facts {x : Char} (h : isDig x = true ∨ x = '+' ∨ x = '-') :
    isLineType x = false ∧ x ≠ '\n' ∧ x ≠ '.' := by
  rcases h with h | rfl | rfl
  · refine ⟨?_, ?_, ?_⟩
    · unfold isLineType
      unfold isDig at h
      simp only [Bool.and_eq_true, decide_eq_true_eq] at h
      have h0 : '0' ≤ x := h.1
      have ha : ¬('a' ≤ x) := by
        intro h'
        have h1 : 'a'.val ≤ x.val := h'
        have h2 : x.val ≤ '9'.val := h.2
        exact absurd (UInt32.le_trans h1 h2) (by decide)
      have h1 : x ≠ '%' := by rintro rfl; exact absurd h0 (by decide)
      have h2 : x ≠ '#' := by rintro rfl; exact absurd h0 (by decide)
      simp [ha, h1, h2]
    · rintro rfl; revert h; decide
    · rintro rfl; revert h; decide
  · decide
  · decide

theorem matchLines_skip {wt r : Str} (hw : ∀ x ∈ wt, (isDig x = true ∨ x = '+' ∨ x = '-')) (hr : matchLines r = none) :
    matchLines (wt ++ r) = none := by
  induction wt with
  | nil => exact hr
  | cons c wt ih =>
    obtain ⟨h1, h2, -⟩ := widthChar_facts (hw c (by simp))
    rw [List.cons_append, matchLines, if_neg (by rw [h1]; simp)]
    simp only [h2, if_false]
    rw [ih fun x hx => hw x (List.mem_cons_of_mem _ hx)]
    rfl

/-- A specification for hexadecimal text is not one for tokens if the letter is upper case or the separator a word
character. -/
theorem matchToken_hex {wt st : Str} {u : Bool} (hw : wt = [] ∨ ∃ n, WidthText wt n)
    (hs : st = [] ∨ ∃ c, st = [c] ∧ (u = true ∨ isWord c = true)) :
    matchToken (wt ++ hexLetter u :: st) = none ∨
      ∃ m, matchToken (wt ++ hexLetter u :: st) = some m ∧ nameMode m.spec = none := by
  have hwc : ∀ x ∈ wt, (isDig x = true ∨ x = '+' ∨ x = '-') := by
    rcases hw with rfl | ⟨n, h⟩
    · simp
    · exact (widthText_chars h).2
  have hl : matchLines (hexLetter u :: st) = none := by
    rw [matchLines]
    have h1 : (if isLineType (hexLetter u) = true then matchSep st else none) = none := by
      rcases hs with rfl | ⟨c, rfl, h | h⟩
      · cases u <;> rfl
      · subst h
        rfl
      · rw [matchSep_word (w := [c]) (by simpa using h)]
        simp
    have h2 : matchLines st = none := by
      rcases hs with rfl | ⟨c, rfl, -⟩
      · rfl
      · show (match (if isLineType c = true then matchSep [] else none) with
          | some k => some ([c], k)
          | none => if c = '\n' then none else (matchLines []).map _) = none
        have : (if isLineType c = true then matchSep [] else none) = none := by cases isLineType c <;> rfl
        rw [this]
        show (if c = '\n' then none else none) = _
        rw [ite_self]
    rw [h1, h2]
    simp
  unfold matchToken
  rw [matchLines_skip hwc hl]
  have hx : isWord (hexLetter u) = true := by cases u <;> decide
  have hnone : nameMode [hexLetter u] = none := by cases u <;> decide
  rcases hw with rfl | ⟨n, h⟩
  · simp only [List.nil_append]
    have hk : matchKind (hexLetter u :: st) = none ∨ ∃ l, matchKind (hexLetter u :: st) = some ([hexLetter u], l) := by
      rw [matchKind_cons]
      rw [if_pos hx]
      cases matchLang st with
      | none => left; rw [matchLang_word hx]; rfl
      | some l => right; exact ⟨l, rfl⟩
    rcases hk with hk | ⟨l, hk⟩
    · rw [hk]; left; rfl
    · rw [hk]; right; exact ⟨_, rfl, hnone⟩
  · left
    obtain ⟨hne, -⟩ := widthText_chars h
    cases wt with
    | nil => exact absurd rfl hne
    | cons c wt =>
      have hc := widthChar_facts (hwc c (by simp))
      have hL : matchLang (c :: (wt ++ hexLetter u :: st)) = none := matchLang_other hc.2.2 (.inl hc.2.1)
      have hR : matchLang (wt ++ hexLetter u :: st) = none := by
        cases wt with
        | nil => exact matchLang_word hx
        | cons c' wt =>
          have hc' := widthChar_facts (hwc c' (by simp))
          exact matchLang_other hc'.2.2 (.inl hc'.2.1)
      show ((if isWord c = true then (match matchLang (wt ++ hexLetter u :: st) with
        | some l => some ([c], l)
        | none => (matchLang (c :: (wt ++ hexLetter u :: st))).map _)
        else (matchLang (c :: (wt ++ hexLetter u :: st))).map _).map _) = none
      rw [hL, hR]
      cases isWord c <;> rfl

end Verif
