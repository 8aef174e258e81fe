import Verif.Proofs.TypeableArray

/-! Lemmas about the text of lists of complex numbers that can be typed on a calculator. -/

namespace Verif
open Spec Ent

/-- Characters of unsigned numbers and `~`. -/
def NumChar (a : Char) : Prop := isDig a = true ∨ a = '.' ∨ a = '~'

theorem NumChar.ne {a b : Char} (h : NumChar a) (hb : isDig b = false ∧ b ≠ '.' ∧ b ≠ '~') : a ≠ b := by
  rintro rfl
  rcases h with h | h | h
  · rw [h] at hb; cases hb.1
  · exact hb.2.1 h
  · exact hb.2.2 h

theorem numChars_not {s : Str} (h : ∀ a ∈ s, NumChar a) {b : Char} (hb : isDig b = false ∧ b ≠ '.' ∧ b ≠ '~') : b ∉ s :=
  fun hm => (h b hm).ne hb rfl

theorem numChars_squash {s t : Str} (h : ∀ a ∈ s, NumChar a) : squash (s ++ t) = s ++ squash t := by
  rw [squash_append]
  congr 1
  unfold squash
  rw [List.filter_eq_self]
  intro a ha
  rcases h a ha with h | rfl | rfl
  · rw [isDig_not_space h]; rfl
  · decide
  · decide

theorem printed_chars {l : Literal} (h : Printed l) : ∀ a ∈ l.int ++ l.fracStr, NumChar a := by
  intro a ha
  rcases List.mem_append.1 ha with ha | ha
  · exact Or.inl ((isDig_iff a).2 (h.valid.1 a ha))
  · unfold Literal.fracStr at ha
    split at ha
    · cases ha
    · next f hf =>
      rcases List.mem_cons.1 ha with h' | ha
      · exact Or.inr (Or.inl h')
      · exact Or.inl ((isDig_iff a).2 (h.valid.2.1 f hf a ha))

theorem calc_chars {l : Literal} (h : Printed l) : ∀ a ∈ l.calc, NumChar a := by
  rw [calc_lit h, List.append_assoc]
  intro a ha
  rcases List.mem_append.1 ha with ha | ha
  · rcases h.sign with hs | hs <;> rw [hs] at ha
    · cases ha
    · rw [show a = '~' by simpa [Sign.calc] using ha]; exact Or.inr (Or.inr rfl)
  · exact printed_chars h a ha

theorem calc_ne {l : Literal} (h : Printed l) : l.calc ≠ [] := by
  rw [calc_lit h]
  simp [h.int]

/-- The forms of the text of a complex number. -/
theorem calc_shape (c e c' e' : Int) : ∃ P : Str, P ≠ [] ∧ (∀ a ∈ P, NumChar a) ∧
    ((c' = 0 ∧ (printed c c' (printLit c e) (printLit c' e')).calc = P) ∨
     (c' ≠ 0 ∧ (printed c c' (printLit c e) (printLit c' e')).calc = P ++ ['[', 'i', ']']) ∨
     (c' ≠ 0 ∧ P = (tilLit (printLit c e)).render ∧ ∃ Q : Str, (∀ a ∈ Q, NumChar a) ∧
      (printed c c' (printLit c e) (printLit c' e')).calc = P ++ ('+' :: Q) ++ ['[', 'i', ']'])) := by
  have hl := printLit_spec c e
  have hl' := printLit_spec c' e'
  have hre : ∀ s : Sign, (resign s (printLit c' e')).calc = s.calc ++ ((printLit c' e').int ++ (printLit c' e').fracStr) := by
    intro s
    unfold Literal.calc
    rw [show (resign s (printLit c' e')).exp = none from hl'.exp]
    simp [resign, Literal.fracStr]
  unfold printed
  by_cases h0' : c' = 0
  · rw [if_pos h0']
    exact ⟨_, calc_ne hl, calc_chars hl, Or.inl ⟨h0', rfl⟩⟩
  · rw [if_neg h0']
    by_cases h0 : c = 0
    · rw [if_pos h0]
      exact ⟨_, calc_ne hl', calc_chars hl', Or.inr (Or.inl ⟨h0', rfl⟩)⟩
    · rw [if_neg h0]
      have key : ∀ m : Str, (∀ a ∈ m, NumChar a) → ∀ b : Bool, ∃ P : Str, P ≠ [] ∧ (∀ a ∈ P, NumChar a) ∧
          ((c' = 0 ∧ (printLit c e).calc ++ ((if b then Sign.minus else Sign.plus).calc ++ m) ++ ['[', 'i', ']'] = P) ∨
           (c' ≠ 0 ∧ (printLit c e).calc ++ ((if b then Sign.minus else Sign.plus).calc ++ m) ++ ['[', 'i', ']'] = P ++ ['[', 'i', ']']) ∨
           (c' ≠ 0 ∧ P = (tilLit (printLit c e)).render ∧ ∃ Q : Str, (∀ a ∈ Q, NumChar a) ∧
            (printLit c e).calc ++ ((if b then Sign.minus else Sign.plus).calc ++ m) ++ ['[', 'i', ']'] = P ++ ('+' :: Q) ++ ['[', 'i', ']'])) := by
        intro m hm b
        cases b
        · exact ⟨(printLit c e).calc, calc_ne hl, calc_chars hl, Or.inr (Or.inr ⟨h0', (tilLit_calc hl.exp).symm, m, hm, rfl⟩)⟩
        · refine ⟨(printLit c e).calc ++ (['~'] ++ m), by simp, ?_, Or.inr (Or.inl ⟨h0', rfl⟩)⟩
          intro a ha
          rcases List.mem_append.1 ha with ha | ha
          · exact calc_chars hl a ha
          · rcases List.mem_append.1 ha with ha | ha
            · rw [List.mem_singleton] at ha; exact Or.inr (Or.inr ha)
            · exact hm a ha
      split
      · have := key [] (by simp) (printLit c' e').sign.isNeg
        rw [List.append_nil] at this
        exact this
      · have := key _ (printed_chars hl') (printLit c' e').sign.isNeg
        rw [← hre] at this
        exact this

/-! ### Text that is cut off -/

theorem strip_plus {s : Str} (h1 : s.head? ≠ some '+') (h2 : s.getLast? ≠ some '+') (hne : s ≠ []) : stripChars ['+'] s = s :=
  strip_lead hne h1 h2 true

theorem cut_norm {s : Str} (h : ∀ a ∈ s, NumChar a ∨ a = '+') :
    replaceStr ['j'] ['i'] (replaceStr ['[', 'i', ']'] ['i'] (replaceStr ['-'] ['+', '-'] (replaceStr ['*'] [] (squash (s ++ ['[', 'i']))))) =
      s ++ ['[', 'i'] := by
  have hsq : squash (s ++ ['[', 'i']) = s ++ ['[', 'i'] := by
    unfold squash
    rw [List.filter_eq_self]
    intro a ha
    rcases List.mem_append.1 ha with ha | ha
    · rcases h a ha with (h | rfl | rfl) | rfl
      · rw [isDig_not_space h]; rfl
      · decide
      · decide
      · decide
    · simp only [List.mem_cons, List.not_mem_nil, or_false] at ha
      rcases ha with rfl | rfl <;> decide
  have hno : ∀ b, isDig b = false ∧ b ≠ '.' ∧ b ≠ '~' → b ≠ '+' → b ≠ '[' → b ≠ 'i' → b ∉ s ++ ['[', 'i'] := by
    intro b h1 h2 h3 h4 hb
    simp only [List.mem_append, List.mem_cons, List.not_mem_nil, or_false] at hb
    rcases hb with hb | hb | hb
    · rcases h b hb with h | h
      · exact h.ne h1 rfl
      · exact h2 h
    · exact h3 hb
    · exact h4 hb
  rw [hsq, replaceStr_absent [] (d := '*') (by simp) (hno _ (by decide) (by decide) (by decide) (by decide)),
    replaceStr_absent ['+', '-'] (d := '-') (by simp) (hno _ (by decide) (by decide) (by decide) (by decide)),
    replaceStr_absent ['i'] (d := ']') (by simp) (hno _ (by decide) (by decide) (by decide) (by decide)),
    replaceStr_absent ['i'] (d := 'j') (by simp) (hno _ (by decide) (by decide) (by decide) (by decide))]

theorem filter_i {s : Str} (h : ∀ a ∈ s, NumChar a) : (s ++ ['[', 'i']).filter (· ≠ 'i') = s ++ ['['] := by
  rw [List.filter_append, List.filter_eq_self.2]
  · rfl
  · intro a ha
    simpa using (h a ha).ne (b := 'i') (by decide)

theorem num_head {s t : Str} (h : ∀ a ∈ s, NumChar a) (hne : s ≠ []) {b : Char} (hb : isDig b = false ∧ b ≠ '.' ∧ b ≠ '~') :
    (s ++ t).head? ≠ some b := by
  cases s with
  | nil => exact absurd rfl hne
  | cons a s =>
    intro h'
    have : a = b := by simpa using h'
    exact (h a (by simp)).ne hb this

theorem last_i (s : Str) : (s ++ ['[', 'i']).getLast? = some 'i' := by simp

theorem cut_im {P : Str} (hne : P ≠ []) (h : ∀ a ∈ P, NumChar a) : complexParts (P ++ ['[', 'i']) = .ok (['0'], P ++ ['[']) := by
  have hp : '+' ∉ P ++ ['[', 'i'] := by simp [numChars_not h (b := '+') (by decide)]
  unfold complexParts
  simp only
  rw [cut_norm (fun a ha => Or.inl (h a ha)), strip_plus (num_head h hne (by decide)) (by simp) (by simp), splitChar_of_not_mem hp]
  rw [if_neg (by simp)]
  simp only
  rw [if_pos (by simp), filter_i h]
  unfold complexParts.orOne
  rw [if_neg (by simp)]

theorem cut_both {P Q : Str} (hne : P ≠ []) (h : ∀ a ∈ P, NumChar a) (hq : ∀ a ∈ Q, NumChar a) :
    complexParts (P ++ ('+' :: Q) ++ ['[', 'i']) = .ok (P, Q ++ ['[']) := by
  have hp : '+' ∉ P := numChars_not h (b := '+') (by decide)
  have hq' : '+' ∉ Q ++ ['[', 'i'] := by simp [numChars_not hq (b := '+') (by decide)]
  unfold complexParts
  simp only
  rw [cut_norm (by
    intro a ha
    simp only [List.mem_append, List.mem_cons] at ha
    rcases ha with ha | ha | ha
    · exact Or.inl (h a ha)
    · exact Or.inr ha
    · exact Or.inl (hq a ha)), strip_plus (by rw [List.append_assoc]; exact num_head h hne (by decide)) (by rw [last_i]; decide) (by simp),
    List.append_assoc, List.cons_append, splitChar_append hp, splitChar_of_not_mem hq', if_neg (by simp [hne])]
  simp only
  rw [filter_i hq]
  unfold complexParts.orOne
  rw [if_neg (by simp)]

/-- Text of which the last bracket is missing. -/
theorem cut_refused {c e c' e' : Int} {re : Bytes} (hr : ShortNumber re c e) (hc : c' ≠ 0) : ∃ t : Str,
    (printed c c' (printLit c e) (printLit c' e')).calc = t ++ [']'] ∧ ']' ∉ t ∧ t.getLast? = some 'i' ∧
      complexOfString t () = ⟨.error .valueError, (), []⟩ := by
  have hodd : Odd '[' := by unfold Odd; decide
  have himag : ∀ m : Str, (∀ a ∈ m, NumChar a) →
      loadRealString .real (m ++ ['[']) ⟨true, clearFull .real⟩ = ⟨.error .valueError, ⟨true, clearFull .real⟩, []⟩ := by
    intro m hm
    exact real_odd hodd (by simp) (by simp [numChars_not hm (b := 'e') (by decide)]) (by simp [numChars_not hm (b := 'E') (by decide)]) _
  have hrun : ∀ {t p m : Str} {b : UInt8} {v : Bytes}, complexParts t = .ok (p, m ++ ['[']) → (∀ a ∈ m, NumChar a) → v.length = 8 →
      loadRealString .real p ⟨true, clearFull .real⟩ = ⟨.ok (), ⟨true, b :: v⟩, []⟩ →
      complexOfString t () = ⟨.error .valueError, (), []⟩ := by
    intro t p m b v h1 h2 h3 h4
    have := loadComplex_refused (e := elem .complexE (clearFull .complexE)) (re := (clearFull .complexE).take 9) (im := (clearFull .complexE).drop 9)
      (c := .real) (c' := .real) (t := 0x0C) (by rw [List.take_append_drop]; rfl) (by decide) (by decide) (by decide) (by decide) (by decide) h1
      h3 h4 (himag m h2)
    unfold complexOfString
    show (match loadComplexString t (elem .complexE (clearFull .complexE)) with
      | ⟨.error x, _, w⟩ => (⟨.error x, (), w⟩ : Out Unit Ent)
      | ⟨.ok (), e, w⟩ => ⟨.ok e, (), w⟩) = _
    rw [this]
  obtain ⟨P, hne, hP, h | h | h⟩ := calc_shape c e c' e'
  · exact absurd h.1 hc
  · refine ⟨P ++ ['[', 'i'], by rw [h.2]; simp, by simp [numChars_not hP (b := ']') (by decide)], by simp, ?_⟩
    exact hrun (b := 0) (v := [0x80, 0, 0, 0, 0, 0, 0, 0]) (cut_im hne hP) hP rfl (by decide)
  · obtain ⟨-, hPl, Q, hQ, hcalc⟩ := h
    refine ⟨P ++ ('+' :: Q) ++ ['[', 'i'], by rw [hcalc]; simp,
      by simp [numChars_not hP (b := ']') (by decide), numChars_not hQ (b := ']') (by decide)], last_i _, ?_⟩
    have hl := printLit_spec c e
    obtain ⟨a1, a2, a3, a4, a5, n, a6⟩ := hr
    obtain ⟨r1, r2, r3⟩ := realDecimal_bounds a1 a3 a4
    have hrg := printLit_range a5 r1 r2 r3 a6
    obtain ⟨b, v, g1, g2, -⟩ := loadLiteral (l := tilLit (printLit c e)) hl.valid hl.zeros hrg (squash_render _ hl.valid)
    exact hrun (cut_both hne hP hQ) hQ g1 (hPl ▸ g2)

/-! ### Splitting -/

theorem strip_ends {chars : List Char} {o m c : Str} (ho : ∀ x ∈ o, x ∈ chars) (hc : ∀ x ∈ c, x ∈ chars) {a b : Char}
    (h1 : m.head? = some a) (ha : a ∉ chars) (h2 : m.getLast? = some b) (hb : b ∉ chars) : stripChars chars (o ++ m ++ c) = m := by
  have hr : ∀ (a : Str), rstripChars chars a = (lstripChars chars a.reverse).reverse := fun a => rfl
  have hl : ∀ {m t : Str} {a : Char}, m.head? = some a → a ∉ chars → lstripChars chars (m ++ t) = m ++ t := by
    intro m t a h ha
    cases m with
    | nil => cases h
    | cons x m =>
      have : x = a := by simpa using h
      subst this
      unfold lstripChars
      rw [List.cons_append, List.dropWhile_cons, if_neg (by simpa using ha)]
  unfold stripChars
  rw [List.append_assoc, lstrip_all ho, hl h1 ha, hr, List.reverse_append, lstrip_all (fun x hx => hc x (List.mem_reverse.1 hx))]
  have := hl (m := m.reverse) (t := []) (a := b) (by rw [List.head?_reverse]; exact h2) hb
  rw [List.append_nil] at this
  rw [this, List.reverse_reverse]

theorem join_last (init : List Str) : ∃ A : Str, ∀ t, joinStr [','] (init ++ [t]) = A ++ t := by
  induction init with
  | nil => exact ⟨[], fun t => rfl⟩
  | cons a init ih =>
    obtain ⟨A, hA⟩ := ih
    refine ⟨a ++ [','] ++ A, fun t => ?_⟩
    cases init with
    | nil =>
      have := hA t
      simp only [List.cons_append, List.nil_append, joinStr] at this ⊢
      rw [List.append_assoc (a ++ [',']), ← this]
    | cons b init =>
      have := hA t
      simp only [List.cons_append, joinStr] at this ⊢
      rw [this]; simp

theorem join_head {a : Char} {s : Str} {ts : List Str} : ((joinStr [','] ((a :: s) :: ts)).head? = some a) := by
  cases ts <;> simp [joinStr]

/-- Text of an element of a list of complex numbers. -/
def Begins (t : Str) : Prop := ',' ∉ t ∧ ∃ a s, t = a :: s ∧ NumChar a

theorem complex_split {init : List Str} {t c : Str} (hc : ∀ x ∈ c, x ∈ ['[', ']', '{', '}']) (h : ∀ u ∈ init ++ [t], Begins u)
    {b : Char} (h2 : t.getLast? = some b) (hb : b ∉ ['[', ']', '{', '}']) :
    splitChar ',' (stripChars ['[', ']', '{', '}'] (['{'] ++ joinStr [','] (init ++ [t]) ++ c)) = init ++ [t] := by
  obtain ⟨A, hA⟩ := join_last init
  obtain ⟨a, h3, h4⟩ : ∃ a, (joinStr [','] (init ++ [t])).head? = some a ∧ NumChar a := by
    cases hi : init ++ [t] with
    | nil => simp at hi
    | cons u us =>
      obtain ⟨-, a, s, rfl, ha⟩ := h u (by rw [hi]; simp)
      exact ⟨a, join_head, ha⟩
  have ha : a ∉ ['[', ']', '{', '}'] := by
    intro hm
    simp only [List.mem_cons, List.not_mem_nil, or_false] at hm
    rcases hm with rfl | rfl | rfl | rfl <;> exact h4.ne (by decide) rfl
  rw [strip_ends (by simp) hc h3 ha (b := b) (by rw [hA, List.getLast?_append, h2]; rfl) hb, splitChar_join (by simp) fun t ht => (h t ht).1]

theorem begins_shape {P R : Str} (hne : P ≠ []) (hP : ∀ a ∈ P, NumChar a) (hR : ',' ∉ R) : Begins (P ++ R) := by
  refine ⟨by simp [numChars_not hP (b := ',') (by decide), hR], ?_⟩
  cases P with
  | nil => exact absurd rfl hne
  | cons a P => exact ⟨a, P ++ R, rfl, hP a (by simp)⟩

theorem calc_begins (c e c' e' : Int) : Begins (printed c c' (printLit c e) (printLit c' e')).calc := by
  obtain ⟨P, hne, hP, h | h | h⟩ := calc_shape c e c' e'
  · have := begins_shape hne hP (R := []) (by simp)
    rw [List.append_nil] at this
    rw [h.2]; exact this
  · rw [h.2]; exact begins_shape hne hP (by decide)
  · obtain ⟨-, -, Q, hQ, hc⟩ := h
    rw [hc, List.append_assoc]
    exact begins_shape hne hP (by simp [numChars_not hQ (b := ',') (by decide)])

theorem begins_cut {t : Str} (h : Begins (t ++ [']'])) (h2 : t.getLast? = some 'i') : Begins t := by
  obtain ⟨h1, a, s, h3, h4⟩ := h
  refine ⟨fun hm => h1 (by simp [hm]), ?_⟩
  cases t with
  | nil => cases h2
  | cons x t =>
    have : x = a := by simpa using congrArg List.head? h3
    exact ⟨x, t, rfl, this ▸ h4⟩

theorem calc_real {c e e' : Int} : ∃ b, (printed c 0 (printLit c e) (printLit 0 e')).calc.getLast? = some b ∧ b ∉ ['[', ']', '{', '}'] := by
  obtain ⟨P, hne, hP, h | h | h⟩ := calc_shape c e 0 e'
  · rw [h.2]
    cases hl : P.getLast? with
    | none => rw [List.getLast?_eq_none_iff] at hl; exact absurd hl hne
    | some b =>
      have hb := hP b (List.mem_of_getLast? hl)
      refine ⟨b, rfl, fun hm => ?_⟩
      simp only [List.mem_cons, List.not_mem_nil, or_false] at hm
      rcases hm with rfl | rfl | rfl | rfl <;> exact hb.ne (by decide) rfl
  · exact absurd rfl h.1
  · exact absurd rfl h.1

/-! ### Lists -/

theorem OrdinaryComplex.plain {x : Ent} {c e c' e' : Int} (h : OrdinaryComplex x c e c' e') : ∃ re im, PlainComplex x re im c e c' e' := by
  obtain ⟨h1, re, im, h2, h3, h4, h5, h6, ⟨a1, a2, a3, a4⟩, ⟨b1, b2, b3, b4⟩⟩ := h
  exact ⟨re, im, h1, h2, ⟨h3, h5, a1, a2, a3, a4⟩, ⟨h4, h6, b1, b2, b3, b4⟩⟩

theorem OrdinaryComplex.of {x y : Ent} {c e c' e' : Int} (h : SameNumber x y) (hx : OrdinaryComplex x c e c' e') : OrdinaryComplex y c e c' e' := by
  unfold OrdinaryComplex at hx ⊢
  rw [← h.1, ← h.2]; exact hx

theorem OrdinaryComplex.elem {x : Ent} {c e c' e' : Int} (h : OrdinaryComplex x c e c' e') : ComplexElem x := by
  obtain ⟨h1, re, im, h2, h3, h4, h5, h6, -, -⟩ := h
  refine ⟨by rw [h1]; simp [complexClasses], by rw [h2, List.length_append, h3, h4], ?_, ?_⟩
  · rw [h2, show (re ++ im).getD 0 0 = re.headD 0 by
      match re, h3 with
      | x :: re, _ => rfl, h5]
    simp
  · rw [h1, h2, show (re ++ im).getD 9 0 = im.headD 0 by
      match im, h4 with
      | x :: im, _ => rw [List.getD_eq_getElem?_getD, List.getElem?_append_right (by omega), h3]; rfl, h6]
    rfl

/-- The text of an element of a list. -/
def TypedAs (x : Ent) (t : Str) : Prop := ∃ c e c' e', OrdinaryComplex x c e c' e' ∧ t = (printed c c' (printLit c e) (printLit c' e')).calc

theorem typed_all {es : List Ent} (h : ∀ x ∈ es, ∃ c e c' e', OrdinaryComplex x c e c' e') :
    ∃ ts, mapE elemTypeable es = .ok ts ∧ List.Forall₂ TypedAs es ts := by
  induction es with
  | nil => exact ⟨[], rfl, .nil⟩
  | cons x es ih =>
    obtain ⟨ts, g1, g2⟩ := ih fun y hy => h y (List.mem_cons_of_mem _ hy)
    obtain ⟨c, e, c', e', hx⟩ := h x (by simp)
    obtain ⟨re, im, hp⟩ := hx.plain
    obtain ⟨t, -, -, k⟩ := typeable_complex hp
    exact ⟨_ :: ts, by simp only [mapE, k, g1], .cons ⟨c, e, c', e', hx, rfl⟩ g2⟩

theorem mapW_value {f : Str → PyM Unit Ent} {l : List Str}
    (h : ∀ s ∈ l, (∃ x, f s () = ⟨.ok x, (), []⟩) ∨ f s () = ⟨.error .valueError, (), []⟩)
    (hs : ∃ s ∈ l, f s () = ⟨.error .valueError, (), []⟩) : mapW f l () = ⟨.error .valueError, (), []⟩ := by
  induction l with
  | nil => obtain ⟨s, hs, -⟩ := hs; cases hs
  | cons t l ih =>
    rcases h t (by simp) with ⟨x, hx⟩ | hx
    · obtain ⟨s, hm, hs⟩ := hs
      rcases List.mem_cons.1 hm with rfl | hm
      · rw [hs] at hx; cases hx
      · simp [mapW, PyM.bind_run, hx, ih (fun s hs => h s (List.mem_cons_of_mem _ hs)) ⟨s, hm, hs⟩]
    · simp [mapW, PyM.bind_run, hx]

/-- Each text either loads or is refused. -/
theorem typed_cases {x : Ent} {t : Str} (h : TypedAs x t) :
    (∃ y, complexOfString t () = ⟨.ok y, (), []⟩) ∨ complexOfString t () = ⟨.error .valueError, (), []⟩ := by
  obtain ⟨c, e, c', e', hx, rfl⟩ := h
  obtain ⟨re, im, hp⟩ := hx.plain
  by_cases hs : c = 0 ∨ 0 ≤ c'
  · obtain ⟨y, hy, -⟩ := typeable_complex_read hp hs
    exact Or.inl ⟨y, hy⟩
  · simp only [not_or, not_le] at hs
    exact Or.inr (typeable_complex_refused hs.1 hs.2)

theorem OrdinaryComplex.unique {x : Ent} {c e c' e' d f d' f' : Int} (h : OrdinaryComplex x c e c' e') (h' : OrdinaryComplex x d f d' f') :
    c = d ∧ e = f ∧ c' = d' ∧ e' = f' := by
  obtain ⟨-, re, im, h2, h3, h4, -, -, ⟨-, a2, -⟩, ⟨-, b2, -⟩⟩ := h
  obtain ⟨-, re', im', h2', h3', h4', -, -, ⟨-, a2', -⟩, ⟨-, b2', -⟩⟩ := h'
  obtain ⟨rfl, rfl⟩ := List.append_inj (h2.symm.trans h2') (h3.trans h3'.symm)
  rw [a2] at a2'
  rw [b2] at b2'
  cases a2'
  cases b2'
  exact ⟨rfl, rfl, rfl, rfl⟩

theorem forall₂_snoc {α β : Type} {R : α → β → Prop} {l : List α} {a : α} {m : List β} (h : List.Forall₂ R (l ++ [a]) m) :
    ∃ m' b, m = m' ++ [b] ∧ List.Forall₂ R l m' ∧ R a b := by
  induction l generalizing m with
  | nil =>
    cases h with
    | cons h1 h2 => cases h2; exact ⟨[], _, rfl, .nil, h1⟩
  | cons x l ih =>
    cases h with
    | cons h1 h2 =>
      obtain ⟨m', b, rfl, h3, h4⟩ := ih h2
      exact ⟨_ :: m', b, rfl, .cons h1 h3, h4⟩

theorem forall₂_mem {α β : Type} {R : α → β → Prop} {l : List α} {m : List β} (h : List.Forall₂ R l m) {a : α} (ha : a ∈ l) :
    ∃ b ∈ m, R a b := by
  induction h with
  | nil => cases ha
  | cons h1 h2 ih =>
    rcases List.mem_cons.1 ha with rfl | ha
    · exact ⟨_, by simp, h1⟩
    · obtain ⟨b, hb, hr⟩ := ih ha
      exact ⟨b, List.mem_cons_of_mem _ hb, hr⟩

theorem forall₂_mem' {α β : Type} {R : α → β → Prop} {l : List α} {m : List β} (h : List.Forall₂ R l m) {b : β} (hb : b ∈ m) :
    ∃ a ∈ l, R a b := by
  induction h with
  | nil => cases hb
  | cons h1 h2 ih =>
    rcases List.mem_cons.1 hb with rfl | hb
    · exact ⟨_, by simp, h1⟩
    · obtain ⟨a, ha, hr⟩ := ih hb
      exact ⟨a, List.mem_cons_of_mem _ ha, hr⟩

theorem mapE_forall₂ {α β : Type} {f : α → Except PyErr β} {l : List α} {m : List β} (h : mapE f l = .ok m) :
    List.Forall₂ (fun a b => f a = .ok b) l m := by
  induction l generalizing m with
  | nil => simp only [mapE] at h; cases h; exact .nil
  | cons a l ih =>
    rw [mapE] at h
    split at h
    · cases h
    · next b hb =>
      split at h
      · cases h
      · next r hr => cases h; exact .cons hb (ih hr)

theorem elemTypeable_same {x y : Ent} (h : SameNumber x y) : elemTypeable x = elemTypeable y := by
  have hs : elemStr x = elemStr y := by
    unfold elemStr
    rw [h.1, complexStr_bytes h.2]
    split
    · rfl
    · split
      · rfl
      · show realPartStr y.cls ⟨true, x.body.bytes⟩ = realPartStr y.cls ⟨true, y.body.bytes⟩
        rw [h.2]
  unfold elemTypeable
  rw [hs, h.1]

theorem join_flatten (l : List Str) : joinStr [] l = l.flatten := by
  induction l with
  | nil => rfl
  | cons a l ih =>
    cases l with
    | nil => simp [joinStr]
    | cons b l => rw [joinStr, ih]; simp

theorem typed_same {l es : List Ent} {ts : List Str} (h1 : List.Forall₂ SameNumber l es) (h2 : List.Forall₂ TypedAs es ts) :
    List.Forall₂ TypedAs l ts :=
  forall₂_trans (R := SameNumber) (S := TypedAs) (fun _ _ _ h ⟨c, e, c', e', hy, ht⟩ =>
    ⟨c, e, c', e', OrdinaryComplex.of ⟨h.1.symm, h.2.symm⟩ hy, ht⟩) h1 h2

theorem typed_begins {l : List Ent} {ts : List Str} (h : List.Forall₂ TypedAs l ts) : ∀ t ∈ ts, Begins t := by
  intro t ht
  obtain ⟨x, -, c, e, c', e', -, rfl⟩ := forall₂_mem' h ht
  exact calc_begins c e c' e'

/-- Text of a list of complex numbers that is refused. -/
theorem complex_list_refused {init : List Ent} {z : Ent} {ts : List Str} (h : List.Forall₂ TypedAs (init ++ [z]) ts)
    (hx : (∃ c e c' e', OrdinaryComplex z c e c' e' ∧ c' ≠ 0) ∨ ∃ x ∈ init ++ [z], ∃ c e c' e', OrdinaryComplex x c e c' e' ∧ c ≠ 0 ∧ c' < 0) :
    mapW complexOfString (splitChar ',' (stripChars ['[', ']', '{', '}'] (['{'] ++ joinStr [','] ts ++ ['}']))) () =
      ⟨.error .valueError, (), []⟩ := by
  have hall := h
  obtain ⟨ts, t, rfl, h1, h2⟩ := forall₂_snoc h
  have hb := typed_begins hall
  obtain ⟨c, e, c', e', hz, rfl⟩ := h2
  by_cases h0 : c' = 0
  · subst h0
    obtain ⟨b, k1, k2⟩ := calc_real (c := c) (e := e) (e' := e')
    rw [complex_split (by simp) hb k1 k2]
    refine mapW_value (fun s hs => ?_) ?_
    · obtain ⟨x, -, hx⟩ := forall₂_mem' hall hs
      exact typed_cases hx
    · rcases hx with ⟨_, _, _, _, g1, g2⟩ | ⟨x, hm, c1, e1, c1', e1', g1, g2, g3⟩
      · exact absurd (g1.unique hz).2.2.1 g2
      · obtain ⟨s, hs, _, _, _, _, g4, rfl⟩ := forall₂_mem hall hm
        obtain ⟨rfl, rfl, rfl, rfl⟩ := g1.unique g4
        exact ⟨_, hs, typeable_complex_refused g2 g3⟩
  · obtain ⟨re, im, hp⟩ := hz.plain
    obtain ⟨t, k1, k2, k3, k4⟩ := cut_refused (e' := e') hp.first h0
    obtain ⟨A, hA⟩ := join_last ts
    have hcut : ['{'] ++ joinStr [','] (ts ++ [(printed c c' (printLit c e) (printLit c' e')).calc]) ++ ['}'] =
        ['{'] ++ joinStr [','] (ts ++ [t]) ++ [']', '}'] := by
      rw [hA, hA, k1]; simp
    have hb' : ∀ u ∈ ts ++ [t], Begins u := by
      intro u hu
      rcases List.mem_append.1 hu with hu | hu
      · exact hb u (by simp [hu])
      · rw [List.mem_singleton] at hu
        subst hu
        exact begins_cut (k1 ▸ hb _ (by simp)) k3
    rw [hcut, complex_split (by simp) hb' k3 (by decide)]
    refine mapW_value (fun s hs => ?_) ⟨t, by simp, k4⟩
    rcases List.mem_append.1 hs with hs | hs
    · obtain ⟨x, -, hx⟩ := forall₂_mem' h1 hs
      exact typed_cases hx
    · rw [List.mem_singleton] at hs
      exact Or.inr (hs ▸ k4)

/-- Text of a list of complex numbers that loads. -/
theorem complex_list_read {init : List Ent} {z : Ent} {ts : List Str} (h : List.Forall₂ TypedAs (init ++ [z]) ts)
    (hx : ∀ x ∈ init ++ [z], ∃ c e c' e', OrdinaryComplex x c e c' e' ∧ (c = 0 ∨ 0 ≤ c')) (hz : ∃ c e e', OrdinaryComplex z c e 0 e') :
    splitChar ',' (stripChars ['[', ']', '{', '}'] (['{'] ++ joinStr [','] ts ++ ['}'])) = ts ∧
      ∃ xs, List.Forall₂ (fun t x => complexOfString t () = ⟨.ok x, (), []⟩) ts xs ∧ (∀ x ∈ xs, ComplexElem x) ∧
        List.Forall₂ SameComplex (init ++ [z]) xs := by
  constructor
  · have hb := typed_begins h
    obtain ⟨ts, t, rfl, h1, h2⟩ := forall₂_snoc h
    obtain ⟨c, e, c', e', hz', rfl⟩ := h2
    obtain ⟨c1, e1, e1', hz⟩ := hz
    obtain ⟨rfl, rfl, rfl, rfl⟩ := hz.unique hz'
    obtain ⟨b, k1, k2⟩ := calc_real (c := c1) (e := e1) (e' := e1')
    exact complex_split (by simp) hb k1 k2
  · generalize init ++ [z] = l at *
    induction h with
    | nil => exact ⟨[], .nil, by simp, .nil⟩
    | cons h1 h2 ih =>
      obtain ⟨xs, g1, g2, g3⟩ := ih fun x h => hx x (List.mem_cons_of_mem _ h)
      obtain ⟨c, e, c', e', k1, rfl⟩ := h1
      obtain ⟨c1, e1, c1', e1', k2, k3⟩ := hx _ List.mem_cons_self
      obtain ⟨rfl, rfl, rfl, rfl⟩ := k1.unique k2
      obtain ⟨re, im, hp⟩ := k1.plain
      obtain ⟨y, m1, m2, m3⟩ := typeable_complex_read hp k3
      refine ⟨y :: xs, .cons m1 g1, ?_, .cons m3 g3⟩
      intro x hx
      rcases List.mem_cons.1 hx with rfl | hx
      · exact m2
      · exact g2 x hx

end Verif
