import Verif.Proofs.ArrayText
import Verif.Proofs.ComplexPrint

/-! Splitting the text of a matrix; the texts of numbers contain no delimiters. -/

namespace Verif
open Spec Ent

theorem intercalate_join (sep : Str) : ∀ ts : List Str, List.intercalate sep ts = joinStr sep ts
  | [] => rfl
  | [a] => by simp [List.intercalate, joinStr]
  | a :: b :: l => by
    have := intercalate_join sep (b :: l)
    unfold joinStr
    rw [← this]
    simp [List.intercalate, List.intersperse]

theorem splitStr_fuel {sep : Str} (hs : sep ≠ []) : ∀ (n m : Nat) (s : Str), s.length ≤ n → s.length ≤ m →
    splitStr.go sep s n = splitStr.go sep s m
  | 0, 0, _, _, _ => rfl
  | 0, m + 1, [], _, _ => rfl
  | n + 1, 0, [], _, _ => rfl
  | n + 1, m + 1, [], _, _ => rfl
  | n + 1, m + 1, c :: cs, h1, h2 => by
    simp only [List.length_cons, Nat.add_le_add_iff_right] at h1 h2
    have hl : 1 ≤ sep.length := List.length_pos_iff.2 hs
    rw [splitStr.go, splitStr.go]
    split
    · rw [splitStr_fuel hs n m _ (by simp only [List.length_drop, List.length_cons]; omega)
        (by simp only [List.length_drop, List.length_cons]; omega)]
    · rw [splitStr_fuel hs n m cs h1 h2]

theorem splitStr_hit {sep : Str} (hs : sep ≠ []) (t : Str) : splitStr sep (sep ++ t) = [] :: splitStr sep t := by
  cases sep with
  | nil => exact absurd rfl hs
  | cons a as =>
    unfold splitStr
    simp only [List.cons_append, List.length_cons]
    rw [splitStr.go, if_pos]
    · rw [splitStr_fuel hs _ t.length _ _ (by simp)]
      · congr 1
        rw [← List.cons_append, show (a :: as).length = (a :: as).length from rfl, List.drop_left' rfl]
      · simp
    · rw [List.isPrefixOf_iff_prefix]
      exact ⟨t, by simp⟩

/-- The first piece grows by what is in front of it. -/
def growHead (a : Str) : List Str → List Str
  | [] => [a]
  | p :: ps => (a ++ p) :: ps

theorem splitStr_miss {sep : Str} {c : Char} {t : Str} (h : List.isPrefixOf sep (c :: t) = false) :
    splitStr sep (c :: t) = growHead [c] (splitStr sep t) := by
  unfold splitStr
  simp only [List.length_cons]
  rw [splitStr.go, if_neg (by simp [h])]
  cases splitStr.go sep t t.length <;> rfl

theorem growHead_append (a b : Str) (l : List Str) : growHead (a ++ b) l = growHead a (growHead b l) := by
  cases l <;> simp [growHead]

theorem splitStr_skip {a : Char} {as : Str} : ∀ {s : Str}, a ∉ s → ∀ t : Str, splitStr (a :: as) (s ++ t) = growHead s (splitStr (a :: as) t)
  | [], _, t => by
    have : splitStr (a :: as) t ≠ [] := by
      unfold splitStr
      cases t with
      | nil => simp [splitStr.go]
      | cons c t =>
        simp only [List.length_cons]
        rw [splitStr.go]
        split
        · simp
        · split <;> simp
    cases h : splitStr (a :: as) t with
    | nil => exact absurd h this
    | cons p ps => simp [h, growHead]
  | c :: s, h, t => by
    rw [List.mem_cons, not_or] at h
    rw [List.cons_append, splitStr_miss (by
      simp only [List.isPrefixOf, Bool.and_eq_false_imp, beq_iff_eq]
      exact fun hh => absurd hh h.1), splitStr_skip h.2, ← growHead_append]
    rfl

/-- The rows as they are written, one behind the other. -/
def rowStr (r : List Str) : Str := '[' :: (joinStr [','] r ++ [']'])

theorem rows_pattern (sep : Str) (hsep : sep = [] ∨ sep = [',']) : ∀ (r : Str) (rs : List Str), (∀ x ∈ r :: rs, '[' ∉ x ∧ ']' ∉ x) →
    replaceStr [']', ',', '['] [']', '['] (joinStr sep ((r :: rs).map fun x => '[' :: (x ++ [']']))) =
      joinStr [] ((r :: rs).map fun x => '[' :: (x ++ [']']))
  | r, [], h => by
    show replaceStr _ _ ('[' :: (r ++ [']'])) = '[' :: (r ++ [']'])
    rw [show ('[' :: (r ++ [']'])) = ('[' :: r) ++ [']'] by simp, replaceStr_skip]
    · rw [replaceStr_miss _ (by decide)]; rfl
    · rw [List.mem_cons, not_or]
      exact ⟨by decide, (h r (by simp)).2⟩
  | r, r' :: rs, h => by
    have hr : ']' ∉ '[' :: r := by
      rw [List.mem_cons, not_or]
      exact ⟨by decide, (h r (by simp)).2⟩
    have ih := rows_pattern sep hsep r' rs fun x hx => h x (List.mem_cons_of_mem _ hx)
    have hstart : ∀ s : Str, ∃ u, joinStr s ((r' :: rs).map fun x => '[' :: (x ++ [']'])) = '[' :: u := by
      intro s
      cases rs with
      | nil => exact ⟨_, rfl⟩
      | cons r'' rs => simp [joinStr]
    obtain ⟨u, hu⟩ := hstart sep
    obtain ⟨v, hv⟩ := hstart []
    rw [hu, hv] at ih
    have hj : ∀ s : Str, joinStr s ((r :: r' :: rs).map fun x => '[' :: (x ++ [']'])) =
        ('[' :: r) ++ (']' :: (s ++ joinStr s ((r' :: rs).map fun x => '[' :: (x ++ [']'])))) := by
      intro s
      simp [joinStr]
    rw [hj, hj, replaceStr_skip hr, hu, hv]
    congr 1
    have hmiss : replaceStr [']', ',', '['] [']', '['] ('[' :: u) = '[' :: replaceStr [']', ',', '['] [']', '['] u :=
      replaceStr_miss _ (by simp [List.isPrefixOf])
    rw [hmiss] at ih
    rcases hsep with rfl | rfl
    · rw [List.nil_append, List.nil_append, replaceStr_miss _ (by simp [List.isPrefixOf]), hmiss, ih]
    · show replaceStr [']', ',', '['] [']', '['] ([']', ',', '['] ++ u) = _
      rw [replaceStr_hit]
      exact congrArg (List.cons ']') ih

theorem remove_brackets {a r b : Str} (ha : ∀ x ∈ a, x = '[' ∨ x = ']') (hb : ∀ x ∈ b, x = '[' ∨ x = ']') (h1 : '[' ∉ r) (h2 : ']' ∉ r) :
    replaceStr [']'] [] (replaceStr ['['] [] (a ++ r ++ b)) = r := by
  have key : ∀ (c : Char) (s : Str), replaceStr [c] [] s = s.filter (· ≠ c) := by
    intro c s
    rw [replaceStr_single]
    induction s with
    | nil => rfl
    | cons x s ih =>
      rw [List.flatMap_cons, ih, List.filter_cons]
      by_cases h : x = c <;> simp [h]
  rw [key, key]
  have hnil : ∀ s : Str, (∀ x ∈ s, x = '[' ∨ x = ']') → (s.filter (· ≠ '[')).filter (· ≠ ']') = [] := by
    intro s hs
    rw [List.filter_filter, List.filter_eq_nil_iff]
    intro x hx
    rcases hs x hx with h | h <;> simp [h]
  rw [List.filter_append, List.filter_append, List.filter_append, List.filter_append, hnil a ha, hnil b hb, List.append_nil, List.nil_append,
    List.filter_filter, List.filter_eq_self]
  intro x hx
  have e1 : x ≠ '[' := fun h => h1 (h ▸ hx)
  have e2 : x ≠ ']' := fun h => h2 (h ▸ hx)
  simp [e1, e2]

/-- The pieces between the rows, with the brackets that remain at both ends. -/
theorem rows_split (a : Str) (ha : ∀ x ∈ a, x = '[') : ∀ (r : Str) (rs : List Str), (∀ x ∈ r :: rs, '[' ∉ x ∧ ']' ∉ x) →
    (splitStr [']', '['] (a ++ (r ++ (']' :: (joinStr [] (rs.map fun x => '[' :: (x ++ [']']))))))).map
      (fun row => replaceStr [']'] [] (replaceStr ['['] [] row)) = r :: rs := by
  have hjoin : ∀ l : List Str, joinStr [] l = l.flatten := by
    intro l
    induction l with
    | nil => rfl
    | cons x l ih =>
      cases l with
      | nil => simp [joinStr]
      | cons y l => unfold joinStr; rw [ih]; simp
  intro r rs
  induction rs generalizing a r with
  | nil =>
    intro h
    have hr := h r (by simp)
    have h2 : ']' ∉ a ++ r := by
      rw [List.mem_append, not_or]
      exact ⟨fun h => by have := ha _ h; revert this; decide, hr.2⟩
    show List.map _ (splitStr _ (a ++ (r ++ [']']))) = _
    rw [← List.append_assoc, splitStr_skip h2]
    show List.map _ (growHead (a ++ r) [[']']]) = [r]
    simp only [growHead, List.map_cons, List.map_nil]
    rw [remove_brackets (fun x hx => Or.inl (ha x hx)) (by simp) hr.1 hr.2]
  | cons r' rs ih =>
    intro h
    have hr := h r (by simp)
    have h2 : ']' ∉ a ++ r := by
      rw [List.mem_append, not_or]
      exact ⟨fun h => by have := ha _ h; revert this; decide, hr.2⟩
    have hs : (a ++ (r ++ (']' :: joinStr [] ((r' :: rs).map fun x => '[' :: (x ++ [']']))))) =
        (a ++ r) ++ ([']', '['] ++ (r' ++ (']' :: joinStr [] (rs.map fun x => '[' :: (x ++ [']']))))) := by
      rw [hjoin, hjoin]; simp
    rw [hs, splitStr_skip h2, splitStr_hit (by simp)]
    simp only [growHead, List.map_cons, List.append_nil]
    have := ih [] (by simp) r' fun x hx => h x (List.mem_cons_of_mem _ hx)
    rw [List.nil_append] at this
    rw [this]
    have := remove_brackets (a := a) (r := r) (b := []) (fun x hx => Or.inl (ha x hx)) (by simp) hr.1 hr.2
    rw [List.append_nil] at this
    rw [this]

/-- The elements of the text of a matrix. -/
theorem matrix_split {s : Str} {sep : Str} {tss : List (List Str)} (hsep : sep = [] ∨ sep = [',']) (hne : tss ≠ []) (hrow : ∀ r ∈ tss, r ≠ [])
    (ht : ∀ r ∈ tss, ∀ t ∈ r, Undelimited t) (hs : squash s = '[' :: (joinStr sep (tss.map rowStr) ++ [']'])) : matrixTexts s = tss := by
  have hr : ∀ x ∈ tss.map (joinStr [',']), '[' ∉ x ∧ ']' ∉ x := by
    intro x hx
    obtain ⟨r, hr, rfl⟩ := List.mem_map.1 hx
    exact ⟨join_not_mem (by decide) fun t htm h => ht r hr t htm _ h (by simp [IsDelimiter]),
      join_not_mem (by decide) fun t htm h => ht r hr t htm _ h (by simp [IsDelimiter])⟩
  have hmap : tss.map rowStr = (tss.map (joinStr [','])).map fun x => '[' :: (x ++ [']']) := by
    rw [List.map_map]; rfl
  unfold matrixTexts
  rw [hs, List.drop_one, List.tail_cons, List.dropLast_concat, hmap]
  obtain ⟨r, rs, hrs⟩ : ∃ r rs, tss.map (joinStr [',']) = r :: rs := by
    cases tss with
    | nil => exact absurd rfl hne
    | cons r rs => exact ⟨_, _, rfl⟩
  rw [hrs] at hr ⊢
  rw [rows_pattern sep hsep r rs hr]
  have hform : joinStr [] ((r :: rs).map fun x => '[' :: (x ++ [']'])) =
      ['['] ++ (r ++ (']' :: (joinStr [] (rs.map fun x => '[' :: (x ++ [']']))))) := by
    cases rs <;> simp [joinStr]
  rw [hform]
  have := congrArg (List.map (splitChar ',')) (rows_split ['['] (by simp) r rs hr)
  rw [List.map_map] at this
  refine Eq.trans ?_ (this.trans ?_)
  · rfl
  · rw [← hrs, List.map_map]
    conv_rhs => rw [← List.map_id tss]
    refine List.map_congr_left fun x hx => ?_
    exact splitChar_join (hrow x hx) fun t htm h => ht x hx t htm _ h (Or.inl rfl)

theorem literal_all {l : Literal} (hv : l.Valid) : ∀ x ∈ l.render, isDig x = true ∨ x ∈ ['+', '-', '~', '.', 'e', 'E', '|'] := by
  unfold Literal.render
  refine append_in (append_in (append_in (consts_in ?_) (digits_in hv.1 _)) ?_) ?_
  · cases l.sign <;> decide
  · unfold Literal.fracStr
    cases hf : l.frac with
    | none => intro x hx; cases hx
    | some f => exact append_in (a := ['.']) (consts_in (by decide)) (digits_in (hv.2.1 f hf) _)
  · unfold Literal.expStr
    cases hf : l.exp with
    | none => intro x hx; cases hx
    | some f =>
      obtain ⟨m, g, x⟩ := f
      refine append_in (append_in (consts_in ?_) (consts_in ?_)) (digits_in (hv.2.2 m g x hf).1 _)
      · cases m <;> decide
      · cases g <;> decide

theorem undelimited_of {s t : Str} {ch : List Char} (hs : squash s = t) (ht : ∀ x ∈ t, isDig x = true ∨ x ∈ ch)
    (hc : ∀ x ∈ ch, x ∉ [',', '[', ']', '{', '}']) : Undelimited s := by
  have hmem : ∀ c, IsDelimiter c → c ∈ [',', '[', ']', '{', '}'] := by
    rintro c (h | h | h | h | h) <;> simp [h]
  intro c hcs hd
  have h := hmem c hd
  have h1 : isSpaceChar c = false := (by decide : ∀ c ∈ [',', '[', ']', '{', '}'], isSpaceChar c = false) c h
  have h2 : isDig c = false := (by decide : ∀ c ∈ [',', '[', ']', '{', '}'], isDig c = false) c h
  refine not_in ht h2 (fun h' => hc c h' h) ((mem_of_squash hs h1).1 hcs)

/-- The text of a number contains no delimiters. -/
theorem undelimited {n : NumText} (hv : n.Valid) {s : Str} (hw : n.Writes s) : Undelimited s := by
  have hd : ∀ {g : Sign} {p r : Str}, Digits p → (∀ x ∈ r, isDig x = true ∨ x = '/' ∨ x = 'π') →
      ∀ x ∈ g.str ++ (p ++ r), isDig x = true ∨ x ∈ ['+', '-', '~', '/', 'π'] := by
    intro g p r hp hr x hx
    rcases ratio_chars hp hr x hx with h | h | h | h | h | h <;> simp [h]
  cases n with
  | literal l => exact undelimited_of hw (literal_all hv) (by decide)
  | ratio g p q => exact undelimited_of hw (hd hv.1 (slash_chars hv.2.2.1)) (by decide)
  | radical t => exact undelimited_of hw (rad_in hv.1) (by decide)
  | multiple l star word =>
    obtain ⟨a, h1, rfl⟩ := hw
    intro c hc
    rcases List.mem_append.1 hc with h | h
    · exact undelimited_of h1 (literal_all hv) (by decide) c h
    · have : c ∈ ['*', 'p', 'i', 'π'] := (by decide : ∀ star word, ∀ c ∈ piStrOf star word, c ∈ ['*', 'p', 'i', 'π']) star word c h
      rintro (h | h | h | h | h) <;> rw [h] at this <;> revert this <;> decide
  | piRatio g p q => exact undelimited_of hw (hd hv.1 (pi_chars hv.2.2.1)) (by decide)

end Verif
