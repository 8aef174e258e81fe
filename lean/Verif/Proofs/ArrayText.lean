import Verif.Proofs.ElemLoad
import Verif.Proofs.Array

/-! Splitting the texts of lists and matrices. -/

namespace Verif
open Spec Ent

theorem join_not_mem {c : Char} {sep : Str} (hs : c ∉ sep) : ∀ {ts : List Str}, (∀ t ∈ ts, c ∉ t) → c ∉ joinStr sep ts
  | [], _ => by simp [joinStr]
  | [a], h => by simpa [joinStr] using h a (by simp)
  | a :: b :: l, h => by
    unfold joinStr
    rw [List.mem_append, List.mem_append]
    rintro ((h1 | h1) | h1)
    · exact h a (by simp) h1
    · exact hs h1
    · exact join_not_mem hs (fun t ht => h t (List.mem_cons_of_mem _ ht)) h1

/-- Splitting undoes joining. -/
theorem splitChar_join {sep : Char} : ∀ {ts : List Str}, ts ≠ [] → (∀ t ∈ ts, sep ∉ t) → splitChar sep (joinStr [sep] ts) = ts
  | [], h, _ => absurd rfl h
  | [a], _, h => splitChar_of_not_mem (h a (by simp))
  | a :: b :: l, _, h => by
    unfold joinStr
    rw [List.append_assoc, List.singleton_append, splitChar_append (h a (by simp)),
      splitChar_join (by simp) fun t ht => h t (List.mem_cons_of_mem _ ht)]

theorem lstrip_all {chars : List Char} : ∀ {a : Str}, (∀ x ∈ a, x ∈ chars) → ∀ b : Str, lstripChars chars (a ++ b) = lstripChars chars b
  | [], _, _ => rfl
  | x :: a, h, b => by
    show lstripChars chars (x :: (a ++ b)) = _
    unfold lstripChars
    rw [List.dropWhile_cons, if_pos (by simpa using h x (by simp))]
    exact lstrip_all (fun y hy => h y (List.mem_cons_of_mem _ hy)) b

theorem lstrip_none {chars : List Char} {a : Str} (h : ∀ x ∈ a, x ∉ chars) : lstripChars chars a = a := by
  cases a with
  | nil => rfl
  | cons x a =>
    unfold lstripChars
    rw [List.dropWhile_cons, if_neg (by simpa using h x (by simp))]

/-- Stripping what encloses a text. -/
theorem strip_enclosed {chars : List Char} {o m c : Str} (ho : ∀ x ∈ o, x ∈ chars) (hc : ∀ x ∈ c, x ∈ chars) (hm : ∀ x ∈ m, x ∉ chars) :
    stripChars chars (o ++ m ++ c) = m := by
  have hr : ∀ (a : Str), rstripChars chars a = (lstripChars chars a.reverse).reverse := fun a => rfl
  unfold stripChars
  rw [List.append_assoc, lstrip_all ho, hr]
  by_cases he : m = []
  · subst he
    have : lstripChars chars c = [] := by
      have := lstrip_all hc []
      rw [List.append_nil] at this
      exact this
    rw [List.nil_append, this]; rfl
  · have : lstripChars chars (m ++ c) = m ++ c := by
      cases m with
      | nil => exact absurd rfl he
      | cons x m =>
        unfold lstripChars
        rw [List.cons_append, List.dropWhile_cons, if_neg (by simpa using hm x (by simp))]
    rw [this, List.reverse_append, lstrip_all (fun x hx => hc x (List.mem_reverse.1 hx)),
      lstrip_none (fun x hx => hm x (List.mem_reverse.1 hx)), List.reverse_reverse]

/-- The elements of the text of a list. -/
theorem list_split {o c : Str} {ts : List Str} (ho : ∀ x ∈ o, IsBracket x) (hc : ∀ x ∈ c, IsBracket x) (hne : ts ≠ [])
    (ht : ∀ t ∈ ts, Undelimited t) : splitChar ',' (stripChars ['[', ']', '{', '}'] (o ++ joinStr [','] ts ++ c)) = ts := by
  have hb : ∀ x, IsBracket x → x ∈ ['[', ']', '{', '}'] := by
    rintro x (h | h | h | h) <;> simp [h]
  rw [strip_enclosed (fun x hx => hb x (ho x hx)) (fun x hx => hb x (hc x hx)), splitChar_join hne]
  · intro t htm h
    exact ht t htm _ h (Or.inl rfl)
  · intro x hx hmem
    refine join_not_mem (c := x) (sep := [',']) ?_ ?_ hx
    · rintro h
      rw [List.mem_singleton] at h
      subst h
      revert hmem; decide
    · intro t htm h
      refine ht t htm x h ?_
      simp only [List.mem_cons, List.not_mem_nil, or_false] at hmem
      rcases hmem with h | h | h | h <;> simp [IsDelimiter, h]

theorem mapW_ok {α β : Type} {f : α → PyM Unit β} {l : List α} {r : List β} (h : List.Forall₂ (fun a b => f a () = ⟨.ok b, (), []⟩) l r) :
    mapW f l () = ⟨.ok r, (), []⟩ := by
  induction h with
  | nil => rfl
  | cons h _ ih => simp [mapW, PyM.bind_run, h, ih]

/-- An element that cannot be read, and what is raised; the elements in front of it can be read. -/
theorem mapW_error {α β : Type} {f : α → PyM Unit β} {pre : List α} {ys : List β} (h : List.Forall₂ (fun a b => f a () = ⟨.ok b, (), []⟩) pre ys)
    {a : α} {x : PyErr} {w : List Warn} (ha : f a () = ⟨.error x, (), w⟩) (post : List α) :
    mapW f (pre ++ a :: post) () = ⟨.error x, (), w⟩ := by
  induction h with
  | nil => simp [mapW, PyM.bind_run, ha]
  | cons h _ ih => simp [mapW, PyM.bind_run, h, ih]

theorem firstReal_error {s : Str} {x : PyErr} : ∀ {l : List (Int × Cls)}, firstReal s l = .error x → x = .valueError
  | [], h => by cases h; rfl
  | (t, c) :: l, h => by
    unfold firstReal at h
    split at h
    · cases h
    · exact firstReal_error h

/-- Reading a number gives a number or `ValueError`. -/
theorem realOfString_cases (s : Str) : (∃ x, realOfString s () = ⟨.ok x, (), []⟩) ∨ realOfString s () = ⟨.error .valueError, (), []⟩ := by
  unfold realOfString
  cases h : firstReal s realTypes with
  | ok p => exact Or.inl ⟨_, rfl⟩
  | error x => exact Or.inr (by rw [firstReal_error h]; rfl)

theorem mapW_refused {l : List Str} {s : Str} (hs : s ∈ l) (h : realOfString s () = ⟨.error .valueError, (), []⟩) :
    mapW realOfString l () = ⟨.error .valueError, (), []⟩ := by
  induction l with
  | nil => cases hs
  | cons t l ih =>
    rcases realOfString_cases t with ⟨x, hx⟩ | hx
    · rcases List.mem_cons.1 hs with rfl | hs
      · rw [h] at hx; cases hx
      · simp [mapW, PyM.bind_run, hx, ih hs]
    · simp [mapW, PyM.bind_run, hx]

theorem outside_ok {α : Type} {x : PyM Unit α} {a : α} (h : x () = ⟨.ok a, (), []⟩) (e : Ent) : outside x e = ⟨.ok a, e, []⟩ := by
  show (⟨(x ()).res, e, (x ()).warns⟩ : Out Ent α) = _
  rw [h]

theorem outside_error {α : Type} {x : PyM Unit α} {r : PyErr} {w : List Warn} (h : x () = ⟨.error r, (), w⟩) (e : Ent) :
    outside x e = ⟨.error r, e, w⟩ := by
  show (⟨(x ()).res, e, (x ()).warns⟩ : Out Ent α) = _
  rw [h]

end Verif
