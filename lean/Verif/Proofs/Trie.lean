import Verif.Model.Token
import Verif.Spec.Token

/- Helper lemmas about tries. -/

namespace Verif
namespace Trie
variable {τ : Type}

theorem lookup_update (c c' : Char) (t : Trie τ) (l : List (Char × Trie τ)) :
    lookup c' (update c t l) = if c' = c then some t else lookup c' l := by
  induction l with
  | nil =>
    by_cases h : c' = c
    · simp [update, lookup, h]
    · have h' : ¬ c = c' := fun e => h e.symm
      simp [update, lookup, h, h']
  | cons p l ih =>
    obtain ⟨d, u⟩ := p
    by_cases hd : d = c
    · subst hd
      by_cases h : c' = d
      · subst h; simp [update, lookup]
      · have h' : ¬ d = c' := fun e => h e.symm
        simp [update, lookup, h, h']
    · by_cases h : d = c'
      · subst h; simp [update, lookup, hd]
      · simp [update, lookup, hd, h, ih]

/-- The token at the end of a path. -/
def at_ : Str → Trie τ → Option τ
  | [], t => t.token
  | c :: s, t => match lookup c t.children with
    | none => none
    | some u => at_ s u

@[simp] theorem at_empty (s : Str) : at_ s (empty : Trie τ) = none := by
  cases s <;> simp [at_, empty, token, children, lookup]

theorem at_insertName (tok : τ) (name s : Str) (t : Trie τ) :
    at_ s (insertName tok name t) = if s = name then some tok else at_ s t := by
  induction name generalizing s t with
  | nil =>
    obtain ⟨x, cs⟩ := t
    cases s with
    | nil => simp [insertName, at_, token]
    | cons c s => simp [insertName, at_, children]
  | cons c name ih =>
    obtain ⟨x, cs⟩ := t
    cases s with
    | nil => simp [insertName, at_, token]
    | cons d s =>
      simp only [insertName, at_, children, lookup_update]
      by_cases h : d = c
      · subst h
        simp only [if_pos, ih, List.cons.injEq, true_and]
        cases hl : lookup d cs with
        | none => simp
        | some u => simp
      · simp [h]

theorem named_append_single (tbl : List (Str × τ)) (n : Str) (x : τ) (s : Str) :
    named (tbl ++ [(n, x)]) s = if s = n then some x else named tbl s := by
  unfold named
  rw [List.reverse_append]
  simp only [List.reverse_cons, List.reverse_nil, List.nil_append, List.cons_append,
    List.find?_cons]
  by_cases h : s = n
  · subst h; simp
  · have h' : (n == s) = false := by simpa using fun e => h e.symm
    simp [h, h']

theorem at_insert (tok : τ) (names : List Str) (s : Str) (t : Trie τ) (tbl : List (Str × τ))
    (h : ∀ s, at_ s t = named tbl s) :
    at_ s (insert tok names t) = named (tbl ++ names.map fun n => (n, tok)) s := by
  unfold insert
  induction names generalizing t tbl with
  | nil => simpa using h s
  | cons n names ih =>
    rw [List.foldl_cons, ih (insertName tok n t) (tbl ++ [(n, tok)])]
    · simp
    · intro s
      rw [at_insertName, named_append_single, h]

theorem at_fold (toks : List (τ × List Str)) (s : Str) (t : Trie τ) (tbl : List (Str × τ))
    (h : ∀ s, at_ s t = named tbl s) :
    at_ s (toks.foldl (fun t p => insert p.1 p.2 t) t) = named (tbl ++ namePairs toks) s := by
  induction toks generalizing t tbl with
  | nil => simpa [namePairs] using h s
  | cons p toks ih =>
    rw [List.foldl_cons, ih _ (tbl ++ p.2.map fun n => (n, p.1))]
    · simp [namePairs]
    · intro s
      exact at_insert _ _ _ _ _ h

theorem at_fromTokens (toks : List (τ × List Str)) (s : Str) :
    at_ s (fromTokens toks) = named (namePairs toks) s := by
  have := at_fold toks s empty [] (by intro s; simp [named])
  simpa [fromTokens] using this

theorem match_eq (s : Str) (t : Trie τ) :
    Trie.match s t = (List.range (s.length + 1)).reverse.filterMap fun n =>
      (at_ (s.take n) t).map fun x => (x, s.drop n) := by
  induction s generalizing t with
  | nil =>
    simp only [Trie.match, List.length_nil, Nat.zero_add, List.range_one]
    cases h : t.token <;> simp [at_, h]
  | cons c s ih =>
    rw [List.length_cons, List.range_succ_eq_map, List.reverse_cons, List.filterMap_append,
      ← List.map_reverse, List.filterMap_map]
    simp only [Trie.match]
    congr 1
    · cases h : lookup c t.children with
      | none =>
        symm
        rw [List.filterMap_eq_nil_iff]
        intro a _
        simp [at_, h]
      | some u =>
        simp only [ih]
        congr 1
        funext n
        simp [at_, h]
    · cases h : t.token <;> simp [at_, h]

theorem match_fromTokens (toks : List (τ × List Str)) (s : Str) :
    Trie.match s (fromTokens toks) = matchesOf (namePairs toks) s := by
  rw [match_eq, matchesOf]
  simp only [at_fromTokens]

end Trie
end Verif
