import Verif.Model.TokBox

/-
What a container of tokens must offer, in terms of the tokens of the sheet alone.
-/

namespace Verif
namespace Sheet
variable {V : Type}

/-- The token has names in the language. -/
def Speaks (t : SheetTok V) (lang : Str) : Prop := ∃ ns, (lang, ns) ∈ t.langs

/-- `n` is a name of the token in the language. -/
def Calls (t : SheetTok V) (lang n : Str) : Prop := ∃ ns, (lang, ns) ∈ t.langs ∧ n ∈ ns

/-- The keys of every dictionary of the sheet differ, and no language is empty. -/
def Proper (s : Sheet V) : Prop :=
  (s.bytes.map Prod.fst).Nodup ∧ (s.langs.map Prod.fst).Nodup ∧ (∀ l ∈ s.langs, (l.2.map Prod.fst).Nodup ∧ l.1 ≠ []) ∧
  ∀ p ∈ s.bytes, (p.2.langs.map Prod.fst).Nodup

/-- All tokens have English names, and the indices name only codes of the sheet. -/
def Closed (s : Sheet V) : Prop :=
  (∀ p ∈ s.bytes, Speaks p.2 ['e', 'n']) ∧ ∀ l ∈ s.langs, ∀ q ∈ l.2, ∃ t, (q.2, t) ∈ s.bytes

/-- Every token has names in every language of the sheet. -/
def Translated (s : Sheet V) : Prop := ∀ p ∈ s.bytes, ∀ l ∈ s.langs, Speaks p.2 l.1

/-- There is an index of English names. -/
def HasEnglish (s : Sheet V) : Prop := ∃ ix, (['e', 'n'], ix) ∈ s.langs

/-- The index of each language has the names of the tokens in it, and of several tokens with one name the last. -/
def Indexed (s : Sheet V) : Prop :=
  ∀ l ∈ s.langs, ∀ n b, (n, b) ∈ l.2 ↔
    ∃ pre t post, s.bytes = pre ++ (b, t) :: post ∧ Calls t l.1 n ∧ ∀ p ∈ post, ¬ Calls p.2 l.1 n

/-- No two tokens share a name, in whatever languages. -/
def Unambiguous (s : Sheet V) : Prop :=
  ∀ l ∈ s.langs, ∀ l' ∈ s.langs, ∀ n b b', (n, b) ∈ l.2 → (n, b') ∈ l'.2 → b = b'

end Sheet
end Verif
