import Verif.Spec.Hex
import Verif.Model.TokenFormat

/-! Specifications for tokenized entries as text. -/

namespace Verif.Spec

/-- A specification for tokens: format and separator of the line numbers, the kind of names, the language. -/
structure TokenText where
  numbers : Option (Str × Str)
  kind : Str
  lang : Option Str

namespace TokenText

/-- The specification as text. -/
def text (t : TokenText) : Str :=
  (match t.numbers with
    | none => []
    | some (l, sep) => l ++ sep) ++
  t.kind ++
  (match t.lang with
    | none => []
    | some w => '.' :: w)

/-- The format of a number ends with the first of `a` to `z`, `%` and `#` in it; separators have no letters, digits or
underscores; names of languages are words of at least two characters. -/
def Well (t : TokenText) : Prop :=
  (∀ l sep, t.numbers = some (l, sep) →
    (∃ pre c, l = pre ++ [c] ∧ isLineType c = true ∧ ∀ x ∈ pre, isLineType x = false ∧ x ≠ '\n') ∧
    sep ≠ [] ∧ ∀ x ∈ sep, isWord x = false) ∧
  t.kind ∈ [[], ['d'], ['a'], ['t']] ∧
  ∀ w, t.lang = some w → 2 ≤ w.length ∧ ∀ x ∈ w, isWord x = true

/-- The language asked for. -/
def language (t : TokenText) : Str := t.lang.getD "en".toList

/-- `a` and `t` ask for accessible names. -/
def accessible (t : TokenText) : Bool := t.kind = ['a'] ∨ t.kind = ['t']

end TokenText

/-- Lines with their numbers, counted from zero. -/
def numbered (num : Nat → Str) (sep : Str) (ls : List Str) : List Str := ls.mapIdx fun k l => num k ++ sep ++ l

end Verif.Spec
