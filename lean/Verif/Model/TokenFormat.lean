import Verif.Model.Hex
import Verif.Model.Tokenized
import Verif.Model.ArrayText

/-
Model of `TokenizedEntry.__format__` (`/repo/tivars/types/tokenized.py:45-67`). The format specification is restricted to
ASCII characters. The names of the tokens in the languages and the formatting of whole numbers by Python are parameters.
-/

namespace Verif

/-- `\w` for ASCII characters. -/
def isWord (c : Char) : Bool :=
  ('0' ≤ c && c ≤ '9') || ('A' ≤ c && c ≤ 'Z') || ('a' ≤ c && c ≤ 'z') || c == '_'

/-- `[a-z%#]` -/
def isLineType (c : Char) : Bool := ('a' ≤ c && c ≤ 'z') || c == '%' || c == '#'

/-- `$` without flags: the end, or a last line feed. -/
def atEnd (s : Str) : Bool := s == [] || s == ['\n']

/-- The groups of the regular expression (tokenized.py:47): `lines` and `sep` together, `spec`, `lang`. -/
structure TokSpec where
  lines : Option (Str × Str)
  spec : Str
  lang : Option Str
  deriving DecidableEq

/-- `(\.\w+)?$`: backtracking in `\w+` would leave a word character, which is not the end. -/
def matchLang : Str → Option (Option Str)
  | '.' :: r => if r.takeWhile isWord ≠ [] ∧ atEnd (r.dropWhile isWord) = true then some (some ('.' :: r.takeWhile isWord)) else none
  | s => if atEnd s then some none else none

/-- `(\w?)(\.\w+)?$` -/
def matchKind (s : Str) : Option (Str × Option Str) :=
  match s with
  | c :: r =>
    if isWord c then
      match matchLang r with
      | some l => some ([c], l)
      | none => (matchLang s).map ([], ·)
    else (matchLang s).map ([], ·)
  | [] => (matchLang s).map ([], ·)

/-- `(\W+)(\w?)(\.\w+)?$`, the longest separator first. -/
def matchSep : Str → Option (Str × Str × Option Str)
  | [] => none
  | c :: r =>
    if isWord c then none
    else match matchSep r with
      | some (sep, k) => some (c :: sep, k)
      | none => (matchKind r).map fun k => ([c], k)

/-- `(.*?[a-z%#])(\W+)(\w?)(\.\w+)?$`, the shortest first group first. -/
def matchLines : Str → Option (Str × Str × Str × Option Str)
  | [] => none
  | c :: r =>
    match if isLineType c then matchSep r else none with
    | some k => some ([c], k)
    | none => if c = '\n' then none else (matchLines r).map fun k => (c :: k.1, k.2)

/-- `re.match(r"(?:(.*?[a-z%#])(\W+))?(\w?)(\.\w+)?$", format_spec)` (tokenized.py:47). -/
def matchToken (s : Str) : Option TokSpec :=
  match matchLines s with
  | some (l, sep, k, lang) => some ⟨some (l, sep), k, lang⟩
  | none => (matchKind s).map fun k => ⟨none, k.1, k.2⟩

/-- The names of a token in a language: display and accessible. -/
abbrev Names (V : Type) := Tok V → Str → Option (Str × Str)

/-- `"".join(getattr(token.langs[lang], mode) for token in …)` (tokenized.py:84-85); a missing language is a `KeyError`. -/
def nameAll {V : Type} (names : Names V) (lang : Str) (accessible : Bool) : List (Tok V) → Except PyErr Str
  | [] => .ok []
  | t :: ts =>
    match names t lang with
    | none => .error .keyError
    | some (d, a) => (nameAll names lang accessible ts).map fun s => (if accessible then a else d) ++ s

/-- `f"{index:{lines}}{sep}" + line for index, line in enumerate(…)` (tokenized.py:61); `fmt` formats a number by a
specification. -/
def numberLines (fmt : Str → Nat → Except PyErr Str) (lines sep : Str) : Nat → List Str → Except PyErr (List Str)
  | _, [] => .ok []
  | k, l :: ls =>
    match fmt lines k with
    | .error x => .error x
    | .ok n => (numberLines fmt lines sep (k + 1) ls).map fun r => (n ++ sep ++ l) :: r

/-- The end of the `try` block (tokenized.py:60-64). -/
def withLines (fmt : Str → Nat → Except PyErr Str) (lines : Option (Str × Str)) (s : Str) : Except PyErr Str :=
  match lines with
  | none => .ok s
  | some (l, sep) => (numberLines fmt l sep 0 (splitChar '\n' s)).map (joinStr ['\n'])

/-- Which names are asked for (tokenized.py:50-58): `some false` for display, `some true` for accessible names, `none` for
the `KeyError`. -/
def nameMode (spec : Str) : Option Bool :=
  if spec = [] ∨ spec = ['d'] then some false
  else if spec = ['a'] ∨ spec = ['t'] then some true
  else none

namespace Ent
variable {V : Type} [LinearOrder V]

/-- `except (AttributeError, KeyError, TypeError, ValueError)` (tokenized.py:66). -/
def formatCaught : PyErr → Bool
  | .attributeError | .keyError | .typeError | .valueError => true
  | _ => false

/-- `TokenizedEntry.__format__(format_spec)` (tokenized.py:45-67); `own` is what `object.__str__` gives. The warnings of the
decoder are emitted only when it is reached. -/
def formatTokens (env : Env V) (names : Names V) (fmt : Str → Nat → Except PyErr Str) (own : Str) (e : Ent) (s : Str) :
    PyM Unit Str :=
  match matchToken s with
  | none => PyM.ofExcept (formatHex own e.body.bytes s)
  | some m =>
    match nameMode m.spec with
    | none => PyM.ofExcept (formatHex own e.body.bytes s)
    | some accessible => do
      PyM.warnAll (e.tokens env).1
      PyM.ofExcept <|
        match (nameAll names (m.lang.getD ".en".toList).tail accessible (e.tokens env).2).bind (withLines fmt m.lines) with
        | .ok t => .ok t
        | .error x => if formatCaught x then formatHex own e.body.bytes s else .error x

end Ent
end Verif
