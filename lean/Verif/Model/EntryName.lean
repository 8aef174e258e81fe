import Verif.Model.Picture
import Verif.Model.Entry
import Verif.Py.Str

/-
Model of the names of entries: `Name` and `TokenizedString` (`/repo/tivars/tokenizer/__init__.py`), `ListName`
(`/repo/tivars/types/list.py`), the spellings of names of equations and strings (`/repo/tivars/types/tokenized.py`) and the section
`name` of each class. The table of tokens and the trie of the TI-84+CE are parameters, as elsewhere; the text is taken to be in
Unicode normal form C.
-/

namespace Verif
variable {V : Type} [LinearOrder V]

/-- `str.upper()` of a character. Of the characters beyond ASCII only theta is given its capital. -/
def upperChar (c : Char) : Char :=
  if 97 ≤ c.toNat ∧ c.toNat ≤ 122 then Char.ofNat (c.toNat - 32) else if c = 'θ' then 'Θ' else c

/-- `str.lower()` of a character, for ASCII characters. -/
def lowerChar (c : Char) : Char := if 65 ≤ c.toNat ∧ c.toNat ≤ 90 then Char.ofNat (c.toNat + 32) else c

/-- `str.capitalize()`. -/
def capitalize : Str → Str
  | [] => []
  | c :: cs => upperChar c :: cs.map lowerChar

/-- `str.replace(c, by)` for a single character `c`. -/
def replaceChar (c : Char) (by' : Str) (s : Str) : Str := s.flatMap fun x => if x = c then by' else [x]

/-- `sub in s` for texts. -/
def hasText (sub : Str) : Str → Bool
  | [] => sub.isEmpty
  | c :: cs => sub.isPrefixOf (c :: cs) || hasText sub cs

/-- `TokenizedString.get` (tokenizer/__init__.py:27-28): the display names of the tokens, with the warnings of `decode`. -/
def tokenText (env : Env V) (data : Bytes) : List Warn × Str :=
  let r := decode env.initial env.table (ljust 8 data)
  (r.warns, r.out.flatMap Tok.display)

/-- `Name.set` (tokenizer/__init__.py:45-54); `c` is the class of `instance`, if there is one. -/
def nameSet (env : Env V) (trie : Trie (Tok V)) (c : Option Cls) (value : Str) : PyM Unit Bytes :=
  let leading := (c.map Cls.leadingName).getD []
  let mode : EncMode := if leading.isEmpty then .string else .max
  match encode env.initial trie mode (thetaSub value) with
  | some (.ok acc) => do
    let data := rstripNul acc.data
    PyM.warnAll (if leading.isPrefixOf data then [] else [.badName])
    pure data
  | _ => PyM.raise .valueError

/-- `ListName.get` (list.py:29-46). -/
def listNameGet (env : Env V) (data : Bytes) : List Warn × Except PyErr Str :=
  match data with
  | [] => ([], .error .indexError)
  | b :: rest =>
    if b = 0x5D then
      match rest with
      | [] => ([], .error .indexError)
      | k :: _ =>
        if k < 6 then ((tokenText env data).1, .ok (tokenText env data).2)
        else if k = 0x40 then ([], .ok "IDList".toList)
        else ((tokenText env rest).1, .ok (tokenText env rest).2)
    else ((tokenText env data).1, .ok (tokenText env data).2)

/-- `ListName.set` (list.py:49-68). `super().set(varname)` is called without the instance. -/
def listNameSet (env : Env V) (trie : Trie (Tok V)) (value : Str) : PyM Unit Bytes :=
  let varname := replaceChar ']' "|L".toList (value.map upperChar)
  if hasText "IDList".toList varname then pure [0x5D, 0x40]
  else do
    PyM.warnAll (if varname.length > (if "|L".toList.isPrefixOf varname then 7 else 5) then [.listName] else [])
    nameSet env trie none varname

/-- `re.fullmatch(r"([XYr]\dT?)}?", s)` for ASCII digits: the group. -/
def equationGroup : Str → Option Str
  | a :: d :: rest =>
    if (a = 'X' ∨ a = 'Y' ∨ a = 'r') ∧ isDig d = true then
      match rest with
      | [] | ['}'] => some [a, d]
      | ['T'] | ['T', '}'] => some [a, d, 'T']
      | _ => none
    else none
  | _ => none

/-- `re.fullmatch(r"\{?([XYr]\dT?)}?", varname)` (tokenized.py:274): the group. -/
def equationMatch : Str → Option Str
  | '{' :: r => equationGroup r
  | r => equationGroup r

/-- The function of `TIEquation.name` (tokenized.py:262-277). -/
def equationSpelling (s : Str) : Str :=
  if s = ['u'] ∨ s = ['v'] ∨ s = ['w'] then '|' :: s
  else match equationMatch s with
    | some m => '{' :: m ++ ['}']
    | none => s

namespace Ent

/-- The converter of the section `name` of each class, reading: `Name` (var.py:521), `ListName` (list.py:102), `ImageName`
(picture.py:400), `String` (settings.py:78, 321, 564). -/
def nameGet (env : Env V) (c : Cls) (data : Bytes) : List Warn × Except PyErr Str :=
  if c.isSub .listE then listNameGet env data
  else if c = .image then ([], imageName.get data)
  else if c ∈ [Cls.window, .recallWindow, .tableSettings] then ([], strConv.get data)
  else ((tokenText env data).1, .ok (tokenText env data).2)

/-- The converter of the section `name` of each class, writing, with the functions of the sections of equations
(tokenized.py:261-277) and strings (tokenized.py:315-323). -/
def nameConv (env : Env V) (trie : Trie (Tok V)) (c : Cls) (value : Str) : PyM Unit Bytes :=
  if c.isSub .listE then listNameSet env trie value
  else if c = .image then imageName.set value (some 8) []
  else if c ∈ [Cls.window, .recallWindow, .tableSettings] then strConv.set value (some 8) []
  else if c.isSub .equation then nameSet env trie (some c) (equationSpelling value)
  else if c = .string then nameSet env trie (some c) (capitalize value)
  else nameSet env trie (some c) value

/-- `entry.name` (var.py:521-527 with data.py:384-388). -/
def nameRead (env : Env V) (e : Ent) : List Warn × Except PyErr Str :=
  let r := nameGet env e.cls e.name
  (r.1, wrapIndexError r.2)

/-- `entry.name = value` (data.py:390-391, 409-420). -/
def nameAssign (env : Env V) (trie : Trie (Tok V)) (value : Str) : PyM Ent Unit := do
  let e ← PyM.get
  let v ← PyM.lift (nameConv env trie e.cls value)
  let v ← PyM.lift (fitWidth (some 8) v)
  PyM.set { e with name := v }

end Ent

end Verif
