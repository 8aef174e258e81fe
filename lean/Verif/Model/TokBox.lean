import Verif.Model.Token

/-
Model of the container of tokens `TITokens` (`/repo/tivars/trie.py:79-115`). The sheet it is made of comes from the token
sheets, a git submodule that is empty in `/repo`; it is a parameter here. Dictionaries are association lists whose keys differ.
-/

namespace Verif

/-- A token of a sheet (token.py:10-20) with its names in every language: `langs` maps a language to `Translation.names()`. -/
structure SheetTok (V : Type) where
  bits : Bytes
  langs : List (Str × List Str)
  since : V
  deriving DecidableEq, Repr

/-- The `Tokens` of the token sheets as far as `TITokens` looks at them (trie.py:95-97): tokens by code, and for every language
the codes by name. -/
structure Sheet (V : Type) where
  bytes : List (Bytes × SheetTok V)
  langs : List (Str × List (Str × Bytes))
  deriving DecidableEq, Repr

/-- `TITokens` (trie.py:79-106). -/
structure TokBox (V : Type) where
  bytes : List (Bytes × SheetTok V)
  langs : List (Option Str × List (Str × SheetTok V))
  names : List (Str × SheetTok V)
  tries : List (Option Str × Trie (SheetTok V))

/-- The argument of `__getitem__`. -/
inductive BoxKey where
  | bytes (b : Bytes) | str (s : Str) | other
  deriving DecidableEq, Repr

/-- `d[k] = v` for a `dict`. -/
def assocSet {κ α : Type} [DecidableEq κ] (d : List (κ × α)) (k : κ) (v : α) : List (κ × α) :=
  match d with
  | [] => [(k, v)]
  | (k', v') :: rest => if k' = k then (k, v) :: rest else (k', v') :: assocSet rest k v

/-- `d[k]` -/
def assocGet {κ α : Type} [DecidableEq κ] (d : List (κ × α)) (k : κ) : Except PyErr α :=
  match d with
  | [] => .error .keyError
  | (k', v) :: rest => if k' = k then .ok v else assocGet rest k

/-- `[f(x) for x in xs]` where `f` may raise. -/
def mapEx {α β : Type} (f : α → Except PyErr β) : List α → Except PyErr (List β)
  | [] => .ok []
  | x :: xs => match f x with
    | .error e => .error e
    | .ok y => match mapEx f xs with
      | .error e => .error e
      | .ok ys => .ok (y :: ys)

namespace TokBox
variable {V : Type}

/-- `"en"` -/
def english : Str := ['e', 'n']

/-- `TIToken(token)` (token.py:17-20): `self.langs["en"]` may be missing. -/
def makeToken (t : SheetTok V) : Except PyErr (SheetTok V) :=
  match assocGet t.langs english with
  | .error e => .error e
  | .ok _ => .ok t

/-- `token.langs[lang].names() if lang else token.names()` with the check before it (trie.py:27-30); `lang` is a language of the
sheet. The empty text counts as no language. -/
def namesIn (lang : Str) (t : SheetTok V) : Except PyErr (List Str) :=
  if lang = [] then assocGet t.langs english
  else if t.langs.any (fun p => p.1 == lang) then assocGet t.langs lang
  else .error .valueError

/-- One round of the loop of `TITokenTrie.from_tokens` (trie.py:53-54): the token with the names that are inserted. -/
def nameOne (lang : Str) (p : Bytes × SheetTok V) : Except PyErr (SheetTok V × List Str) :=
  match namesIn lang p.2 with
  | .error e => .error e
  | .ok ns => .ok (p.2, ns)

/-- `TITokenTrie.from_tokens(self, lang)` (trie.py:40-56). -/
def trieFor (bytes : List (Bytes × SheetTok V)) (lang : Str) : Except PyErr (Trie (SheetTok V)) :=
  match mapEx (nameOne lang) bytes with
  | .error e => .error e
  | .ok toks => .ok (Trie.fromTokens toks)

/-- `name: self.bytes[bits]` (trie.py:96). -/
def indexOne (bytes : List (Bytes × SheetTok V)) (p : Str × Bytes) : Except PyErr (Str × SheetTok V) :=
  match assocGet bytes p.2 with
  | .error e => .error e
  | .ok t => .ok (p.1, t)

/-- `bits: TIToken(token)` (trie.py:95). -/
def tokenOne (p : Bytes × SheetTok V) : Except PyErr (Bytes × SheetTok V) :=
  match makeToken p.2 with
  | .error e => .error e
  | .ok t => .ok (p.1, t)

/-- `lang: {name: self.bytes[bits] for name, bits in tokens.langs[lang].items()}` (trie.py:96-97). -/
def langOne (bytes : List (Bytes × SheetTok V)) (p : Str × List (Str × Bytes)) : Except PyErr (Str × List (Str × SheetTok V)) :=
  match mapEx (indexOne bytes) p.2 with
  | .error e => .error e
  | .ok ix => .ok (p.1, ix)

/-- `lang: TITokenTrie.from_tokens(self, lang)` (trie.py:103). -/
def trieOne (bytes : List (Bytes × SheetTok V)) (p : Str × List (Str × SheetTok V)) : Except PyErr (Option Str × Trie (SheetTok V)) :=
  match trieFor bytes p.1 with
  | .error e => .error e
  | .ok t => .ok (some p.1, t)

/-- `{name: token for tokens in self.langs.values() for name, token in tokens.items()}` (trie.py:100). -/
def allNames (langs : List (Str × List (Str × SheetTok V))) : List (Str × SheetTok V) :=
  (langs.flatMap Prod.snd).foldl (fun d p => assocSet d p.1 p.2) []

/-- The last two lines of `TITokens.__init__` (trie.py:105-106). -/
def finishBox (bytes : List (Bytes × SheetTok V)) (langs : List (Str × List (Str × SheetTok V)))
    (tries : List (Option Str × Trie (SheetTok V))) : Except PyErr (TokBox V) :=
  match assocGet (langs.map fun p => (some p.1, p.2)) (some english) with
  | .error e => .error e
  | .ok l =>
    match assocGet tries (some english) with
    | .error e => .error e
    | .ok t => .ok ⟨bytes, assocSet (langs.map fun p => (some p.1, p.2)) none l, allNames langs, assocSet tries none t⟩

/-- `TITokens(tokens)` (trie.py:94-106). -/
def new (s : Sheet V) : Except PyErr (TokBox V) :=
  match mapEx tokenOne s.bytes with
  | .error e => .error e
  | .ok bytes =>
    match mapEx (langOne bytes) s.langs with
    | .error e => .error e
    | .ok langs =>
      match mapEx (trieOne bytes) langs with
      | .error e => .error e
      | .ok tries => finishBox bytes langs tries

/-- `TITokens.__getitem__` (trie.py:108-115). -/
def get (c : TokBox V) : BoxKey → Except PyErr (SheetTok V)
  | .bytes b => assocGet c.bytes b
  | .str s => assocGet c.names s
  | .other => .error .keyError

end TokBox
end Verif
