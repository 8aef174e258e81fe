import Verif.Py.Core

/-
Specifications for the tokenizer, stated on plain lists of (name, token) pairs and not on
tries, stacks or loops.
-/

namespace Verif

/-- The flat table of a list of tokens with their names, in order of insertion. -/
def namePairs {τ : Type} (toks : List (τ × List Str)) : List (Str × τ) :=
  toks.flatMap fun p => p.2.map fun n => (n, p.1)

/-- The token with a given name: the last pair of the table with that name. -/
def named {τ : Type} (tbl : List (Str × τ)) (name : Str) : Option τ :=
  (tbl.reverse.find? fun p => p.1 == name).map Prod.snd

/-- All ways to split a name off the front of `s`, longest name first. -/
def matchesOf {τ : Type} (tbl : List (Str × τ)) (s : Str) : List (τ × Str) :=
  (List.range (s.length + 1)).reverse.filterMap fun n =>
    (named tbl (s.take n)).map fun t => (t, s.drop n)

/-! ### Pieces of an encoded string -/

/-- The value of a hexadecimal digit, by position in the two digit alphabets. -/
def digitValue (c : Char) : Option Nat :=
  match "0123456789abcdef".toList.idxOf? c with
  | some i => some i
  | none => "0123456789ABCDEF".toList.idxOf? c

/-- Blanks that may separate the bytes of a literal. -/
def isBlank (c : Char) : Bool :=
  c == ' ' || c == '\t' || c == '\n' || c == '\x0b' || c == '\x0c' || c == '\r'

/-- Hexadecimal text: two digits per byte, blanks between bytes. -/
inductive HexText : Str → Bytes → Prop
  | nil : HexText [] []
  | blank {c s bs} : isBlank c → HexText s bs → HexText (c :: s) bs
  | byte {c d s bs x y} : digitValue c = some x → digitValue d = some y → HexText s bs →
      HexText (c :: d :: s) (UInt8.ofNat (16 * x + y) :: bs)

/-- The text starts like a byte literal. -/
def StartsLiteral (s : Str) : Prop := (∃ r, s = '\\' :: 'x' :: r) ∨ (∃ r, s = '\\' :: 'u' :: r)

/-- `text`, at the front of `s`, is a byte literal for `bits`: four characters starting with
`\x` or six starting with `\u` (fewer at the end of the string), in which the bytes follow the
leading `\`, `u` and `x` characters. -/
def LiteralAt (s text : Str) (bits : Bytes) : Prop :=
  ((∃ r, s = '\\' :: 'x' :: r ∧ text = s.take 4) ∨ (∃ r, s = '\\' :: 'u' :: r ∧ text = s.take 6)) ∧
  HexText (text.dropWhile fun c => c == '\\' || c == 'u' || c == 'x') bits

/-- `text` at the front of `s` can be read as the token `t`: it is a byte literal and `t` the token
`lit bits` made for its bytes, or `s` does not start like one and `text` is the name of `t`. -/
def IsPiece {τ : Type} (lit : Bytes → τ) (tbl : List (Str × τ)) (s text : Str) (t : τ) : Prop :=
  (∃ bits, LiteralAt s text bits ∧ t = lit bits) ∨ (¬ StartsLiteral s ∧ text <+: s ∧ named tbl text = some t)

/-- ASCII punctuation. -/
def asciiPunct (c : Char) : Bool := "!\"#$%&'()*+,-./:;<=>?@[\\]^_`{|}~".toList.contains c

/-- No longer name matches at the front of `s`. -/
def IsLongest {τ : Type} (tbl : List (Str × τ)) (s text : Str) : Prop :=
  ∀ n, (named tbl (s.take n)).isSome → n ≤ s.length → n ≤ text.length

/-- No shorter name matches at the front of `s`; if `s` starts with punctuation, exactly one
shorter name is passed over when there is one. -/
def IsShortest {τ : Type} (tbl : List (Str × τ)) (s text : Str) : Prop :=
  (∀ n, n < text.length → named tbl (s.take n) = none) ∧
      ¬ (asciiPunct (s.headD ' ') ∧ ∃ n, text.length < n ∧ n ≤ s.length ∧ (named tbl (s.take n)).isSome) ∨
  (asciiPunct (s.headD ' ') ∧ ∃ m, m < text.length ∧ (named tbl (s.take m)).isSome ∧
    ∀ n, n < text.length → (named tbl (s.take n)).isSome → n = m)

/-- Reading with maximal (`false`) or minimal (`true`) munch. -/
def IsMunch {τ : Type} (lit : Bytes → τ) (tbl : List (Str × τ))
    (minimal : Bool) (s text : Str) (t : τ) : Prop :=
  IsPiece lit tbl s text t ∧
  (¬ StartsLiteral s → if minimal then IsShortest tbl s text else IsLongest tbl s text)

/-- `s` is `ps` put together followed by `rest`, each piece being read as `P` allows. -/
inductive Pieces {τ : Type} (P : Str → Str → τ → Prop) : Str → List (Str × τ) → Str → Prop
  | done {s} : Pieces P s [] s
  | next {s text t ps rest} : P (text ++ s) text t → Pieces P s ps rest →
      Pieces P (text ++ s) ((text, t) :: ps) rest

/-! ### Context of a token in smart mode -/

/-- Where in a program the encoder is. The names count the tokens read so far. -/
inductive Ctx where
  | outside | str | sendStart | sendStr | prog (n : Nat) | list (n : Nat)
  deriving DecidableEq, Repr

/-- Whether tokens are read minimally there. -/
def Ctx.minimal : Ctx → Bool
  | .str | .prog _ | .list _ => true
  | _ => false

/-- Tokens that may continue a name: digits, capital letters, theta (and two-byte codes that
sort between them). -/
def isNameCode (bits : Bytes) : Bool :=
  match bits with
  | [] => false
  | [b] => (0x30 ≤ b.toNat && b.toNat ≤ 0x39) || (0x41 ≤ b.toNat && b.toNat ≤ 0x5B)
  | b :: _ => (0x30 ≤ b.toNat && b.toNat ≤ 0x38) || (0x41 ≤ b.toNat && b.toNat ≤ 0x5A)

/-- Reading a token inside a name of which `n` tokens have been read: the name goes on unless the
token cannot be part of it or, when it was not written as a byte literal, it is the
`most`-th. -/
def nameStep (mk : Nat → Ctx) (most n : Nat) (literal : Bool) (bits : Bytes) : Ctx :=
  if literal = false ∧ n + 1 = most then .outside
  else if isNameCode bits then mk (n + 1) else .outside

/-- The context after reading one more token, when program names take at most `progMost` tokens and
list names at most `listMost`. -/
def Ctx.step (progMost listMost : Nat) (c : Ctx) (literal : Bool) (bits : Bytes) : Ctx :=
  match c with
  | .outside =>
    if bits = [0x2A] then .str else if bits = [0x5F] then .prog 0
    else if bits = [0xE7] then .sendStart else if bits = [0xEB] then .list 0 else .outside
  | .str => if bits = [0x2A] ∨ bits = [0x04] ∨ bits = [0x3F] then .outside else .str
  | .sendStart => if bits = [0x2A] then .sendStr else .outside
  | .sendStr => if bits = [0x2A] ∨ bits = [0x04] ∨ bits = [0x3F] then .outside else .sendStr
  | .prog n => nameStep .prog progMost n literal bits
  | .list n => nameStep .list listMost n literal bits

/-- As `Pieces`, following the context: each piece is read minimally or maximally as its context
demands. -/
inductive SmartPieces {τ : Type} (progMost listMost : Nat) (lit : Bytes → τ) (bitsOf : τ → Bytes)
    (tbl : List (Str × τ)) : Ctx → Str → List (Str × τ) → Ctx → Str → Prop
  | done {c s} : SmartPieces progMost listMost lit bitsOf tbl c s [] c s
  | next {c s text t ps c' rest literal} :
      IsMunch lit tbl c.minimal (text ++ s) text t →
      (literal = true ↔ StartsLiteral (text ++ s)) →
      SmartPieces progMost listMost lit bitsOf tbl (c.step progMost listMost literal (bitsOf t)) s ps c' rest →
      SmartPieces progMost listMost lit bitsOf tbl c (text ++ s) ((text, t) :: ps) c' rest

/-- A name of fewer than `most` tokens: the codes run out, or one that cannot be part of a name
comes in time. -/
def NameFits (most : Nat) (codes : List Bytes) : Prop :=
  codes.length < most ∨ ∃ b ∈ codes.take most, isNameCode b = false

/-- Every program name among the codes has fewer than `progMost` tokens and every list name fewer
than `listMost`. -/
def NamesFit (progMost listMost : Nat) (codes : List Bytes) : Prop :=
  ∀ a c b, codes = a ++ c :: b → (c = [0x5F] → NameFits progMost b) ∧ (c = [0xEB] → NameFits listMost b)

end Verif
