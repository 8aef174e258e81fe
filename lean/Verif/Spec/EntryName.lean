import Verif.Spec.Token
import Verif.Model.Token
import Verif.Model.Cls

/-! Specifications for the names of entries. -/

namespace Verif.Spec
variable {V : Type}

/-- The byte that the names of entries of a class begin with, if there is one. -/
def nameByte : Cls → Option UInt8
  | .matrix => some 0x5C
  | .equation | .newEquation | .graphedEquation => some 0x5E
  | .string => some 0xAA
  | .monoPicture | .picture => some 0x60
  | .monoGDB | .gdb | .monoFunc | .monoParam | .monoPolar | .monoSeq | .func | .param | .polar | .seq => some 0x61
  | _ => none

/-- The byte at the front is the one asked for. -/
def leads (c : Cls) (d : Bytes) : Prop := ∀ b, nameByte c = some b → d.head? = some b

instance (c : Cls) (d : Bytes) : Decidable (leads c d) :=
  match h : nameByte c with
  | none => isTrue (by intro b hb; rw [h] at hb; cases hb)
  | some b => if hd : d.head? = some b then isTrue (by intro x hx; rw [h] at hx; cases hx; exact hd)
    else isFalse (by intro hx; exact hd (hx b h))

/-- The classes of entries with names made of tokens, apart from lists. -/
def tokenNamed : List Cls :=
  [.entry, .sized, .tokenizedE, .realE, .graphRealE, .complexE, .pictureE, .settingsE,
   .real, .matrix, .equation, .string, .program, .protProgram,
   .picture, .monoGDB, .newEquation, .complex, .undefReal, .appVar, .group, .realFraction,
   .complexFraction, .realRadical, .complexRadical, .complexPi, .complexPiFraction,
   .realPi, .realPiFraction, .graphedEquation,
   .asmProgram, .protAsmProgram, .monoPicture, .gdb,
   .monoFunc, .monoParam, .monoPolar, .monoSeq, .func, .param, .polar, .seq]

/-- The classes of equations. -/
def equationClasses : List Cls := [.equation, .newEquation, .graphedEquation]

/-- `X`, `Y` or `r`, a digit, and perhaps `T`. -/
def CurveName (n : Str) : Prop :=
  ∃ a d, (a = 'X' ∨ a = 'Y' ∨ a = 'r') ∧ '0' ≤ d ∧ d ≤ '9' ∧ (n = [a, d] ∨ n = [a, d, 'T'])

/-- A name with or without braces on either side. -/
def braced (n : Str) : List Str := [n, '{' :: n, n ++ ['}'], '{' :: n ++ ['}']]

/-- A capital letter first, then small ones. -/
def capital : Str → Str
  | [] => []
  | x :: xs => x.toUpper :: xs.map Char.toLower

/-- How a name is written before it is read as tokens: names of curves between braces, names of sequences after a bar, names of
strings with a capital and small letters, all others as they are. -/
def Spelled (c : Cls) (v text : Str) : Prop :=
  if c ∈ equationClasses then
    (v ∈ [['u'], ['v'], ['w']] ∧ text = '|' :: v) ∨
    (∃ n, CurveName n ∧ v ∈ braced n ∧ text = '{' :: n ++ ['}']) ∨
    (v ∉ [['u'], ['v'], ['w']] ∧ (∀ n, CurveName n → v ∉ braced n) ∧ text = v)
  else if c = .string then
    (∀ x ∈ v, x.toNat < 128) ∧ text = capital v
  else text = v

/-- Capital thetas and small raised ones are small thetas. -/
def smallTheta (s : Str) : Str := s.map fun c => if c = 'Θ' ∨ c = 'ϴ' ∨ c = 'ᶿ' then 'θ' else c

/-- The text is read as the tokens, the shortest names first (`true`) or the longest (`false`). -/
def ReadAs (initial : V) (toks : List (Tok V × List Str)) (shortest : Bool) (text : Str) (ts : List (Tok V)) : Prop :=
  ∃ ps, Pieces (IsMunch (illegalTok initial) (namePairs toks) shortest) text ps [] ∧ ts = ps.map Prod.snd

/-- The codes of tokens, one after the other. -/
def codes (ts : List (Tok V)) : Bytes := ts.flatMap Tok.bits

/-- The first eight bytes, followed by zeros if there are fewer. -/
def eight (d : Bytes) : Bytes := d.take 8 ++ List.replicate (8 - d.length) 0

/-- The name of a list before it is read as tokens: in capitals, with `|L` for each bracket. -/
def listSpelling (v : Str) : Str :=
  (v.map Char.toUpper).flatMap fun c => if c = ']' then ['|', 'L'] else [c]

/-- The most characters a name of a list should have. -/
def listLimit (text : Str) : Nat := if text.take 2 = ['|', 'L'] then 7 else 5

/-- A capital letter or a digit. -/
def Alnum (c : Char) : Prop := ('A' ≤ c ∧ c ≤ 'Z') ∨ ('0' ≤ c ∧ c ≤ '9')

instance (c : Char) : Decidable (Alnum c) := inferInstanceAs (Decidable (_ ∨ _))

/-- The classes of lists. -/
def listClasses : List Cls := [.listE, .realList, .complexList]

/-- Capital letters and digits are tokens with the codes of ASCII, shown as themselves. -/
def AsciiTokens (table : TokTable V) (toks : List (Tok V × List Str)) : Prop :=
  ∀ c : Char, Alnum c → ∃ t ∈ table,
    named (namePairs toks) [c] = some t ∧ t.bits = [UInt8.ofNat c.toNat] ∧ t.display = [c]

/-- A few tokens that occur in names, for examples. -/
def nameTokens : List (Tok Nat × List Str) :=
  let mk (bits : Bytes) (display : String) (names : List String) : Tok Nat × List Str :=
    (⟨bits, display.toList, (display :: names).map String.toList, 0⟩, (display :: names).map String.toList)
  ("ABCDEFGHIJKLMNOPQRSTUVWXYZ0123456789".toList.map fun c => mk [UInt8.ofNat c.toNat] (String.ofList [c]) []) ++
  [mk [0x5B] "θ" ["theta"], mk [0xEB] "ʟ" ["|L"], mk [0x5D, 0x00] "L₁" ["L1"], mk [0x5D, 0x01] "L₂" ["L2"],
   mk [0x5C, 0x00] "[A]" [], mk [0x5E, 0x10] "Y₁" ["{Y1}"], mk [0x5E, 0x20] "X₁ᴛ" ["{X1T}"], mk [0x5E, 0x80] "u" ["|u"],
   mk [0x60, 0x00] "Pic1" [], mk [0x61, 0x00] "GDB1" [], mk [0xAA, 0x00] "Str1" [], mk [0x5D, 0x40] "IDList" []]

end Verif.Spec
