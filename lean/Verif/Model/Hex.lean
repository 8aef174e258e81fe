import Verif.Model.Token
import Verif.Py.Str

/-
Model of `TIEntry.__format__` (`/repo/tivars/var.py:429-457`) for entries without a format of their own, and of
`bytes.hex` as far as it is used there. The format specification is restricted to ASCII characters.
-/

namespace Verif

/-- `data.hex(sep, n)` counted from the left, `n < 0`: groups of `w` bytes, the last may be smaller. -/
def hexLeft (sep : Char) (w : Nat) (d : Bytes) : Str :=
  if _h : d.length ≤ w ∨ w = 0 then hexOf d
  else hexOf (d.take w) ++ sep :: hexLeft sep w (d.drop w)
termination_by d.length
decreasing_by simp only [not_or, List.length_drop] at _h ⊢; omega

/-- `data.hex(sep, n)` counted from the right, `n > 0`: groups of `w` bytes, the first may be smaller. -/
def hexRight (sep : Char) (w : Nat) (d : Bytes) : Str :=
  if _h : d.length ≤ w ∨ w = 0 then hexOf d
  else hexRight sep w (d.take (d.length - w)) ++ sep :: hexOf (d.drop (d.length - w))
termination_by d.length
decreasing_by simp only [not_or, List.length_take] at _h ⊢; omega

/-- `data.hex(sep, n)`: the number has to fit a C `int`, the separator has to be ASCII. -/
def bytesHex (d : Bytes) (sep : Char) (n : Int) : Except PyErr Str :=
  if n < -2147483648 ∨ 2147483647 < n then .error .overflowError
  else if 127 < sep.toNat then .error .valueError
  else if n < 0 then .ok (hexLeft sep n.natAbs d)
  else .ok (hexRight sep n.natAbs d)

/-- The groups `width`, `case` and `sep` of the regular expression (var.py:437). -/
structure HexSpec where
  width : Option Str
  upper : Bool
  sep : Option Char
  deriving DecidableEq

/-- What follows the width: `(?P<case>[xX])(?P<sep>\D)?`. -/
def hexTail (width : Option Str) : Str → Option HexSpec
  | [c] => if c = 'x' ∨ c = 'X' then some ⟨width, c = 'X', none⟩ else none
  | [c, s] => if (c = 'x' ∨ c = 'X') ∧ isDig s = false then some ⟨width, c = 'X', some s⟩ else none
  | _ => none

/-- `re.fullmatch(r"(?P<width>[+-]?\d+)?(?P<case>[xX])(?P<sep>\D)?", spec)` (var.py:437). -/
def matchHex (spec : Str) : Option HexSpec :=
  let signed := match spec with
    | c :: r => if c = '+' ∨ c = '-' then ([c], r) else ([], spec)
    | [] => ([], spec)
  let digits := signed.2.takeWhile isDig
  if digits = [] then
    (if signed.1 = [] then hexTail none spec else none)
  else hexTail (some (signed.1 ++ digits)) (signed.2.dropWhile isDig)

/-- `int(width)` (var.py:446, 449): Python refuses texts of more than 4300 digits. -/
def widthInt (w : Str) : Except PyErr Int :=
  if 4300 < w.countP isDig then .error .valueError else parseInt w

/-- The `match` over `sep` and `width` (var.py:438-449). -/
def hexBody (d : Bytes) (m : HexSpec) : Except PyErr Str :=
  match m.sep, m.width with
  | none, none => .ok (hexOf d)
  | some s, none => bytesHex d s 1
  | none, some w =>
    match widthInt w with
    | .error x => .error x
    | .ok n => bytesHex d ' ' n
  | some s, some w =>
    match widthInt w with
    | .error x => .error x
    | .ok n => bytesHex d s n

/-- `TIEntry.__format__(spec)` (var.py:429-457) on the data; `own` is what `object.__str__` gives. -/
def formatHex (own : Str) (d : Bytes) (spec : Str) : Except PyErr Str :=
  match matchHex spec with
  | some m => (hexBody d m).map fun s => if m.upper then upperAscii s else lowerAscii s
  | none => if spec = [] then .ok own else .error .typeError

end Verif
