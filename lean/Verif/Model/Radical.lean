import Verif.Model.Fraction

/-
Model of the text of exact radicals (`/repo/tivars/types/real.py:369-599`): `TIRealRadical.load_string` and
`format` with an empty specification or `#`. The packed fields are in `Verif/Model/Real.lean`.
-/

namespace Verif

/-- The normalisation of the string in `TIRealRadical.load_string` (real.py:530-531). -/
def radNormalize (string : Str) : Str :=
  lstripChars ['+'] (replaceStr ['-'] ['+', '-'] (replaceStr ['s', 'q', 'r', 't'] ['√'] (replaceStr ['~'] ['-']
    (replaceStr ['*'] [] (replaceStr [')'] [] (replaceStr ['('] [] (squash string)))))))

/-- Adding a denominator (real.py:536-537). -/
def radOver (string : Str) : Str := if '/' ∈ string then string else string ++ ['/', '1']

/-- Adding a second summand (real.py:539-544). -/
def radFill (string : Str) : Str :=
  let string := if '√' ∈ string then string
    else replaceStr ['/'] ['√', '1', '/'] (['0', '√', '1', '+'] ++ string)
  if '+' ∈ string then string else replaceStr ['/'] ['+', '0', '√', '1', '/'] string

/-- Completion of the string with default parts (real.py:536-544). -/
def radComplete (string : Str) : Str := radFill (radOver string)

/-- Scalar and radicand of one summand (real.py:550-563). Every failure is a `ValueError`, so the order in which the
two summands are read does not matter. -/
def radTerm (term : Str) : Except PyErr (Int × Int) :=
  let term := if '√' ∈ term then term else term ++ ['√', '1']
  match splitChar '√' term with
  | [scalar, radicand] => do
    let s ← parseInt (if rstripChars ['+', '-'] scalar ≠ [] then scalar else scalar ++ ['1'])
    let r ← parseInt radicand
    .ok (s, r)
  | _ => .error .valueError

/-- `sign` (numeric.py:30-38) -/
def pySign (x : Int) : Int := if 0 < x then 1 else if x < 0 then -1 else 0

/-- The larger radicand comes first, and equal ones are merged (real.py:569-575): left scalar, left radicand, right
scalar, right radicand. -/
def radOrder (ls lr rs rr : Int) : Int × Int × Int × Int :=
  if lr < rr then (rs, rr, ls, lr) else if lr = rr then (ls + rs, lr, 0, 0) else (ls, lr, rs, rr)

/-- The sign type for two signed scalars (real.py:584-595). -/
def radSignType (ls rs : Int) : Except PyErr Int :=
  if pySign ls = 1 ∧ pySign rs = -1 then .ok 2
  else if pySign ls = 1 then .ok 0
  else if pySign ls = -1 ∧ pySign rs = 1 then .ok 1
  else if pySign ls = -1 then .ok 3
  else .error .valueError

/-- What is computed from the numbers in the string (real.py:565-595): sign type, denominator, left scalar, right
scalar, left radicand, right radicand. -/
def radCore (ls lr rs rr d : Int) : Except PyErr (Int × Int × Int × Int × Int × Int) :=
  if lr < 0 ∨ rr < 0 then .error .valueError
  else
    let (ls, lr, rs, rr) := radOrder ls lr rs rr
    if d = 0 then .error .valueError
    else
      match radSignType (ls * pySign d) (rs * pySign d) with
      | .error e => .error e
      | .ok st => .ok (st, (d.natAbs : Int), ((ls * pySign d).natAbs : Int), ((rs * pySign d).natAbs : Int), lr, rr)

/-- What `TIRealRadical.load_string` computes before storing (real.py:530-595). Every failure is a `ValueError`, so it
makes no difference that the denominator is read after the radicands are compared. -/
def radParse (string : Str) : Except PyErr (Int × Int × Int × Int × Int × Int) :=
  let string := radNormalize string
  if '.' ∈ string then .error .valueError
  else
    match splitChar '/' (radComplete string) with
    | [top, bot] =>
      match splitChar '+' top with
      | [left, right] =>
        match radTerm left, radTerm right, parseInt (lstripChars ['+'] bot) with
        | .ok (ls, lr), .ok (rs, rr), .ok d => radCore ls lr rs rr d
        | _, _, _ => .error .valueError
      | _ => .error .valueError
    | _ => .error .valueError

/-- The assignments at the end of `TIRealRadical.load_string` (real.py:583-599). -/
def radStore (st d ls rs lr rr : Int) : PyM Buf Unit := do
  RadField.signType.view.put st
  RadField.denominator.view.put d
  RadField.leftScalar.view.put ls
  RadField.rightScalar.view.put rs
  RadField.leftRadicand.view.put lr
  RadField.rightRadicand.view.put rr

/-- The assignments for an empty string (real.py:525-528); the method goes on after them. -/
def radBlank : PyM Buf Unit := do
  RadField.signType.view.put 0
  RadField.denominator.view.put 1
  RadField.leftScalar.view.put 0
  RadField.leftRadicand.view.put 0
  RadField.rightScalar.view.put 0
  RadField.rightRadicand.view.put 0

/-- `TIRealRadical.load_string` (real.py:523-599). -/
def radLoadString (string : Str) : PyM Buf Unit := do
  if string = [] then radBlank else pure ()
  let (st, d, ls, rs, lr, rr) ← PyM.ofExcept (radParse string)
  radStore st d ls rs lr rr

/-- The fields of a radical as its properties give them (real.py:455-516): denominator, signed left scalar, left
radicand, signed right scalar, right radicand. -/
def radFields (b : Buf) : Except PyErr (Int × Int × Int × Int × Int) := do
  let st ← RadField.signType.view.get b
  let d ← RadField.denominator.view.get b
  let ls ← RadField.leftScalar.view.get b
  let rs ← RadField.rightScalar.view.get b
  let lr ← RadField.leftRadicand.view.get b
  let rr ← RadField.rightRadicand.view.get b
  .ok (d, ls * (if st.toNat % 2 = 1 then -1 else 1), lr, rs * (if st.toNat / 2 % 2 = 1 then -1 else 1), rr)

/-- `f"{scalar}√{radicand}"` -/
def radPart (scalar radicand : Int) : Str := intRepr scalar ++ '√' :: intRepr radicand

/-- `reduce` (real.py:396-414). The case for `"-1"` never applies, since the pattern is matched against the single
characters. -/
def radReduce (part : Str) : Str :=
  if startsWith ['0', '√'] part then []
  else if startsWith ['0', '√'] part.reverse then []
  else if startsWith ['1', '√'] part.reverse then part.take (part.length - 2)
  else if startsWith ['1', '√'] part then part.drop 1
  else part

/-- `str(number)` for a `TIRealRadical` (real.py:416-440). -/
def radStr (b : Buf) : Except PyErr Str :=
  match radFields b with
  | .error e => .error e
  | .ok (d, ls, lr, rs, rr) =>
    let left := radReduce (radPart ls lr)
    let right := radReduce (radPart rs rr)
    let string :=
      if left = [] ∧ right = [] then ['0']
      else if left = [] ∧ d = 1 then right
      else if right = [] ∧ d = 1 then left
      else if left = [] then right ++ '/' :: intRepr d
      else if right = [] then left ++ '/' :: intRepr d
      else '(' :: left ++ '+' :: right ++ ')' :: '/' :: intRepr d
    .ok (replaceStr ['+', '-'] ['-'] string)

/-- `format(number, "#")` (real.py:442-446). -/
def radStrFull (b : Buf) : Except PyErr Str :=
  match radFields b with
  | .error e => .error e
  | .ok (d, ls, lr, rs, rr) =>
    .ok (replaceStr ['+', '-'] ['-'] ('(' :: radPart ls lr ++ '+' :: radPart rs rr ++ ')' :: '/' :: intRepr d))

end Verif
