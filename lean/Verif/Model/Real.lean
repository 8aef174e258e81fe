import Verif.Model.Numeric

/-
Model of the real numeric types of `/repo/tivars/types/real.py` at the level of their nine data
bytes: the state of a number is its `calc_data` slot (`Buf`). The surrounding entry sections are
modelled in `Verif/Model/Entry.lean`.

Formatting, the values of radicals and multiples of pi, and the conversion to `float` and JSON are in other files.
-/

namespace Verif

/-- A view over the nine bytes of a real number. -/
def realView {α : Type} (c : Conv α) (a b : Int) : View α :=
  View.mk' (some 9) c ⟨some a, some b, none⟩

/-- `subtype_id` (real.py:98-104). -/
def subtypeV : View Int := realView (bitsConv ⟨some 0, some 6, none⟩) 0 1
/-- `graph_bit` (real.py:106-110). -/
def graphV : View Int := realView (bitsConv ⟨some 6, some 7, none⟩) 0 1
/-- `sign_bit` (real.py:112-118). -/
def signV : View Int := realView (bitsConv ⟨some 7, some 8, none⟩) 0 1
/-- `exponent` (real.py:246-252). -/
def exponentV : View Int := realView intConv 1 2
/-- `mantissa` (real.py:254-260). -/
def mantissaV : View Int := realView bcdConv 2 9

/-- `RealEntry.__neg__` (real.py:88-92) on the data of the copy. -/
def realNeg : PyM Buf Unit := do
  let b ← PyM.get
  let s ← PyM.ofExcept (signV.get b)
  signV.put (1 - s)

/-- `sign` (real.py:128-134) -/
def realSign (b : Buf) : Except PyErr Int :=
  match signV.get b with
  | .error e => .error e
  | .ok s => .ok (if s ≠ 0 then -1 else 1)

/-- `TIReal.decimal` (real.py:266-272) as the pair (coefficient, power of ten). Under a context
precision of 14 the two roundings are exact when the coefficient has at most 14 digits, which is
the case for every mantissa made of decimal digits. -/
def realDecimal (b : Buf) : Except PyErr (Int × Int) := do
  let s ← realSign b
  let m ← mantissaV.get b
  let e ← exponentV.get b
  .ok (s * m, e - 0x80 - 13)

/-- The digit-shifting loop of `TIReal.load_string` (real.py:303-310). The first argument bounds
the number of iterations; `realLoadString` passes a bound that is never reached
(`realLoop_terminates`). -/
def realLoop : Nat → Str → Str → Int → Except PyErr (Str × Str × Int)
  | 0, _, _, _ => .error .recursionError
  | fuel + 1, integer, decimal, exponent =>
    match parseInt integer with
    | .error e => .error e
    | .ok value =>
      if 0 < value ∧ value < 10 then .ok (integer, decimal, exponent)
      else if value = 0 then
        match decimal with
        | [] => .error .indexError
        | d :: ds => realLoop fuel [d] ds (exponent - 1)
      else
        match integer.getLast? with
        | none => .error .indexError
        | some c => realLoop fuel integer.dropLast (c :: decimal) (exponent + 1)

/-- `string or "0"` -/
def orZero (s : Str) : Str := if s = [] then ['0'] else s

/-- `TIReal.load_string`, normalisation of the string (real.py:281-290): the sign flag and the
stripped string. -/
def realNormalize (string : Str) : Bool × Str :=
  let string := replaceStr ['|', 'e'] ['e'] (replaceStr ['~'] ['-'] (lowerAscii (squash string)))
  let string := if 'e' ∈ string then string else string ++ ['e', '0']
  let string := if '.' ∈ string then string else replaceStr ['e'] ['.', 'e'] string
  let neg := startsWith ['-'] string
  (neg, stripChars ['+', '-'] string)

/-- The values computed by `TIReal.load_string` before anything is stored (real.py:293-312):
mantissa, biased exponent and sign. -/
def realParse (string : Str) : Except PyErr (Int × Int × Bool) := do
  let (neg, string) := realNormalize string
  let (number, exponent) ← match splitChar 'e' string with
    | [a, b] => .ok (a, b)
    | _ => .error PyErr.valueError
  let (integer, decimal) ← match splitChar '.' number with
    | [a, b] => .ok (orZero a, orZero b)
    | _ => .error PyErr.valueError
  let i ← parseInt integer
  let d ← parseInt decimal
  if i = d ∧ d = 0 then
    .ok (0, 0x80, neg)
  else
    let x ← parseInt (orZero exponent)
    let (integer, decimal, x) ← realLoop (2 * integer.length + decimal.length + 1) integer decimal x
    let m ← parseInt ((ljustStr 14 '0' (integer ++ decimal)).take 14)
    .ok (m, x + 0x80, neg)

/-- `self.mantissa, self.exponent, self.sign_bit = …` -/
def realStore (m x : Int) (neg : Bool) : PyM Buf Unit := do
  mantissaV.put m
  exponentV.put x
  signV.put (if neg then 1 else 0)

/-- `TIReal.load_string` (real.py:274-312). -/
def realLoadString (string : Str) : PyM Buf Unit :=
  if string = [] then realStore 0 0x80 false
  else do
    let (m, x, neg) ← PyM.ofExcept (realParse string)
    realStore m x neg

/-- A finite `decimal.Decimal`: `(-1)^neg * coeff * 10^exp`. -/
structure PyDec where
  neg : Bool
  coeff : Nat
  exp : Int
  deriving DecidableEq, Repr

/-- `"%+d" % n` -/
def signedRepr (n : Int) : Str := (if n < 0 then '-' else '+') :: natRepr n.natAbs

/-- `str(d)` for a finite `Decimal` (CPython `_pydecimal.Decimal.__str__`, not part of `/repo`). -/
def decStr (d : PyDec) : Str :=
  let int := natRepr d.coeff
  let leftdigits : Int := d.exp + int.length
  let dotplace : Int := if d.exp ≤ 0 ∧ -6 < leftdigits then leftdigits else 1
  let intpart := if dotplace ≤ 0 then ['0']
    else if int.length ≤ dotplace then int ++ List.replicate (dotplace - int.length).toNat '0'
    else int.take dotplace.toNat
  let fracpart := if dotplace ≤ 0 then '.' :: (List.replicate (-dotplace).toNat '0' ++ int)
    else if int.length ≤ dotplace then []
    else '.' :: int.drop dotplace.toNat
  let exp := if leftdigits = dotplace then [] else 'E' :: signedRepr (leftdigits - dotplace)
  (if d.neg then ['-'] else []) ++ intpart ++ fracpart ++ exp

/-- `TIReal.load_decimal` (real.py:262-264). -/
def realLoadDecimal (d : PyDec) : PyM Buf Unit := realLoadString (decStr d)

/-- `Decimal(x)` for a finite float `x = ± m * 2^q` (CPython `Decimal.from_float`): exact.
`m` is odd or zero, or `q ≥ 0`, as `float.as_integer_ratio` is in lowest terms. -/
def decOfFloat (neg : Bool) (m : Nat) (q : Int) : PyDec :=
  if 0 ≤ q then ⟨neg, m * 2 ^ q.toNat, 0⟩ else ⟨neg, m * 5 ^ (-q).toNat, q⟩

/-- `RealEntry.load_float` (real.py:172-180) on `± m * 2^q`. -/
def realLoadFloat (neg : Bool) (m : Nat) (q : Int) : PyM Buf Unit := realLoadDecimal (decOfFloat neg m q)

/-! ### `TIRealRadical` -/

/-- The six packed fields of a radical (real.py:455-492). -/
inductive RadField where
  | signType | denominator | rightScalar | leftScalar | rightRadicand | leftRadicand
  deriving DecidableEq, Repr

/-- The view of each field (real.py:455-492). -/
def RadField.view : RadField → View Int
  | .signType => realView (bitsConv ⟨some 4, some 8, none⟩) 1 2
  | .denominator => realView leftNibbleConv 1 3
  | .rightScalar => realView rightNibbleConv 3 5
  | .leftScalar => realView leftNibbleConv 4 6
  | .rightRadicand => realView rightNibbleConv 6 8
  | .leftRadicand => realView leftNibbleConv 7 9

end Verif
