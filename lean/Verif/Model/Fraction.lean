import Verif.Model.Real

/-
Model of `TIRealFraction`, `TIRealPi` and `TIRealPiFraction` (`/repo/tivars/types/real.py:325-366, 602-688`) on their nine data bytes, and of the parts of Python's `decimal` and `fractions` they use.
A `fractions.Fraction` is a Lean `Rat`, which is likewise kept in lowest terms with a positive
denominator. The exponent limits of the decimal context (±999999) are not modelled.
-/

namespace Verif

/-! ### `decimal` -/

/-- `Decimal(n)` for an integer. -/
def decOfInt (n : Int) : PyDec := ⟨decide (n < 0), n.natAbs, 0⟩

/-- `Decimal._fix` (CPython `_pydecimal`): round half even to `prec` digits. The digits cut off are
compared with a half as a number instead of as a string. -/
def decFix (prec : Nat) (d : PyDec) : PyDec :=
  let k := (natRepr d.coeff).length - prec
  if k = 0 then d
  else
    let hi := d.coeff / 10 ^ k
    let lo := d.coeff % 10 ^ k
    let c := if 10 ^ k < 2 * lo ∨ (2 * lo = 10 ^ k ∧ hi % 2 = 1) then hi + 1 else hi
    if prec < (natRepr c).length then ⟨d.neg, c / 10, d.exp + k + 1⟩ else ⟨d.neg, c, d.exp + k⟩

/-- The loop of `Decimal.__truediv__` that brings an exact quotient to the ideal exponent: at most
`fuel` (the distance of the exponents) zeros are removed. -/
def decStrip : Nat → Nat → Int → Nat × Int
  | 0, c, e => (c, e)
  | fuel + 1, c, e => if c % 10 = 0 then decStrip fuel (c / 10) (e + 1) else (c, e)

/-- `a / b` (CPython `_pydecimal.Decimal.__truediv__`) for finite `a` and nonzero `b`. -/
def decDiv (prec : Nat) (a b : PyDec) : PyDec :=
  if a.coeff = 0 then decFix prec ⟨a.neg ^^ b.neg, 0, a.exp - b.exp⟩
  else
    let shift : Int := (natRepr b.coeff).length - (natRepr a.coeff).length + prec + 1
    let exp := a.exp - b.exp - shift
    let num := a.coeff * 10 ^ shift.toNat
    let den := b.coeff * 10 ^ (-shift).toNat
    let c := num / den
    if num % den ≠ 0 then decFix prec ⟨a.neg ^^ b.neg, if c % 5 = 0 then c + 1 else c, exp⟩
    else
      let (c, exp) := decStrip shift.toNat c exp
      decFix prec ⟨a.neg ^^ b.neg, c, exp⟩

/-- `a * b` for finite decimals. -/
def decMul (prec : Nat) (a b : PyDec) : PyDec := decFix prec ⟨a.neg ^^ b.neg, a.coeff * b.coeff, a.exp + b.exp⟩

/-! ### `fractions` -/

/-- `Fraction(d)` for a decimal `c * 10^e`. -/
def fracOfDec (c e : Int) : Rat := if 0 ≤ e then ((c * 10 ^ e.toNat : Int) : Rat) else mkRat c (10 ^ (-e).toNat)

/-- The loop of `Fraction.limit_denominator` (CPython `fractions`): the state when it is left. The
first argument bounds the number of iterations; the remainders decrease, so the initial denominator
is a bound that is never reached (`limitLoop_spec`). -/
def limitLoop (bound : Nat) : Nat → Int → Int → Int → Int → Int → Int →
    Except PyErr (Int × Int × Int × Int × Int × Int)
  | 0, _, _, _, _, _, _ => .error .recursionError
  | fuel + 1, p0, q0, p1, q1, n, d =>
    if d = 0 then .error .zeroDivisionError
    else
      let a := n.fdiv d
      if bound < q0 + a * q1 then .ok (p0, q0, p1, q1, n, d)
      else limitLoop bound fuel p1 q1 (p0 + a * p1) (q0 + a * q1) d (n - a * d)

/-- `f.limit_denominator(bound)` for `bound ≥ 1` as of CPython 3.12. Earlier versions compare the two
candidates as fractions, with the same outcome. -/
def limitDenominator (bound : Nat) (f : Rat) : Except PyErr Rat :=
  if f.den ≤ bound then .ok f
  else
    match limitLoop bound (f.den + 1) 0 1 1 0 f.num f.den with
    | .error e => .error e
    | .ok (p0, q0, p1, q1, _, d) =>
      let k := ((bound : Int) - q0).fdiv q1
      if 2 * d * (q0 + k * q1) ≤ f.den then .ok (mkRat p1 q1.toNat)
      else .ok (mkRat (p0 + k * p1) (q0 + k * q1).toNat)

/-- `Fraction(string)` for strings without white space and underscores (CPython
`fractions._RATIONAL_FORMAT`); digits are ASCII digits. -/
def parseFraction (string : Str) : Except PyErr Rat :=
  let neg := startsWith ['-'] string
  let string := if neg || startsWith ['+'] string then string.drop 1 else string
  let num := string.takeWhile isDig
  let rest := string.dropWhile isDig
  let sgn (f : Rat) : Rat := if neg then -f else f
  if num = [] ∧ (startsWith ['.'] rest && (rest.drop 1).head?.any isDig) = false then .error .valueError
  else if startsWith ['/'] rest then
    match parseNat (rest.drop 1) with
    | .error e => .error e
    | .ok d => if d = 0 then .error .zeroDivisionError else .ok (sgn (mkRat (natVal num) d))
  else
    let dec := if startsWith ['.'] rest then (rest.drop 1).takeWhile isDig else []
    let rest := if startsWith ['.'] rest then (rest.drop 1).dropWhile isDig else rest
    let n : Int := natVal num * 10 ^ dec.length + natVal dec
    if rest = [] then .ok (sgn (fracOfDec n (-dec.length)))
    else if startsWith ['e'] rest || startsWith ['E'] rest then
      match parseInt (rest.drop 1) with
      | .error e => .error e
      | .ok x => .ok (sgn (fracOfDec n (x - dec.length)))
    else .error .valueError

/-- `str(fraction)` -/
def fracStr (f : Rat) : Str := if f.den = 1 then intRepr f.num else intRepr f.num ++ '/' :: natRepr f.den

/-! ### `TIRealFraction` -/

/-- `TIRealFraction.load_fraction` (real.py:353-359). -/
def loadFraction (f : Rat) : PyM Buf Unit := realLoadString (decStr (decDiv 14 (decOfInt f.num) (decOfInt f.den)))

/-- `TIRealFraction.fraction` (real.py:361-362). -/
def realFraction (b : Buf) : Except PyErr Rat :=
  match realDecimal b with
  | .error e => .error e
  | .ok (c, e) => limitDenominator 10000 (fracOfDec c e)

/-- `TIRealFraction.load_string` (real.py:364-366). -/
def fractionLoadString (string : Str) : PyM Buf Unit := do
  let f ← PyM.ofExcept (parseFraction (squash string))
  loadFraction f

/-- `TIRealFraction.load_decimal` (real.py:262-264 through `self.load_string`). -/
def fractionLoadDecimal (d : PyDec) : PyM Buf Unit := fractionLoadString (decStr d)

/-- `TIRealFraction.load_float` (real.py:172-180) on `± m * 2^q`. -/
def fractionLoadFloat (neg : Bool) (m : Nat) (q : Int) : PyM Buf Unit := fractionLoadDecimal (decOfFloat neg m q)

/-- `str(number)` for a `TIRealFraction` (real.py:345-351). -/
def fractionStr (b : Buf) : Except PyErr Str :=
  match realFraction b with
  | .error e => .error e
  | .ok f => .ok (fracStr f)

/-! ### Multiples of π -/

/-- `pi` (numeric.py:11). -/
def pyPi : PyDec := ⟨false, 31415926535898, -13⟩

/-- `TIRealPi.decimal` (real.py:639-643). -/
def piDecimal (b : Buf) : Except PyErr PyDec :=
  match realDecimal b with
  | .error e => .error e
  | .ok (c, e) => .ok (decMul 14 ⟨decide (c < 0), c.natAbs, e⟩ pyPi)

/-- `TIRealPi.load_string` (real.py:645-652). -/
def piLoadString (string : Str) : PyM Buf Unit :=
  let string := replaceStr ['*'] [] (replaceStr ['p', 'i'] ['π'] string)
  if 'π' ∈ string then realLoadString (stripChars ['π'] string) else PyM.raise .valueError

/-- The value of a decimal as a fraction. -/
def fracOfPyDec (d : PyDec) : Rat := fracOfDec (if d.neg then -(d.coeff : Int) else d.coeff) d.exp

/-- `TIRealPiFraction.fraction` (real.py:678-679); the default precision is 28. -/
def piFraction (b : Buf) : Except PyErr Rat :=
  match piDecimal b with
  | .error e => .error e
  | .ok d => limitDenominator 10000 (fracOfPyDec (decDiv 28 d pyPi))

/-- `TIRealPiFraction.load_string` (real.py:681-688). The result of `replacer` is not used. -/
def piFractionLoadString (string : Str) : PyM Buf Unit :=
  if string ≠ ['0'] ∧ ¬ 'π' ∈ string then PyM.raise .valueError
  else fractionLoadString (string.filter (· ≠ 'π'))

/-- `str(number)` for a `TIRealPiFraction` (real.py:670-676). -/
def piFractionStr (b : Buf) : Except PyErr Str :=
  match piFraction b with
  | .error e => .error e
  | .ok f => .ok (replaceStr ['/'] ['π', '/'] (fracStr f))

end Verif
