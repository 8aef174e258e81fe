import Verif.Model.Negate
import Verif.Model.ComplexNumber

/-
Model of the conversions of numbers to `float` and `int` (`/repo/tivars/types/real.py:62-63, 85-86, 182-200`) and of
the binary floating-point numbers of Python they go through. Floats are finite; since the numbers of a calculator
lie between 10^-142 and 10^129, overflow and the reduced precision below 2^-1022 are left out.
-/

namespace Verif

/-- The quotient rounded to the nearest natural number, ties to even. -/
def divRound (n d : Nat) : Nat :=
  let q := n / d
  let r := n % d
  if 2 * r < d then q else if d < 2 * r then q + 1 else q + q % 2

/-- The power of two (of a positive fraction `n / d`): `2^k ≤ n / d < 2^(k+1)`. -/
def log2Frac (n d : Nat) : Int :=
  let k : Int := (Nat.log2 n : Int) - Nat.log2 d
  if d * 2 ^ k.toNat ≤ n * 2 ^ (-k).toNat then k else k - 1

/-- Factors of two are taken out of the mantissa, at most `fuel`. -/
def halve : Nat → Nat → Int → Nat × Int
  | 0, m, q => (m, q)
  | fuel + 1, m, q => if m % 2 = 0 then halve fuel (m / 2) (q + 1) else (m, q)

/-- The float nearest to `n / d` (53 bits, ties to even). -/
def floatOfFrac (neg : Bool) (n d : Nat) : PyFloat :=
  if n = 0 then ⟨neg, 0, 0⟩
  else
    let k := log2Frac n d - 52
    let m := divRound (n * 2 ^ (-k).toNat) (d * 2 ^ k.toNat)
    let (m, q) := halve 53 m k
    ⟨neg, m, q⟩

/-- `float(decimal)`: CPython reads `str(decimal)`, which gives the nearest float. -/
def floatOfDec (d : PyDec) : PyFloat := floatOfFrac d.neg (d.coeff * 10 ^ d.exp.toNat) (10 ^ (-d.exp).toNat)

/-- `int(x)` for a float: the part before the point. -/
def floatTrunc (x : PyFloat) : Int :=
  let n := x.m * 2 ^ x.q.toNat / 2 ^ (-x.q).toNat
  if x.neg then -(n : Int) else n

/-- `int(x) == x` for a float. -/
def floatWhole (x : PyFloat) : Bool := decide (x.m * 2 ^ x.q.toNat % 2 ^ (-x.q).toNat = 0)

/-- `number.float()` (real.py:195-200). -/
def realFloat (c : Cls) (b : Buf) : Except PyErr PyFloat :=
  match realPartDecimal c b with
  | .error e => .error e
  | .ok d => .ok (floatOfDec d)

/-- `int(number)` (real.py:85-86). -/
def realInt (c : Cls) (b : Buf) : Except PyErr Int :=
  match realFloat c b with
  | .error e => .error e
  | .ok x => .ok (floatTrunc x)

namespace Ent

/-- `entry.complex()` (complex.py:297-302), as the pair of its parts: `x + 1j * y` has the parts `x` and `y`, up to the
sign of zeros. -/
def complexParts' (e : Ent) : Except PyErr (PyFloat × PyFloat) := do
  let (c, r) ← e.getReal
  let x ← realFloat c ⟨true, r⟩
  let (c', i) ← e.getImag
  let y ← realFloat c' ⟨true, i⟩
  .ok (x, y)

end Ent

/-! ### Text -/

/-- The number of digits before the point of `n / d`, if it is at least one: `10^(k-1) ≤ n / d < 10^k`, and likewise
(with `k ≤ 0`) for smaller numbers. -/
def log10Frac (n d : Nat) : Int :=
  let k : Int := ((natRepr n).length : Int) - (natRepr d).length
  if d * 10 ^ k.toNat ≤ n * 10 ^ (-k).toNat then k + 1 else k

/-- Whether the float nearest to `c * 10^e` is the given positive one, `n / d`. -/
def isFloat (n d : Nat) (c : Nat) (e : Int) : Bool :=
  let x := floatOfFrac false (c * 10 ^ e.toNat) (10 ^ (-e).toNat)
  decide (x.m * 2 ^ x.q.toNat * d = n * 2 ^ (-x.q).toNat)

/-- The shortest decimal that is read as the float `n / d`, and of several the nearest, ties to even: the digits are tried from the
given number of digits on; the first argument bounds their number (CPython `dtoa` in mode 0). -/
def shortLoop : Nat → Nat → Nat → Nat → Nat × Int
  | 0, n, d, k =>
    let e := log10Frac n d - k
    (n * 10 ^ (-e).toNat / (d * 10 ^ e.toNat), e)
  | fuel + 1, n, d, k =>
    let e := log10Frac n d - k
    let num := n * 10 ^ (-e).toNat
    let den := d * 10 ^ e.toNat
    let lo := num / den
    if isFloat n d lo e = true ∧ isFloat n d (lo + 1) e = true then
      (divRound num den, e)
    else if isFloat n d lo e = true then (lo, e)
    else if isFloat n d (lo + 1) e = true then (lo + 1, e)
    else shortLoop fuel n d (k + 1)

/-- Zeros at the end are taken off, at most `fuel`. -/
def dropZeros : Nat → Nat → Int → Nat × Int
  | 0, c, e => (c, e)
  | fuel + 1, c, e => if c % 10 = 0 then dropZeros fuel (c / 10) (e + 1) else (c, e)

/-- The digits of a positive float and their exponent. -/
def floatDigits (x : PyFloat) : Nat × Int :=
  let (c, e) := shortLoop 17 (x.m * 2 ^ x.q.toNat) (2 ^ (-x.q).toNat) 1
  dropZeros 17 c e

/-- The exponent of a float in its text has two digits at least. -/
def expText (k : Int) : Str :=
  'e' :: (if k < 0 then '-' else '+') :: (if k.natAbs < 10 then '0' :: natRepr k.natAbs else natRepr k.natAbs)

/-- The text of the number with the given digits before the power of ten: with a point among the digits, or with an exponent if
that is below -4 or above 15. -/
def digitsText (ds : Str) (e : Int) : Str :=
  let pt : Int := e + ds.length
  if pt ≤ -4 ∨ 16 < pt then
    ds.take 1 ++ (if ds.length ≤ 1 then [] else '.' :: ds.drop 1) ++ expText (pt - 1)
  else if pt ≤ 0 then '0' :: '.' :: (List.replicate (-pt).toNat '0' ++ ds)
  else if ds.length ≤ pt then ds ++ List.replicate (pt - ds.length).toNat '0' ++ ".0".toList
  else ds.take pt.toNat ++ '.' :: ds.drop pt.toNat

/-- `str(x)` for a finite float (CPython `float_repr`, format `r`). -/
def floatStr (x : PyFloat) : Str :=
  (if x.neg then ['-'] else []) ++
  if x.m = 0 then "0.0".toList else digitsText (natRepr (floatDigits x).1) (floatDigits x).2

/-! ### JSON -/

/-- What numbers in JSON become. -/
inductive JNum where
  | float (x : PyFloat)
  | int (n : Int)
  | str (s : Str)
  deriving DecidableEq, Repr

/-- `number.json_number()` (real.py:182-193). -/
def jsonNumber (c : Cls) (b : Buf) : Except PyErr JNum :=
  match realFloat c b with
  | .error e => .error e
  | .ok x => .ok (if (floatStr x).length ≤ 6 then .float x else .str (floatStr x))

end Verif
