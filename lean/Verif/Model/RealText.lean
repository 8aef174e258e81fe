import Verif.Model.Fraction

/-
Model of the text of real numbers (`/repo/tivars/types/real.py:65-83, 623-633`): `format` with an empty
specification. Other specifications are passed to `Decimal` and are not modelled.
-/

namespace Verif

/-- The coefficient of `d` after `Decimal._rescale(-places, ROUND_HALF_EVEN)` (CPython `_pydecimal`). -/
def decRescale (places : Nat) (d : PyDec) : Nat :=
  if 0 ≤ d.exp + places then d.coeff * 10 ^ (d.exp + places).toNat
  else
    let k := (-(d.exp + places)).toNat
    let hi := d.coeff / 10 ^ k
    let lo := d.coeff % 10 ^ k
    if 10 ^ k < 2 * lo ∨ (2 * lo = 10 ^ k ∧ hi % 2 = 1) then hi + 1 else hi

/-- `f"{d:.{places}f}"` for a finite decimal (CPython `Decimal.__format__`). -/
def decFixed (places : Nat) (d : PyDec) : Str :=
  let digits := natRepr (decRescale places d)
  let digits := List.replicate (places + 1 - digits.length) '0' ++ digits
  (if d.neg then ['-'] else []) ++
    (digits.take (digits.length - places) ++ '.' :: digits.drop (digits.length - places))

/-- `f"{d:.14f}".rstrip("0").rstrip(".")` (real.py:72, 630) -/
def plainStr (d : PyDec) : Str := rstripChars ['.'] (rstripChars ['0'] (decFixed 14 d))

/-- `str(number)` for a `TIReal` (real.py:65-71). -/
def realStr (b : Buf) : Except PyErr Str :=
  match realDecimal b with
  | .error e => .error e
  | .ok (c, e) => .ok (if c = 0 then ['0'] else plainStr ⟨decide (c < 0), c.natAbs, e⟩)

/-- `str(number)` for a `TIRealPi` (real.py:623-633). -/
def piStr (b : Buf) : Except PyErr Str :=
  match realDecimal b with
  | .error e => .error e
  | .ok (c, e) =>
    .ok (if (decMul 14 ⟨decide (c < 0), c.natAbs, e⟩ pyPi).coeff = 0 then ['0']
      else plainStr ⟨decide (c < 0), c.natAbs, e⟩ ++ ['π'])

end Verif
