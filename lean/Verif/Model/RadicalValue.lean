import Verif.Model.Radical
import Verif.Model.Fraction

/-
Model of `TIRealRadical.decimal` and `sign` (`/repo/tivars/types/real.py:494-521`), and of the square roots and
sums of Python's `decimal` they use. The context is the default one, with 28 digits.
-/

namespace Verif

/-- `Decimal.sqrt` for finite nonnegative numbers (CPython `_pydecimal`). The loop of Newton steps is written as
`Nat.sqrt`. -/
def decSqrt (prec : Nat) (d : PyDec) : PyDec :=
  if d.coeff = 0 then decFix prec ⟨d.neg, 0, d.exp / 2⟩
  else
    let c := if d.exp % 2 = 1 then d.coeff * 10 else d.coeff
    let l := if d.exp % 2 = 1 then (natRepr d.coeff).length / 2 + 1 else ((natRepr d.coeff).length + 1) / 2
    let shift : Int := (prec : Int) + 1 - l
    let num := c * 100 ^ shift.toNat
    let den := 100 ^ (-shift).toNat
    let c := num / den
    let n := Nat.sqrt c
    if num % den = 0 ∧ n * n = c then
      decFix prec ⟨false, n * 10 ^ (-shift).toNat / 10 ^ shift.toNat, d.exp / 2⟩
    else decFix prec ⟨false, if n % 5 = 0 then n + 1 else n, d.exp / 2 - shift⟩

/-- The coefficient with its sign. -/
def PyDec.signed (d : PyDec) : Int := if d.neg then -(d.coeff : Int) else d.coeff

/-- `a + b` for finite decimals (CPython `_pydecimal.Decimal.__add__`): the exact sum, rounded. That very small
summands are replaced by others first, which does not change what is rounded to, is left out. -/
def decAdd (prec : Nat) (a b : PyDec) : PyDec :=
  let e := min a.exp b.exp
  let s : Int := a.signed * 10 ^ (a.exp - e).toNat + b.signed * 10 ^ (b.exp - e).toNat
  decFix prec ⟨if a.coeff = 0 ∧ b.coeff = 0 then a.neg && b.neg else decide (s < 0), s.natAbs, e⟩

/-- `a / b`: `DivisionByZero` is a `ZeroDivisionError`, zero over zero is an `InvalidOperation`. -/
def decTrueDiv (prec : Nat) (a b : PyDec) : Except PyErr PyDec :=
  if b.coeff = 0 then .error (if a.coeff = 0 then .invalidOperation else .zeroDivisionError)
  else .ok (decDiv prec a b)

/-- `radical.decimal()` (real.py:518-521). -/
def radDecimal (b : Buf) : Except PyErr PyDec :=
  match radFields b with
  | .error e => .error e
  | .ok (d, ls, lr, rs, rr) =>
    decTrueDiv 28 (decAdd 28 (decMul 28 (decOfInt ls) (decSqrt 28 (decOfInt lr)))
      (decMul 28 (decOfInt rs) (decSqrt 28 (decOfInt rr)))) (decOfInt d)

/-- `radical.sign` (real.py:494-496). -/
def radSign (b : Buf) : Except PyErr Int :=
  match radDecimal b with
  | .error e => .error e
  | .ok d => .ok (if d.neg ∧ d.coeff ≠ 0 then -1 else 1)

end Verif
