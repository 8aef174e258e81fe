import Verif.Spec.ComplexNumber
import Verif.Spec.Numeric
import Mathlib.Algebra.Order.Floor.Defs
import Mathlib.Data.Rat.Floor
import Verif.Model.Float

/-
Specification of binary floating-point numbers with 53 bits: which numbers they are and which of them is nearest.
-/

namespace Verif.Spec

/-- The numbers with at most `p` binary digits. -/
def HasBits (p : Nat) (f : ℚ) : Prop := ∃ (n : Int) (k : Int), |n| < 2 ^ p ∧ f = (n : ℚ) * 2 ^ k

/-- `f` is the number of 53 binary digits nearest to `v`; if another is as near, `f` is the one whose last digit is 0. -/
structure NearestFloat (v f : ℚ) : Prop where
  bits : HasBits 53 f
  near : ∀ g, HasBits 53 g → |v - f| ≤ |v - g|
  tie : ∀ g, HasBits 53 g → |v - f| = |v - g| → g = f ∨ HasBits 52 f

/-- The part of a number before the point. -/
def wholePart (v : ℚ) : Int := if v < 0 then ⌈v⌉ else ⌊v⌋

/-- The number stored in nine bytes: the sign is the highest bit of the first, the second is the exponent above 128, and the
others are fourteen decimal digits, the first of them before the point. -/
def storedNumber (b : Bytes) : ℚ :=
  (if 128 ≤ (b.getD 0 0).toNat then -1 else 1) *
    ((decimalValue (nibbles (b.drop 2)) : ℚ) * 10 ^ (((b.getD 1 0).toNat : Int) - 128 - 13))

/-- The kinds of numbers whose bytes are the digits of their value. -/
def decimalKinds : List Cls := [.real, .undefReal, .realFraction]

end Verif.Spec
