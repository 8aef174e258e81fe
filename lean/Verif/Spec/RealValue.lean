import Verif.Spec.Real
import Mathlib.Algebra.Order.Field.Rat
import Mathlib.Algebra.Order.Field.Power

/-! Rational values of decimal literals and truncation to 14 significant digits. -/

namespace Verif.Spec

/-- The absolute value denoted by a literal. -/
def Literal.magnitude (l : Literal) : ℚ := (l.coeff : ℚ) * (10 : ℚ) ^ l.scale

/-- `-1` or `1` -/
def Literal.sgn (l : Literal) : Int := if l.sign.isNeg then -1 else 1

/-- The value denoted by a literal. -/
def Literal.value (l : Literal) : ℚ := (l.sgn : ℚ) * l.magnitude

/-- `m * 10 ^ e`, where `m` has exactly 14 digits, is the positive number `v` truncated toward zero
to 14 significant digits. -/
def Truncates14 (v : ℚ) (m : Nat) (e : Int) : Prop :=
  10 ^ 13 ≤ m ∧ m < 10 ^ 14 ∧ (m : ℚ) * 10 ^ e ≤ v ∧ v < ((m : ℚ) + 1) * 10 ^ e

/-- The magnitudes representable by an eight-bit exponent with bias `0x80`. -/
def InExponentRange (v : ℚ) : Prop := (10 : ℚ) ^ (-128 : Int) ≤ v ∧ v < (10 : ℚ) ^ (128 : Int)

end Verif.Spec
