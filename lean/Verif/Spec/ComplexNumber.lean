import Verif.Spec.RealValue
import Verif.Spec.Fraction
import Verif.Spec.Complex
import Verif.Model.ComplexNumber

/-
What is kept of the parts of a complex number of Python.
-/

namespace Verif.Spec

/-- The value of a float. -/
def floatValue (x : PyFloat) : ℚ := (if x.neg then -1 else 1) * ((x.m : ℚ) * 2 ^ x.q)

/-- What a number of the given kind keeps of a value: fractions round it to 14 digits, other numbers cut it off after
14 digits. -/
def Kept (c : Cls) (v x : ℚ) : Prop :=
  if c = .realFraction then Rounds 14 v x
  else (v = 0 ∧ x = 0) ∨ ∃ m e, Truncates14 |v| m e ∧ x = (if v < 0 then -1 else 1) * ((m : ℚ) * 10 ^ e)

/-- The values that have an exponent which can be stored. -/
def HasExponent (x : ℚ) : Prop := x = 0 ∨ InExponentRange |x|

/-- The kinds of numbers that floats can be loaded into. -/
def floatKinds : List Cls := [.real, .realFraction]

/-- The nine bytes are a number of the given value. -/
def Reads (v : Bytes) (x : ℚ) : Prop := ∃ n k, realDecimal ⟨true, v⟩ = .ok (n, k) ∧ (n : ℚ) * 10 ^ k = x

end Verif.Spec
