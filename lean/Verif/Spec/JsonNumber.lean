import Verif.Spec.Float
import Verif.Model.JsonNumber

/-
What it means for a number to go through JSON unharmed.
-/

namespace Verif.Spec

/-- The nine bytes of an ordinary number as calculators and the library write them: digits of which the first is not zero, or
zero with the exponent 0 and no sign; no flags other than the sign. -/
structure Tidy (b : Bytes) : Prop where
  length : b.length = 9
  digits : AllDigits (b.drop 2)
  head : b.getD 0 0 = 0x00 ∨ b.getD 0 0 = 0x80
  normal : 16 ≤ (b.getD 2 0).toNat ∨ b = 0x00 :: 0x80 :: List.replicate 7 0x00

/-- The number has at most `k` significant decimal digits. -/
def HasDigits (k : Nat) (v : ℚ) : Prop := ∃ (n : Nat) (e : Int), n < 10 ^ k ∧ |v| = (n : ℚ) * 10 ^ e

/-- The numbers that go through JSON: those with six digits or more, and those that are floats. -/
def JsonSafe (v : ℚ) : Prop := HasBits 53 v ∨ ¬ HasDigits 5 v

/-- What a number must be to go through the dictionary of a database: the resolution is a whole number from 1 to 8. -/
def JsonField (n : String) (b : Bytes) : Prop :=
  Tidy b ∧ if n = "Xres" then ∃ k : Int, storedNumber b = k ∧ 1 ≤ k ∧ k ≤ 8 else JsonSafe (storedNumber b)

end Verif.Spec
