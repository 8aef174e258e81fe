import Verif.Spec.RealValue
import Verif.Model.Real

/-! Independent specification of rounding to a number of significant digits and of best rational
approximation. -/

namespace Verif

/-- The value of a finite `Decimal`. -/
def PyDec.value (d : PyDec) : ℚ := ((if d.neg then -1 else 1 : Int) : ℚ) * (d.coeff * (10 : ℚ) ^ d.exp)

namespace Spec

/-- `x` is the nonnegative number `v` rounded to `prec` significant digits, to the nearest, ties to
even: `v` lies between the adjacent numbers `m * 10^e` and `(m + 1) * 10^e`, where `m` has `prec`
digits, and `x` is the one that is nearer, or the one with the even coefficient. -/
def RoundsHalfEven (prec : Nat) (v x : ℚ) : Prop :=
  (v = 0 ∧ x = 0) ∨
  ∃ (m : Nat) (e : Int), 10 ^ (prec - 1) ≤ m ∧ m < 10 ^ prec ∧
    (m : ℚ) * 10 ^ e ≤ v ∧ v < ((m : ℚ) + 1) * 10 ^ e ∧
    ((x = (m : ℚ) * 10 ^ e ∧ (2 * (v - x) < 10 ^ e ∨ (2 * (v - x) = 10 ^ e ∧ m % 2 = 0))) ∨
     (x = ((m : ℚ) + 1) * 10 ^ e ∧ (2 * (x - v) < 10 ^ e ∨ (2 * (x - v) = 10 ^ e ∧ m % 2 = 1))))

/-- The same for numbers of either sign. -/
def Rounds (prec : Nat) (v x : ℚ) : Prop := RoundsHalfEven prec |v| |x| ∧ 0 ≤ v * x

/-- `x` is the number with `places` decimals nearest to `v`; of two equally near ones it is the one whose
last digit is even. -/
def RoundsAt (places : Nat) (v x : ℚ) : Prop :=
  ∃ n : Int, x * 10 ^ places = n ∧ 2 * |v - x| * 10 ^ places ≤ 1 ∧ (2 * |v - x| * 10 ^ places = 1 → n % 2 = 0)

/-- `g` is a fraction with denominator at most `bound` to which no other is nearer `f`. -/
def BestApprox (bound : Nat) (f g : ℚ) : Prop := g.den ≤ bound ∧ ∀ h : ℚ, h.den ≤ bound → |f - g| ≤ |f - h|

/-- The literals `Fraction` reads: signs and exponent markers of Python, at least one digit. -/
structure FractionLiteral (l : Literal) : Prop where
  sign : l.sign ≠ .tilde
  digit : l.int ≠ [] ∨ l.fracDigits ≠ []
  marker : ∀ m s x, l.exp = some (m, s, x) → (m = .e ∨ m = .E) ∧ s ≠ .tilde

end Spec

end Verif
