import Verif.Spec.Numeric
import Verif.Spec.Array
import Verif.Spec.RadicalText
import Verif.Model.ArrayText

/-! What it means for a list or matrix to survive being printed and loaded. -/

namespace Verif
open Spec Ent

/-- The bytes hold the decimal number `c * 10 ^ e` of fourteen digits, or zero, with at most 14 decimals. -/
def ShortDecimal (v : Bytes) (c e : Int) : Prop :=
  AllDigits (v.drop 2) ∧ realDecimal ⟨true, v⟩ = .ok (c, e) ∧ (c = 0 ∨ 10 ^ 13 ≤ c.natAbs) ∧ ∃ n : Int, (c : ℚ) * 10 ^ e * 10 ^ 14 = n

/-- Numbers whose text is of the form that belongs to their kind: decimals with at most 14 decimals, fractions that are not
whole, radicals with a root, nonzero multiples of π with at most 14 decimals, and fractions of π that are not whole. -/
def Reloadable (x : Ent) : Prop :=
  RealElem x ∧
  match x.cls with
  | .real => ∃ c e, ShortDecimal x.body.bytes c e
  | .realFraction => ∃ f : ℚ, realFraction ⟨true, x.body.bytes⟩ = .ok f ∧ f.den ≠ 1 ∧ |f| < 1000000
  | .realRadical => ∃ (d m n : Nat) (a b : Int), radFields ⟨true, x.body.bytes⟩ = .ok ((d : Int), a, (m : Int), b, (n : Int)) ∧
      d ≠ 0 ∧ d < 1000 ∧ a ≠ 0 ∧ a.natAbs < 1000 ∧ b.natAbs < 1000 ∧ n < m ∧ 1 < m ∧ m < 1000
  | .realPi => ∃ c e, ShortDecimal x.body.bytes c e ∧ c ≠ 0
  | .realPiFraction => ∃ f : ℚ, piFraction ⟨true, x.body.bytes⟩ = .ok f ∧ f.den ≠ 1 ∧ |f| < 100000
  | _ => False

/-- Two numbers of one kind that have the same value. -/
def SameValue (x y : Ent) : Prop :=
  y.cls = x.cls ∧
  match x.cls with
  | .realFraction => ∃ f, realFraction ⟨true, x.body.bytes⟩ = .ok f ∧ realFraction ⟨true, y.body.bytes⟩ = .ok f
  | .realRadical => ∃ (d m n d' m' n' : Nat) (a b a' b' : Int),
      radFields ⟨true, x.body.bytes⟩ = .ok ((d : Int), a, (m : Int), b, (n : Int)) ∧
      radFields ⟨true, y.body.bytes⟩ = .ok ((d' : Int), a', (m' : Int), b', (n' : Int)) ∧
      ((a : ℝ) * Real.sqrt m + b * Real.sqrt n) / (d : ℝ) = ((a' : ℝ) * Real.sqrt m' + b' * Real.sqrt n') / (d' : ℝ)
  | .realPiFraction => ∃ f, piFraction ⟨true, x.body.bytes⟩ = .ok f ∧ piFraction ⟨true, y.body.bytes⟩ = .ok f
  | _ => ∃ c e c' e' : Int, realDecimal ⟨true, x.body.bytes⟩ = .ok (c, e) ∧ realDecimal ⟨true, y.body.bytes⟩ = .ok (c', e') ∧
      (c : ℚ) * 10 ^ e = (c' : ℚ) * 10 ^ e'

/-- A complex number with ordinary parts that prints as a text with these parts. -/
def ReloadableComplex (x : Ent) : Prop :=
  x.cls = .complex ∧ ∃ (re im : Bytes) (c e c' e' : Int), x.body.bytes = re ++ im ∧ re.length = 9 ∧ im.length = 9 ∧
    (re.headD 0).toNat % 64 = 0x0C ∧ (im.headD 0).toNat % 64 = 0x0C ∧ ShortDecimal re c e ∧ ShortDecimal im c' e' ∧
    (c = 0 ∨ (c' : ℚ) * 10 ^ e' ≠ -1)

/-- Two complex numbers with ordinary parts of the same values. -/
def SameComplex (x y : Ent) : Prop :=
  y.cls = x.cls ∧ ∃ c e c' e' d f d' f' : Int,
    realDecimal ⟨true, x.body.bytes.take 9⟩ = .ok (c, e) ∧ realDecimal ⟨true, x.body.bytes.drop 9⟩ = .ok (c', e') ∧
    realDecimal ⟨true, y.body.bytes.take 9⟩ = .ok (d, f) ∧ realDecimal ⟨true, y.body.bytes.drop 9⟩ = .ok (d', f') ∧
    (c : ℚ) * 10 ^ e = (d : ℚ) * 10 ^ f ∧ (c' : ℚ) * 10 ^ e' = (d' : ℚ) * 10 ^ f'

end Verif
