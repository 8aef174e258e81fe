import Verif.Model.Ordering

/-
What the comparisons of flags and models should give.
-/

namespace Verif.Spec

/-- The comparison of numbers that an operator stands for. -/
def cmpNat : Cmp → Nat → Nat → Bool
  | .lt, m, n => decide (m < n)
  | .le, m, n => decide (m ≤ n)
  | .gt, m, n => decide (n < m)
  | .ge, m, n => decide (n ≤ m)

/-- Flags whose bits are numbered from 0 to `w - 1` and are those of the number `n`. -/
structure FlagsOf (w n : Nat) (d : RawFlags) : Prop where
  keys : d.map Prod.fst = List.range w
  fits : n < 2 ^ w
  bits : ∀ i, i < w → rawGet d i = .ok (if n.testBit i then 1 else 0)

end Verif.Spec
