import Verif.Py.Core

/-! Small independent specifications for the data layer. -/

namespace Verif.Spec

/-- Byte `i` of the little-endian representation of `n`. -/
def leByte (n i : Nat) : Nat := n / 256 ^ i % 256

/-- `r` is `s` without its trailing run of `z`. -/
def IsRStrip {α : Type} (z : α) (s r : List α) : Prop :=
  (∃ k, s = r ++ List.replicate k z) ∧ r.getLast? ≠ some z

/-- The bit positions of a byte selected by a slice, in increasing order. -/
def positions (sel : Nat → Bool) : List Nat := (List.range 8).filter sel

/-- Value of a bit field: bit `j` of the value is the byte's bit at the `j`-th position. -/
def fieldValue : List Nat → Nat → Nat
  | [], _ => 0
  | p :: ps, b => (if b.testBit p then 1 else 0) + 2 * fieldValue ps b

end Verif.Spec
