import Verif.Py.Core

/-! Independent specifications for BCD data and flags. -/

namespace Verif.Spec

/-- The nibbles of a byte string, most significant first. -/
def nibbles : Bytes → List Nat
  | [] => []
  | b :: bs => b.toNat / 16 :: b.toNat % 16 :: nibbles bs

/-- A list of digits read as a decimal number. -/
def decimalValue (ds : List Nat) : Nat := ds.foldl (fun acc x => 10 * acc + x) 0

/-- Every nibble is a decimal digit. -/
def AllDigits (d : Bytes) : Prop := ∀ x ∈ nibbles d, x < 10

end Verif.Spec
