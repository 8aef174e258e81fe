import Verif.Model.Json
import Verif.Spec.Float

/-! Specifications for JSON text. -/

namespace Verif.Spec

/-- A float in its normal form: at most 53 binary digits, the last of them 1, or zero. -/
def IsFloat (x : PyFloat) : Prop := x.m < 2 ^ 53 ∧ (x.m % 2 = 1 ∨ x.m = 0 ∧ x.q = 0)

mutual
/-- The values that Python has: floats are floats, and no dictionary has a key twice. -/
def Proper : Json → Prop
  | .float x => IsFloat x
  | .arr xs => ProperItems xs
  | .obj kvs => (kvs.map Prod.fst).Nodup ∧ ProperMembers kvs
  | _ => True
/-- All items are proper. -/
def ProperItems : List Json → Prop
  | [] => True
  | x :: xs => Proper x ∧ ProperItems xs
/-- All values are proper. -/
def ProperMembers : List (Str × Json) → Prop
  | [] => True
  | (_, x) :: kvs => Proper x ∧ ProperMembers kvs
end

/-- Only the characters from the space to the tilde. -/
def Printable (s : Str) : Prop := ∀ c ∈ s, 32 ≤ c.toNat ∧ c.toNat ≤ 126

instance (s : Str) : Decidable (Printable s) := List.decidableBAll _ s

end Verif.Spec
