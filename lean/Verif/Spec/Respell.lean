import Verif.Spec.Token
import Verif.Model.Token

/-! Specification of reading the names of tokens again. -/

namespace Verif.Spec

/-- The text `s` is read as the pieces `ps` in a mode: by maximal munch, by minimal munch, or each piece as its
context demands. -/
def ReadIn {τ : Type} (lit : Bytes → τ) (bitsOf : τ → Bytes) (tbl : List (Str × τ)) (s : Str) (ps : List (Str × τ)) :
    EncMode → Prop
  | .max => Pieces (IsMunch lit tbl false) s ps []
  | .min | .string => Pieces (IsMunch lit tbl true) s ps []
  | .smart => ∃ c, SmartPieces 9 6 lit bitsOf tbl .outside s ps c []

/-- A name by which a token cannot be mistaken, whatever follows: it is the token's, it does not start with a
backslash, and no other name starts with it or starts it. -/
def Unmistakable {τ : Type} (tbl : List (Str × τ)) (name : Str) (t : τ) : Prop :=
  name ≠ [] ∧ name.head? ≠ some '\\' ∧ named tbl name = some t ∧
  ∀ p ∈ tbl, (p.1 <+: name ∨ name <+: p.1) → p.1 = name

end Verif.Spec
