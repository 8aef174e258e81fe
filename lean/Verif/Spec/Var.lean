import Verif.Model.Cls

/-! Specifications for headers, entries and var files, independent of the model's functions. -/

namespace Verif.Spec

/-- Assignments to the sections of a header. -/
inductive HdrOp where
  | magic (v : Str)
  | extra (v : Bytes)
  | productId (v : Int)
  | comment (v : Str)

/-- The models that share file magic with `m`. -/
def sameMagic (m x : Model) : Prop := x.magic = m.magic

/-- `x` is the newest model with an entry in the table that is not newer than `m`. -/
def NewestListed (ord : Model → Nat) (tbl : List (Model × Str)) (m x : Model) (ext : Str) : Prop :=
  (x, ext) ∈ tbl ∧ ord x ≤ ord m ∧ ∀ y e, (y, e) ∈ tbl → ord y ≤ ord m → ord y ≤ ord x

/-- The order of models follows the chronology in which they are listed. -/
def Chronological (ord : Model → Nat) : Prop := Model.all.Pairwise fun a b => ord a ≤ ord b

end Verif.Spec
