import Verif.Model.Token

/-! Specifications for tokenised entries: separating and rejoining lines. -/

namespace Verif.Spec

/-- Lines put together again, each but the last followed by its separator. -/
def rejoin {α : Type} : List (List α) → List α → List α
  | [], _ => []
  | [l], _ => l
  | l :: ls, [] => l ++ rejoin ls []
  | l :: ls, s :: ss => l ++ s :: rejoin ls ss

/-- Whether a string literal is open after the given codes: an odd number of quotation marks since
the last store or newline. -/
def openString (before : List Bytes) : Bool :=
  (before.reverse.takeWhile fun b => b != [0x04] && b != [0x3F]).count [0x2A] % 2 == 1

/-- The newlines, and the colons outside string literals, in order. -/
def separators {V : Type} (before : List Bytes) : List (Tok V) → List (Tok V)
  | [] => []
  | t :: ts =>
    if t.bits = [0x3F] ∨ t.bits = [0x3E] ∧ openString before = false then
      t :: separators (before ++ [t.bits]) ts
    else separators (before ++ [t.bits]) ts

/-- The greatest `since` among tokens, at least `initial`. -/
def IsMinOs {V : Type} [LinearOrder V] (initial : V) (ts : List (Tok V)) (v : V) : Prop :=
  initial ≤ v ∧ (∀ t ∈ ts, t.since ≤ v) ∧ (v = initial ∨ ∃ t ∈ ts, v = t.since)

end Verif.Spec
