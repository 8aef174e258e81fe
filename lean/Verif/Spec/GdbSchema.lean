import Verif.Spec.Schema
import Verif.Spec.GdbDict
import Verif.Model.GdbText

/-! Specification of what the schema of graph databases asks of dictionaries. -/

namespace Verif.Spec
open Ent

/-- The key is absent, or its value is one of the names. -/
def OptNamed (names : List String) (s : Option (Option Str)) : Prop := s = none ∨ NamedIn names s

/-- The colours that the schema has: those of curves that are drawn in a colour. -/
def paints : List String := graphColors.drop 1

/-- What the schema asks of a dictionary that has keys of these kinds. -/
structure SchemaFits (d : GdbDict JNum) : Prop where
  mode : OptNamed ["Function", "Parametric", "Polar", "Sequence"] d.mode
  format : ∀ s ∈ d.format, ∃ f ∈ formatBits, s = f.1.toList
  form : ∀ s, d.extSeq = some s → ∃ n ∈ seqForms, s = n.toList
  seq : ∀ s, d.seqSettings = some s → ∃ n ∈ ["Time", "Web", "uv", "vw", "uw"], s = n.toList
  window : ∀ kv ∈ d.window, ∃ n ∈ plotNames, kv.1 = n.toList
  curves : ∀ kv ∈ d.equations, OptNamed graphStyles kv.2.style ∧ OptNamed paints kv.2.color
  colors : ∀ c, d.color = some c → OptNamed paints c.grid ∧ OptNamed paints c.axes ∧ (∀ n, c.border = some n → 1 ≤ n ∧ n ≤ 4) ∧
    c.line = none

end Verif.Spec
