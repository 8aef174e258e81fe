import Verif.Spec.GdbDict

/-! Specifications for the default dictionaries of graph databases. -/

namespace Verif.Spec
open Ent

/-- The numbers of the standard window: from -10 to 10 in steps of 1. -/
def standardWindow : List Bytes :=
  [[0x80, 0x81, 0x10, 0, 0, 0, 0, 0, 0], [0x00, 0x81, 0x10, 0, 0, 0, 0, 0, 0], [0x00, 0x80, 0x10, 0, 0, 0, 0, 0, 0],
   [0x80, 0x81, 0x10, 0, 0, 0, 0, 0, 0], [0x00, 0x81, 0x10, 0, 0, 0, 0, 0, 0], [0x00, 0x80, 0x10, 0, 0, 0, 0, 0, 0]]

/-- The numbers of the mode: the resolution 1, or the parameter from 0 to 6.283185307 in steps of 0.13089969389957. -/
def standardNumbers : Cls → List Bytes
  | .func => [[0x00, 0x80, 0x10, 0, 0, 0, 0, 0, 0]]
  | _ => [[0x00, 0x80, 0, 0, 0, 0, 0, 0, 0], [0x00, 0x80, 0x62, 0x83, 0x18, 0x53, 0x07, 0x00, 0x00],
      [0x00, 0x7F, 0x13, 0x08, 0x99, 0x69, 0x38, 0x99, 0x57]]

/-- The database after a reset: the standard window, no equations, thick lines in blue, red, black, magenta, green, orange, brown and again
from the start, a medium grey grid, black axes, the first border, and asymptotes detected. -/
def standardPlot (c : Cls) : Plot where
  head := toLE 2 (emptySize c) ++ [0x00, (plotMode c).2, 0x00, 0x00, 0x00] ++ (standardWindow ++ standardNumbers c).flatten
  styles := List.replicate (styleCount c) 0x01
  eqs := List.replicate (equationCount c) ⟨0x03, []⟩
  tail := some ⟨[0x38, 0x34, 0x43], [1, 2, 3, 4, 5, 6, 7, 1, 2, 3].take (styleCount c), [0x0D, 0x03, 0x00, 0x01, 0x00]⟩

end Verif.Spec
