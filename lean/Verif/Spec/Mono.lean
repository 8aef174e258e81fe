import Verif.Spec.Gdb
import Verif.Spec.Construct

/-! What it means for a graph database to be the monochrome version of another one. -/

namespace Verif.Spec

/-- The databases with colours. -/
def colorClasses : List Cls := [.func, .param, .polar, .seq]

/-- The monochrome class of the same mode. -/
def monoOf : Cls → Cls
  | .func => .monoFunc
  | .param => .monoParam
  | .polar => .monoPolar
  | .seq => .monoSeq
  | c => c

/-- The database without its colours. -/
def Plot.plain (p : Plot) : Plot where
  head := p.head
  styles := p.styles
  eqs := p.eqs
  tail := none

/-- The length field, the first two bytes, counts the bytes that follow it. -/
def Counted (b : Bytes) : Prop := fromLE (b.take 2) + 2 = b.length

end Verif.Spec
