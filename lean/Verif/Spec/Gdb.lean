import Verif.Spec.Settings
import Verif.Spec.Entry

/-! Specifications for graph databases: the layout of their bytes. -/

namespace Verif.Spec

/-- The kinds of graph databases. -/
def plotClasses : List Cls := [.monoFunc, .func, .monoParam, .param, .monoPolar, .polar, .monoSeq, .seq]

/-- How many equations a graph database has. -/
def equationCount : Cls → Nat
  | .monoFunc | .func => 10
  | .monoParam | .param => 12
  | .monoPolar | .polar => 6
  | .monoSeq | .seq => 3
  | _ => 0

/-- How many equations share a style and a colour: the two components of a parametric curve. -/
def sharing : Cls → Nat
  | .monoParam | .param => 2
  | _ => 1

/-- How many styles a graph database has. -/
def styleCount (c : Cls) : Nat := equationCount c / sharing c

/-- An equation inside a graph database: its flags and its tokens, of any length. -/
structure PlotEq where
  flags : UInt8
  tokens : Bytes
  deriving DecidableEq

/-- Its bytes: flags, length and tokens. -/
def PlotEq.bytes (q : PlotEq) : Bytes := q.flags :: toLE 2 q.tokens.length ++ q.tokens

/-- The colour part: three bytes of magic, a colour for each style and five bytes of settings. -/
structure ColorPart where
  magic : Bytes
  colors : List UInt8
  settings : Bytes

/-- The parts of a graph database: everything up to the numbers, the styles, the equations and the colours,
if there are any. -/
structure Plot where
  head : Bytes
  styles : List UInt8
  eqs : List PlotEq
  tail : Option ColorPart

def ColorPart.bytes (t : ColorPart) : Bytes := t.magic ++ t.colors ++ t.settings

def tailBytes : Option ColorPart → Bytes
  | none => []
  | some t => t.bytes

/-- The bytes of a graph database. -/
def Plot.bytes (p : Plot) : Bytes :=
  p.head ++ p.styles ++ p.eqs.flatMap PlotEq.bytes ++ tailBytes p.tail

/-- The parts have the sizes due for the class. -/
structure Plot.Fits (p : Plot) (c : Cls) : Prop where
  head : p.head.length = fieldStart c (fieldNames c).length
  styles : p.styles.length = styleCount c
  eqs : p.eqs.length = equationCount c
  tokens : ∀ q ∈ p.eqs, q.tokens.length < 65536
  tail : ∀ t, p.tail = some t → t.magic.length = 3 ∧ t.colors.length = styleCount c ∧ t.settings.length = 5

/-- Replace the `i`-th equation. Its style and colour are those of its curve if it is the first equation of
it; the magic is `84C`. -/
def Plot.replace (p : Plot) (c : Cls) (i : Nat) (q : PlotEq) (style color : UInt8) : Plot where
  head := p.head
  styles := if i % sharing c = 0 then p.styles.set (i / sharing c) style else p.styles
  eqs := p.eqs.set i q
  tail := match p.tail with
    | none => none
    | some t => some ⟨[0x38, 0x34, 0x43],
        if i % sharing c = 0 then t.colors.set (i / sharing c) color else t.colors, t.settings⟩

end Verif.Spec
