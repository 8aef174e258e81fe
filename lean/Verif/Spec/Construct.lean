import Verif.Spec.Array
import Verif.Spec.Entry
import Verif.Spec.Settings

/-! Specifications for new entries, assigned data and copies. -/

namespace Verif.Spec

/-- The size of the calculator data of a blank variable of each kind that starts with its own
length, in bytes. -/
def blankSize : Cls → Nat
  | .monoPicture => 758
  | .picture => 21947
  | .window => 210
  | .recallWindow => 209
  | .tableSettings => 20
  | .monoGDB => 61
  | .gdb => 66
  | .monoFunc => 110
  | .func => 128
  | .monoParam => 130
  | .param => 144
  | .monoPolar => 112
  | .polar => 126
  | .monoSeq => 163
  | .seq => 174
  | _ => 2

/-- A blank number of the given type: a type byte and eight null bytes. -/
def blankNumber (t : UInt8) : Bytes := t :: List.replicate 8 0

/-- The calculator data of a cleared variable of each kind. -/
def cleared : Cls → Bytes
  | .entry => []
  | .realE | .graphRealE | .real => blankNumber 0x00
  | .undefReal => blankNumber 0x0E
  | .realFraction => blankNumber 0x18
  | .realRadical => blankNumber 0x1C
  | .realPi => blankNumber 0x20
  | .realPiFraction => blankNumber 0x21
  | .complexE | .complex => blankNumber 0x0C ++ blankNumber 0x0C
  | .complexFraction => blankNumber 0x0C ++ blankNumber 0x1B
  | .complexRadical => blankNumber 0x0C ++ blankNumber 0x1D
  | .complexPi => blankNumber 0x0C ++ blankNumber 0x1E
  | .complexPiFraction => blankNumber 0x0C ++ blankNumber 0x1F
  | .listE | .realList | .complexList | .matrix => [0, 0]
  | .image => toLE 2 22245 ++ 0x81 :: List.replicate 22244 0
  | c => toLE 2 (blankSize c - 2) ++ List.replicate (blankSize c - 2) 0

/-- The calculator data of a blank variable of each kind. The last five bytes of a colour graph database are the colours
of the grid (medium grey) and of the axes (black), the line style, the colour of the border and flags. -/
def blank (c : Cls) : Bytes :=
  if c ∈ [.gdb, .func, .param, .polar, .seq] then
    toLE 2 (blankSize c - 2) ++ List.replicate (blankSize c - 7) 0 ++ [0x0D, 0x03, 0x00, 0x00, 0x00]
  else cleared c

/-- The version of a blank variable of each kind, graph databases apart. -/
def blankVersion : Cls → UInt8
  | .realFraction => 0x06
  | .realRadical | .realPi | .realPiFraction => 0x10
  | .picture => 0x0A
  | .complexFraction => 0x0B
  | .complexRadical | .complexPi | .complexPiFraction => 0x10
  | _ => 0x00

/-- The kinds of variables whose version does not depend on their content. -/
def fixedVersion : Cls → Bool
  | .entry | .sized | .realE | .graphRealE | .pictureE | .settingsE | .real | .undefReal | .realFraction
  | .realRadical | .realPi | .realPiFraction | .picture | .monoPicture | .image | .window | .recallWindow
  | .tableSettings | .appVar => true
  | _ => false

/-- What precedes the data in the calculator data once data have been assigned: the dimensions of
lists and matrices stay, other variables start with the length of the data, which images follow with
a byte that stays; numbers consist of data only. -/
def dataPrefix (c : Cls) (old data : Bytes) : Bytes :=
  match c with
  | .listE | .realList | .complexList | .matrix => old.take 2
  | .entry | .realE | .graphRealE | .real | .undefReal | .realFraction | .realRadical | .realPi
  | .realPiFraction | .complexE | .complex | .complexFraction | .complexRadical | .complexPi
  | .complexPiFraction => []
  | .image => toLE 2 data.length ++ (old.drop 2).take 1
  | _ => toLE 2 data.length

/-- The OS versions that raise the version of tokenised data are all newer than the oldest one. -/
def InitialOldest {V : Type} [LinearOrder V] (env : Env V) : Prop :=
  ∀ v ∈ [env.ce53, env.ce52, env.cse40, env.p255, env.p253, env.p230, env.p221, env.b116,
    env.b115, env.b100], env.initial < v

/-- The mode byte of each kind of graph database. -/
def modeByte : Cls → UInt8
  | .monoFunc | .func => 0x10
  | .monoParam | .param => 0x40
  | .monoPolar | .polar => 0x20
  | .monoSeq | .seq => 0x80
  | _ => 0

/-- The content of an entry agrees with its class: the type ID is the class's; programs do not look
like assembly; complex numbers name their own type in the imaginary part; lists have a
first element of their kind; pictures and images have the length of their kind; graph databases have
the mode of their kind, the monochrome ones nothing after the equations. Entries of
the abstract classes, assembly programs and equations of graph databases are not covered. -/
def Settled {V : Type} [LinearOrder V] (env : Env V) (e : Ent) : Prop :=
  e.cls.typeId = some (fromLE e.typeId) ∧
  (Plain e.cls = true ∨
    ((e.cls = .program ∨ e.cls = .protProgram) ∧ Ent.looksAsm env e.data = false) ∨
    (e.cls ∈ complexClasses ∧ 10 ≤ e.body.bytes.length ∧
      e.cls.typeId = some (imagType e.body.bytes)) ∨
    (e.cls = .realList ∧ 3 ≤ e.body.bytes.length ∧
      (e.body.bytes.getD 2 0).toNat % 32 ∈ [0x00, 0x0E, 0x18, 0x1C]) ∨
    (e.cls = .complexList ∧ 3 ≤ e.body.bytes.length ∧
      (e.body.bytes.getD 2 0).toNat % 32 ∈ [0x0C, 0x1B, 0x1D, 0x1E, 0x1F]) ∨
    (e.cls = .monoPicture ∧ fromLE (e.body.bytes.take 2) = 756) ∨
    (e.cls = .picture ∧ fromLE (e.body.bytes.take 2) = 21945) ∨
    (e.cls = .image ∧ fromLE (e.body.bytes.take 2) = 22245) ∨
    (e.cls ∈ [Cls.func, .param, .polar, .seq] ∧ e.body.bytes.getD 3 0 = modeByte e.cls) ∨
    (e.cls ∈ [Cls.monoFunc, .monoParam, .monoPolar, .monoSeq] ∧
      e.body.bytes.getD 3 0 = modeByte e.cls ∧ Ent.colorData e = []))

end Verif.Spec
