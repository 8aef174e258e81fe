import Verif.Model.Entry

/-! Specifications for var entries. Only the structure of entries and the class table are taken
from the model. -/

namespace Verif.Spec

/-- The sections of an entry have their declared widths and the meta length is 11 or 13. -/
structure Sections (e : Ent) : Prop where
  metaLen : e.metaLen = [0x0B, 0x00] ∨ e.metaLen = [0x0D, 0x00]
  typeId : e.typeId.length = 1
  name : e.name.length = 8
  version : e.version.length = 1
  archived : e.archived.length = 1

/-- An entry as the library writes it: the sections have their widths, the archived flag is 0x00
or 0x80, an entry without flash bytes has version 0 and is not archived, and the data
fits the two-byte length. -/
structure WF (e : Ent) : Prop extends Sections e where
  flag : e.archived = [0x00] ∨ e.archived = [0x80]
  flashless : e.metaLen = [0x0B, 0x00] → e.version = [0x00] ∧ e.archived = [0x00]
  length : e.body.bytes.length ≤ 65535

/-- Classes whose class does not depend on the content. -/
def Plain : Cls → Bool
  | .real | .undefReal | .realFraction | .realRadical | .realPi | .realPiFraction | .matrix
  | .equation | .newEquation | .string | .window | .recallWindow | .tableSettings
  | .appVar | .group => true
  | _ => false

/-- The low six bits of the type byte of the imaginary part of a complex number. -/
def imagType (d : Bytes) : Nat := (d.getD 9 0).toNat % 64

/-- What the data of each registered type must satisfy for its class to be determined: complex
numbers name their own type in the imaginary part, lists have a first element of
their kind of number, pictures have the size of their kind, graph databases one of the four
modes. The type 0x23 is rewritten on loading and is excluded. -/
def ContentOK (t : Nat) (d : Bytes) : Prop :=
  if t = 0x0C ∨ t = 0x1B ∨ t = 0x1D ∨ t = 0x1E ∨ t = 0x1F then 10 ≤ d.length ∧ imagType d = t
  else if t = 0x01 then
    3 ≤ d.length ∧ (d.getD 2 0).toNat % 32 ∈ [0x00, 0x0E, 0x18, 0x1C]
  else if t = 0x0D then
    3 ≤ d.length ∧ (d.getD 2 0).toNat % 32 ∈ [0x0C, 0x1B, 0x1D, 0x1E, 0x1F]
  else if t = 0x07 then fromLE (d.take 2) ∈ [756, 21945]
  else if t = 0x1A then fromLE (d.take 2) = 22245
  else if t = 0x08 then (d.getD 3 0) ∈ [0x10, 0x40, 0x20, 0x80]
  else t ∈ [0x00, 0x02, 0x03, 0x04, 0x05, 0x06, 0x0B, 0x0E, 0x0F, 0x10, 0x11, 0x15, 0x17, 0x18,
    0x1C, 0x20, 0x21]

/-- The flash bytes of an entry coincide with its length field. -/
def FlashIsLength (e : Ent) : Prop :=
  fromLE (e.version ++ e.archived) = e.body.bytes.length

/-- The warnings owed for a class that does not know the version, or that needs flash. -/
def loadWarnings (c : Cls) (metaLen version : Bytes) : List Warn :=
  (if c.versions ≠ [0x00] ∧ fromLE version ∉ c.versions then [.versionUnrec] else []) ++
  (if metaLen = [0x0B, 0x00] ∧ c.flashOnly then [.flashlessLoad] else [])

/-- The warnings that report damaged or misread sections or files. -/
def corruption : List Warn :=
  [.dataLength, .dataLengths, .flashMissing, .metaLost, .metaLength, .archiveFlag, .typeMismatch,
   .typeUnknown, .coerceUnrec, .coerceNone, .openExtension, .openMultiple, .openExtra]

/-- An entry that survives saving and loading: well formed, its flash bytes do not repeat the data
length, and its content determines its class. -/
structure Storable (e : Ent) : Prop where
  wf : WF e
  flash : e.metaLen = [0x0D, 0x00] → ¬FlashIsLength e
  content : ContentOK (fromLE e.typeId) e.body.bytes

/-- The same sections and data. -/
def SameEntry (e e' : Ent) : Prop :=
  e'.metaLen = e.metaLen ∧ e'.typeId = e.typeId ∧ e'.name = e.name ∧ e'.version = e.version ∧
    e'.archived = e.archived ∧ e'.body.bytes = e.body.bytes

/-- The warnings that report a damaged var file, or one for another model. -/
def varCorruption : List Warn :=
  corruption ++ [.nextMeta, .entryLength, .totalLength, .checksum, .modelIncompat]

/-! ### The layout of the bytes of an entry -/

/-- The meta length, bytes 0-1. -/
def metaOf (d : Bytes) : Nat := fromLE (d.take 2)

/-- The first length field, bytes 2-3. -/
def lengthOf (d : Bytes) : Bytes := (d.drop 2).take 2

/-- The bytes where version and archived flag are expected repeat the length field, so that the
flash bytes are taken to be missing. -/
def FlashMisread (d : Bytes) : Prop := metaOf d = 13 ∧ (d.drop 13).take 2 = lengthOf d

instance (d : Bytes) : Decidable (FlashMisread d) := by unfold FlashMisread; infer_instance

/-- Where the calculator data starts. -/
def dataFrom (d : Bytes) : Nat := if metaOf d = 11 ∨ FlashMisread d then 15 else 17

/-! ### Sized entries -/

/-- The two-byte length at the start of the calculator data counts the bytes that follow it. -/
def InStep (e : Ent) : Prop :=
  2 ≤ e.body.bytes.length ∧ fromLE (e.body.bytes.take 2) = (e.body.bytes.drop 2).length

instance (e : Ent) : Decidable (InStep e) := by unfold InStep; infer_instance

/-- The sized classes considered: programs, strings, equations, appvars, groups, settings and graph
databases; not pictures and images, nor the equations inside graph databases. -/
def SizedCls : Cls → Bool
  | .program | .protProgram | .asmProgram | .protAsmProgram | .equation | .newEquation | .string
  | .appVar | .group | .window | .recallWindow | .tableSettings
  | .monoGDB | .gdb | .monoFunc | .monoParam | .monoPolar | .monoSeq
  | .func | .param | .polar | .seq => true
  | _ => false

/-- These and pictures and images, which may turn into one another on loading. -/
def StepCls (c : Cls) : Bool := SizedCls c || c == .monoPicture || c == .picture || c == .image

/-- What may be done to the sections of an entry; a name is set through an arbitrary converter. -/
inductive EntOp where
  | metaLength (value : Int)
  | typeId (value : Int)
  | name (c : Conv Str) (value : Str)
  | version (value : Int)
  | archived (value : Bool)
  | archive
  | unarchive

end Verif.Spec
