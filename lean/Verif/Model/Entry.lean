import Verif.Model.Header
import Verif.Model.Token
import Verif.Model.Flags

/-
Model of `TIEntry` and `SizedEntry` (`/repo/tivars/var.py:241-980, 1296-1335`): sections,
serialisation, coercion to subclasses and loading, together with the `coerce` overrides of
`/repo/tivars/types/*.py`.
-/

namespace Verif

/-- An entry: its class and the slots of `TIEntry.Raw` (var.py:294-341). Slots other than
`calc_data` always hold immutable `bytes` or freshly read `bytes`; views write only into
`calc_data`. -/
structure Ent where
  cls : Cls
  metaLen : Bytes
  typeId : Bytes
  name : Bytes
  version : Bytes
  archived : Bytes
  body : Buf
  deriving DecidableEq, Repr

/-- What the code takes from the token sheets: the tokens of the default model (TI-84+CE), the
order of OS versions with its named points, and the encoded default name. -/
structure Env (V : Type) where
  /-- `OsVersions.INITIAL` -/
  initial : V
  /-- `TI_84PCE.tokens.bytes` -/
  table : TokTable V
  /-- `encode("UNNAMED")`, padded to eight bytes -/
  unnamed : Bytes
  /-- `TI_84PCE.OS("5.3")`, `TI_84PCE.OS("5.2")`, `TI_84PCSE.OS("4.0")`, `TI_84P.OS("2.55")`,
  `TI_84P.OS("2.53")`, `TI_84P.OS("2.30")`, `TI_84P.OS("2.21")`, `TI_83P.OS("1.16")`,
  `TI_83P.OS("1.15")`, `TI_83P.OS("1.00")` -/
  ce53 : V
  ce52 : V
  cse40 : V
  p255 : V
  p253 : V
  p230 : V
  p221 : V
  b116 : V
  b115 : V
  b100 : V
  /-- `TI_83P.OS()`, `TI_84PCSE.OS()`, `TI_84PCE.OS()` -/
  osP : V
  osCse : V
  osCe : V

namespace Ent

/-- `entry.meta_length` (var.py:486): `Section(2, Integer)`. -/
def metaLength (e : Ent) : Nat := fromLE e.metaLen

/-- `entry.calc_data_length` (var.py:505-511). -/
def calcLength (e : Ent) : Nat := e.body.bytes.length

/-- `entry.flash_bytes` and `raw.flash_bytes` (var.py:317-324, 592-598). -/
def flashBytes (e : Ent) : Bytes :=
  getSlice (e.version ++ e.archived) { stop := some ((e.metaLength : Int) - 11) }

/-- `raw.calc_data_length` (var.py:309-315). -/
def lengthField (e : Ent) : Except PyErr Bytes := intToBytesLE e.calcLength 2

/-- `entry.bytes()` (var.py:334-341, 809-818). -/
def bytes (e : Ent) : Except PyErr Bytes :=
  match e.lengthField with
  | .error x => .error x
  | .ok l => .ok (e.metaLen ++ l ++ e.typeId ++ e.name ++ e.flashBytes ++ l ++ e.body.bytes)

/-- `len(entry)` (var.py:472-477). -/
def len (e : Ent) : Nat := 2 + e.metaLength + 2 + e.calcLength

/-- `entry.is_empty` (var.py:600-606). -/
def isEmpty (e : Ent) : Bool := e.calcLength == 0

/-- `entry.type_id` (var.py:513-519): `Section(1, Bits[:])`. -/
def getTypeId (e : Ent) : Except PyErr Nat :=
  (sectionGet (bitsConv {}) ⟨false, e.typeId⟩).map Int.toNat

/-- `entry.version` (var.py:529): `Section(1, Bits[:])`. -/
def getVersionByte (e : Ent) : Except PyErr Nat :=
  (sectionGet (bitsConv {}) ⟨false, e.version⟩).map Int.toNat

/-- `entry.archived` (var.py:544): `Section(1, Boolean)`. -/
def getArchived (e : Ent) : Bool := e.archived != [0x00]

/-- `entry.meta_length = value` (var.py:486-503), once the slot has a value. -/
def setMeta (value : Int) : PyM Ent Unit := do
  let e ← PyM.get
  if value = 11 then do
    if e.metaLen = [0x0D, 0x00] then PyM.warn .metaLost else pure ()
    if e.cls.flashOnly then PyM.warn .flashlessSet else pure ()
  else pure ()
  let b ← PyM.lift (setRaw intConv (some 2) e.metaLen value)
  PyM.set { e with metaLen := b }

/-- `entry.type_id = value` (var.py:513-519). -/
def setTypeId (value : Int) : PyM Ent Unit := do
  let e ← PyM.get
  let b ← PyM.lift (setRaw (bitsConv {}) (some 1) e.typeId value)
  PyM.set { e with typeId := b }

/-- `entry.name = value` (var.py:521-527): `Section(8, Name)`, the converter being that of the
class. -/
def setName (c : Conv Str) (value : Str) : PyM Ent Unit := do
  let e ← PyM.get
  let b ← PyM.lift (setRaw c (some 8) e.name value)
  PyM.set { e with name := b }

/-- `entry.version = value` (var.py:529-542). -/
def setVersion (value : Int) : PyM Ent Unit := do
  let e ← PyM.get
  if e.metaLength = 11 then PyM.warn .flashlessVersion else pure ()
  let b ← PyM.lift (setRaw (bitsConv {}) (some 1) e.version value)
  PyM.set { e with version := b }

/-- `entry.archived = value` (var.py:544-556). -/
def setArchived (value : Bool) : PyM Ent Unit := do
  let e ← PyM.get
  if e.metaLength = 11 then PyM.warn .flashlessArchive else pure ()
  let b ← PyM.lift (setRaw boolConv (some 1) e.archived value)
  PyM.set { e with archived := b }

/-- `entry.archive()` (var.py:657-665). -/
def archive : PyM Ent Unit := do
  let e ← PyM.get
  if e.flashBytes ≠ [] then setArchived true else PyM.raise .typeError

/-- `entry.unarchive()` (var.py:708-716). -/
def unarchive : PyM Ent Unit := do
  let e ← PyM.get
  if e.flashBytes ≠ [] then setArchived false else PyM.raise .typeError

/-- A view of `calc_data`, read. -/
def viewGet {α : Type} (v : View α) (e : Ent) : Except PyErr α := v.get e.body

/-- A view of `calc_data`, assigned; these views do not depend on the rest of the entry. -/
def viewPut {α : Type} (v : View α) (value : α) : PyM Ent Unit := ⟨fun e =>
  match v.put value e.body with
  | ⟨r, b, w⟩ => ⟨r, { e with body := b }, w⟩⟩

/-- `self.__class__ = cls`. -/
def setClass (c : Cls) : PyM Ent Unit := PyM.modify fun e => { e with cls := c }

/-- Where `data` starts in `calc_data`: `[:]` (var.py:564), `[2:]` for sized entries
(var.py:1316), lists (list.py:130) and matrices (matrix.py:107), `[3:]` for images
(picture.py:420). -/
def dataStart (c : Cls) : Nat :=
  if c = .image then 3
  else if c.isSized || c.isSub .listE || c = .matrix then 2
  else 0

/-- `entry.data` (a copy: the converters `Data`, `SizedData` and `Bytes` return the slice). -/
def data (e : Ent) : Bytes := e.body.bytes.drop (dataStart e.cls)

/-- Where the two-byte length of a sized entry starts: 0 (var.py:1310), 1 for graphed
equations (gdb.py:273). -/
def lengthStart (c : Cls) : Nat := if c = .graphedEquation then 1 else 0

/-- `entry.length` of a sized entry (var.py:1310, gdb.py:273): `View(calc_data, Integer)`. -/
def sizedLength (e : Ent) : Nat :=
  fromLE (getSlice e.body.bytes
    { start := some (lengthStart e.cls : Int), stop := some (lengthStart e.cls + 2 : Int) })

/-! ### Coercion -/

/-- `View(calc_data, Bits[0:6])[0:1]`: `RealEntry.subtype_id` (real.py:98-99),
`ComplexEntry.real_subtype_id` (complex.py:191-192). -/
def subtypeView : View Int := View.mk' none (bitsConv { start := some 0, stop := some 6 })
  { start := some 0, stop := some 1 }

/-- `View(calc_data, Bits[0:6])[9:10]`: `ComplexEntry.imag_subtype_id` (complex.py:211-212). -/
def imagSubtypeView : View Int := View.mk' none (bitsConv { start := some 0, stop := some 6 })
  { start := some 9, stop := some 10 }

/-- `needle in haystack` with the index of the first occurrence (`bytes.index`). -/
def findSub (needle : Bytes) : Bytes → Option Nat
  | [] => if needle.isEmpty then some 0 else none
  | b :: bs =>
    if needle.isPrefixOf (b :: bs) then some 0 else (findSub needle bs).map (· + 1)

/-- `needle in haystack` for byte strings. -/
def hasSub (needle hay : Bytes) : Bool := (findSub needle hay).isSome

/-- `TIProgram.asm_tokens` (tokenized.py:357-359). -/
def asmTokens : List Bytes := [[0xBB, 0x6D], [0xEF, 0x69], [0xEF, 0x7B]]

/-- `s.endswith(t)` -/
def endsWith (s t : Str) : Bool := t.reverse.isPrefixOf s.reverse

/-- Whether a tokenised program is classified as assembly (tokenized.py:417-428): the decoder's
warnings are errors here, caught as `BytesWarning`. -/
def looksAsm {V : Type} [LinearOrder V] (env : Env V) (data : Bytes) : Bool :=
  let d := decode env.initial env.table data
  let asm83 := d.warns.isEmpty &&
    endsWith (d.out.flatMap Tok.display) "End\n0000\nEnd".toList
  let doors := !d.warns.isEmpty && (match findSub [0xEF, 0x68] data with
    | some i => decide (0 < i)
    | none => false)
  asmTokens.any (hasSub · data) || asm83 || doors

/-- The class picked by type ID and classification (tokenized.py:430-438); other type IDs
leave the class alone. -/
def programClass (typeId : Nat) (asm : Bool) (c : Cls) : Cls :=
  if typeId = 5 then (if asm then .asmProgram else .program)
  else if typeId = 6 then (if asm then .protAsmProgram else .protProgram)
  else c

/-- `TIProgram.coerce` (tokenized.py:416-438). In the classes for assembly programs `string()`
warns first, and with warnings as errors that `UserWarning` leaves `coerce`. -/
def coerceProgram {V : Type} [LinearOrder V] (env : Env V) : PyM Ent Unit := do
  let e ← PyM.get
  if e.cls = .asmProgram ∨ e.cls = .protAsmProgram then PyM.raise .userWarningError
  else do
    let t ← PyM.ofExcept e.getTypeId
    setClass (programClass t (looksAsm env e.data) e.cls)

/-- `ComplexEntry.coerce` (complex.py:346-353). -/
def coerceComplex : PyM Ent Unit := do
  let e ← PyM.get
  let t ← PyM.ofExcept (viewGet imagSubtypeView e)
  setTypeId t
  let e ← PyM.get
  let t ← PyM.ofExcept e.getTypeId
  match Cls.getType t with
  | some c => setClass c
  | none => PyM.warn .subtypeUnrec

/-- `TIList.coerce` (list.py:186-203): `self.data[0]` raises `IndexError` when empty. -/
def coerceList : PyM Ent Unit := do
  let e ← PyM.get
  let b ← PyM.ofExcept (byte0 e.data)
  match Cls.getType (b.toNat &&& 31) with
  | some c =>
    if c.isSub .realE then setClass .realList
    else if c.isSub .complexE then setClass .complexList
    else PyM.warn .listInvalid
  | none => PyM.warn .listInvalid

/-- `PictureEntry.coerce` (picture.py:220-226). -/
def coercePicture : PyM Ent Unit := do
  let e ← PyM.get
  if e.sizedLength + 2 = 758 then setClass .monoPicture
  else if e.sizedLength + 2 = 21947 then setClass .picture
  else if e.sizedLength + 2 = 22247 then setClass .image
  else PyM.warn .pictureLength

/-- `View(calc_data, EquationFlags)[0:1]`: `TIGraphedEquation.flags` (gdb.py:265-266). -/
def eqFlagsView : View FlagItems := View.mk' none flagsConv
  { start := some 0, stop := some 1 }

/-- `TIGraphedEquation.coerce` (gdb.py:358-361); `EquationFlags.Selected` is `{5: 1}`. -/
def coerceGraphed : PyM Ent Unit := do
  let e ← PyM.get
  let t ← PyM.ofExcept e.getTypeId
  if t = 0x23 then do
    let f ← PyM.ofExcept (viewGet eqFlagsView e)
    viewPut eqFlagsView (flagsUpdate f [(5, true)])
    setTypeId 0x03
  else pure ()

/-- `num_equations`, `num_parameters`, `num_styles` (gdb.py:394-404, 834-836, 988-990, 1170-1172, 1306-1308). -/
def gdbCounts : Cls → Nat × Nat × Nat
  | .monoFunc | .func => (10, 1, 10)
  | .monoParam | .param => (12, 3, 6)
  | .monoPolar | .polar => (6, 3, 6)
  | .monoSeq | .seq => (3, 10, 3)
  | _ => (0, 0, 0)

/-- `gdb.offset` (gdb.py:520-526). -/
def gdbOffset (c : Cls) : Nat := 61 + 9 * (gdbCounts c).2.1

/-- `TIGraphedEquation.load_data_section` (gdb.py:287-290): the bytes read and the stream. -/
def readEquation (s : Stream) : Bytes × Stream :=
  let (flag, s) := s.read 1
  let (len, s) := s.read 2
  let (body, s) := s.read (fromLE len)
  (flag ++ len ++ body, s)

/-- `n` consecutive equations. -/
def readEquations : Nat → Stream → List Bytes × Stream
  | 0, s => ([], s)
  | n + 1, s =>
    let (eq, s) := readEquation s
    let (eqs, s) := readEquations n s
    (eq :: eqs, s)

/-- `gdb.get_color_data()` (gdb.py:536-549). -/
def colorData (e : Ent) : Bytes :=
  let start := gdbOffset e.cls + (gdbCounts e.cls).2.2
  (readEquations (gdbCounts e.cls).1 (Stream.ofBytes (e.body.bytes.drop start))).2.rest

/-- `gdb.mode_id` (gdb.py:438-439): `View(calc_data, Integer)[3:4]`. -/
def modeId (e : Ent) : Nat := fromLE ((e.body.bytes.drop 3).take 1)

/-- `TIGDB.coerce` (gdb.py:809-822). -/
def coerceColorGDB : PyM Ent Unit := do
  let e ← PyM.get
  if e.modeId = 0x10 then setClass .func
  else if e.modeId = 0x40 then setClass .param
  else if e.modeId = 0x20 then setClass .polar
  else if e.modeId = 0x80 then setClass .seq
  else PyM.warn .gdbMode

/-- `TIMonoGDB.coerce` (gdb.py:696-713). -/
def coerceMonoGDB : PyM Ent Unit := do
  let e ← PyM.get
  if e.colorData ≠ [] then do
    setClass .gdb
    coerceColorGDB
  else if e.modeId = 0x10 then setClass .monoFunc
  else if e.modeId = 0x40 then setClass .monoParam
  else if e.modeId = 0x20 then setClass .monoPolar
  else if e.modeId = 0x80 then setClass .monoSeq
  else PyM.warn .gdbMode

/-- `coerce` of the classes that have a type ID; the inherited `TIEntry.coerce` does nothing
for them (var.py:969). -/
def coerceTyped {V : Type} [LinearOrder V] (env : Env V) : PyM Ent Unit := do
  let e ← PyM.get
  match e.cls with
  | .program | .protProgram | .asmProgram | .protAsmProgram => coerceProgram env
  | .complex | .complexFraction | .complexRadical | .complexPi | .complexPiFraction =>
    coerceComplex
  | .realList | .complexList => coerceList
  | .monoPicture | .picture | .image => coercePicture
  | .graphedEquation => coerceGraphed
  | .monoGDB | .monoFunc | .monoParam | .monoPolar | .monoSeq => coerceMonoGDB
  | .gdb | .func | .param | .polar | .seq => coerceColorGDB
  | _ => pure ()

/-- `TIEntry.coerce` with `_type_id` unset (var.py:969-980): the registered classes all have a
type ID, so the inner `self.coerce()` is `coerceTyped`. -/
def coerceById {V : Type} [LinearOrder V] (env : Env V) : PyM Ent Unit := do
  let e ← PyM.get
  let t ← PyM.ofExcept e.getTypeId
  match Cls.getType t with
  | some c => do
    setClass c
    coerceTyped env
  | none => if t ≠ 0xFF then PyM.warn .coerceUnrec else PyM.warn .coerceNone

/-- `entry.coerce()` for every class (var.py:962-980, real.py:202-206, complex.py:346-353,
list.py:186-203, picture.py:220-226, tokenized.py:416-438, gdb.py:358-361, 696-713, 809-822). -/
def coerce {V : Type} [LinearOrder V] (env : Env V) : PyM Ent Unit := do
  let e ← PyM.get
  match e.cls with
  | .entry | .sized | .tokenizedE | .settingsE => coerceById env
  | .realE | .graphRealE => do
    let t ← PyM.ofExcept (viewGet subtypeView e)
    setTypeId t
    coerceById env
  | .complexE => coerceComplex
  | .listE => coerceList
  | .pictureE => coercePicture
  | _ => coerceTyped env

/-! ### Loading -/

/-- The check of the type ID while loading (var.py:740-752). -/
def checkType (e : Ent) (t : Nat) : List Warn :=
  match e.cls.typeId with
  | none => []
  | some own =>
    if t = own then []
    else match Cls.getType t with
      | some c => if c.isSub e.cls then [] else [.typeMismatch]
      | none => [.typeUnknown]

/-- The `match self.meta_length` of `load_bytes` (var.py:757-772): version, archived flag and
the stream after reading them. -/
def readFlash (metaLen : Bytes) (s : Stream) : List Warn × Bytes × Bytes × Stream :=
  if fromLE metaLen = 13 then
    let (v, s) := s.read 1
    let (a, s) := s.read 1
    ([], v, a, s)
  else if fromLE metaLen = 11 then ([], [0x00], [0x00], s)
  else
    let (v, s) := s.read 1
    let (a, s) := s.read 1
    ([.metaLength], v, a, s)

/-- The final checks of `load_bytes` (var.py:801-807). -/
def checkLoaded (e : Ent) : Except PyErr (List Warn) :=
  match e.getVersionByte with
  | .error x => .error x
  | .ok v => .ok (
    (if e.cls.versions ≠ [0x00] ∧ v ∉ e.cls.versions then [.versionUnrec] else []) ++
    (if e.metaLength = 11 ∧ e.cls.flashOnly then [.flashlessLoad] else []))

/-- `TIEntry.load_bytes` (var.py:718-807). Only `raw.archived` of length one is possible here, so
`raw.archived not in b'\x00\x80'` is a test of that byte. -/
def loadBase {V : Type} [LinearOrder V] (env : Env V) (data : Bytes) : PyM Ent Unit := do
  let s := Stream.ofBytes (ljust 17 data)
  let (metaLen, s) := s.read 2
  PyM.modify fun e => { e with metaLen := metaLen }
  let (dataLen, s) := s.read 2
  let (typeId, s) := s.read 1
  PyM.modify fun e => { e with typeId := typeId }
  let e ← PyM.get
  let t ← PyM.ofExcept e.getTypeId
  PyM.warnAll (e.checkType t)
  let (name, s) := s.read 8
  PyM.modify fun e => { e with name := name }
  let (ws, version, archived, s) := readFlash metaLen s
  PyM.warnAll ws
  PyM.modify fun e => { e with version := version, archived := archived }
  let s ←
    if fromLE metaLen = 13 ∧ version ++ archived = dataLen then do
      PyM.warn .flashMissing
      setMeta 11
      PyM.modify fun e => { e with version := [0x00], archived := [0x00] }
      pure s
    else do
      if archived ≠ [0x00] ∧ archived ≠ [0x80] then PyM.warn .archiveFlag else pure ()
      let (dataLen2, s) := s.read 2
      if dataLen ≠ dataLen2 then PyM.warn .dataLengths else pure ()
      pure s
  let (body, _) := s.read (fromLE dataLen)
  PyM.modify fun e => { e with body := ⟨true, body⟩ }
  if body.length ≠ fromLE dataLen then PyM.warn .dataLength else pure ()
  coerce env
  let e ← PyM.get
  let ws ← PyM.ofExcept e.checkLoaded
  PyM.warnAll ws

/-! ### Versions of tokenised data -/

/-- `TokenizedEntry.clock_tokens` (tokenized.py:34-38). -/
def clockTokens : List Bytes :=
  [[0xEF, 0x00], [0xEF, 0x01], [0xEF, 0x02], [0xEF, 0x03], [0xEF, 0x04],
   [0xEF, 0x07], [0xEF, 0x08], [0xEF, 0x09], [0xEF, 0x0A], [0xEF, 0x0B], [0xEF, 0x0C],
   [0xEF, 0x0D], [0xEF, 0x0E], [0xEF, 0x0F], [0xEF, 0x10]]

/-- The `match` of `TokenizedEntry.get_version` (tokenized.py:113-145). -/
def osVersionByte {V : Type} [LinearOrder V] (env : Env V) (os : V) : Nat :=
  if env.ce53 ≤ os then 0x0C
  else if env.ce52 ≤ os then 0x0B
  else if env.cse40 ≤ os then 0x0A
  else if env.p255 ≤ os then 0x07
  else if env.p253 ≤ os then 0x06
  else if env.p230 ≤ os then 0x05
  else if env.p221 ≤ os then 0x04
  else if env.b116 ≤ os then 0x03
  else if env.b115 ≤ os then 0x02
  else if env.b100 ≤ os then 0x01
  else 0x00

/-- `TokenizedEntry.get_version` (tokenized.py:112-150) given `get_min_os` and the data. -/
def tokenVersion {V : Type} [LinearOrder V] (env : Env V) (os : V) (data : Bytes) : Nat :=
  osVersionByte env os + (if clockTokens.any (hasSub · data) then 0x20 else 0)

/-- `TIAsmProgram.get_min_os` (tokenized.py:453-455). -/
def asmMinOs {V : Type} [LinearOrder V] (env : Env V) (data : Bytes) : V :=
  let l := ([([0xBB, 0x6D], env.osP), ([0xEF, 0x69], env.osCse), ([0xEF, 0x7B], env.osCe)] :
    List (Bytes × V)).filterMap fun p => if hasSub p.1 data then some p.2 else none
  match l with
  | [] => env.initial
  | x :: xs => xs.foldl (fun best y => if best < y then y else best) x

/-- `entry.get_version(data)` of a tokenised entry, with the decoder's warnings: `data or
self.data` for both uses (tokenized.py:109-150). -/
def tokenizedVersion {V : Type} [LinearOrder V] (env : Env V) (e : Ent) (data : Option Bytes) :
    List Warn × Nat :=
  let d := match data with
    | none => e.data
    | some d => if d.isEmpty then e.data else d
  if e.cls = .asmProgram ∨ e.cls = .protAsmProgram then ([], tokenVersion env (asmMinOs env d) d)
  else
    let r := decode env.initial env.table d
    (r.warns, tokenVersion env r.since d)

/-- `TokenizedEntry.load_bytes` after the inherited part (tokenized.py:152-163, 382-394). -/
def checkTokens {V : Type} [LinearOrder V] (env : Env V) : PyM Ent Unit := do
  let e ← PyM.get
  let v ← PyM.ofExcept e.getVersionByte
  let (ws, version) := tokenizedVersion env e none
  PyM.warnAll ws
  if v ≠ version then PyM.warn .tokenVersion else pure ()

/-- `SizedEntry.load_bytes` after the inherited part (var.py:1325-1331). -/
def checkSized : PyM Ent Unit := do
  let e ← PyM.get
  if e.sizedLength ≠ e.cls.leadingData.length + e.data.length then PyM.warn .sizedLength
  else pure ()

/-- `TIList._E.min_data_length` (list.py:79, 211, 228). -/
def elemLength (c : Cls) : Nat :=
  if c = .realList then 9 else if c = .complexList then 18 else 0

/-- `TIList.load_bytes` after the inherited part (list.py:155-160). -/
def checkList : PyM Ent Unit := do
  let e ← PyM.get
  if elemLength e.cls ≠ 0 ∧ e.calcLength / elemLength e.cls ≠
      fromLE (e.body.bytes.take 2) then PyM.warn .listLength else pure ()

/-- `TIMatrix.load_bytes` after the inherited part (matrix.py:139-146). -/
def checkMatrix : PyM Ent Unit := do
  let e ← PyM.get
  if e.calcLength / 9 ≠ fromLE (e.body.bytes.take 1) * fromLE ((e.body.bytes.drop 1).take 1)
  then PyM.warn .matrixSize else pure ()

/-- `entry.load_bytes(data)`: the method of the class the object has when it is called
(var.py:718-807, 1325-1331, tokenized.py:152-163, 382-394, list.py:154-161,
matrix.py:139-146). `TIProgram.load_bytes` asks `is_tokenized` of the class after
coercion. The abstract classes whose override would look up attributes of the class they
were coerced to are given the base method. -/
def load {V : Type} [LinearOrder V] (env : Env V) (data : Bytes) : PyM Ent Unit := do
  let e ← PyM.get
  match e.cls with
  | .appVar | .group | .window | .recallWindow | .tableSettings | .monoPicture | .picture
  | .image | .monoGDB | .gdb | .monoFunc | .monoParam | .monoPolar | .monoSeq
  | .func | .param | .polar | .seq => do
    loadBase env data
    checkSized
  | .equation | .newEquation | .graphedEquation | .string => do
    loadBase env data
    checkSized
    checkTokens env
  | .program | .protProgram | .asmProgram | .protAsmProgram => do
    loadBase env data
    checkSized
    let e ← PyM.get
    if e.cls = .asmProgram ∨ e.cls = .protAsmProgram then pure () else checkTokens env
  | .realList | .complexList => do
    loadBase env data
    checkList
  | .matrix => do
    loadBase env data
    checkMatrix
  | _ => loadBase env data

/-! ### Construction -/

/-- `TIEntry()` (var.py:343-390): a base entry with every argument defaulted. -/
def fresh {V : Type} (env : Env V) : Ent :=
  ⟨.entry, [0x0D, 0x00], [0xFF], env.unnamed, [0x00], [0x00], ⟨true, []⟩⟩

/-- The first assignment of the constructor (var.py:362), `self.meta_length = 13` or `11`, made
while the slot is unset: for 11 the setter reads the unset slot (var.py:495) and raises. -/
def initMeta (forFlash : Bool) : Except PyErr Bytes :=
  if forFlash then .ok [0x0D, 0x00] else .error .attributeError

/-- `clear()` of the bases (var.py:667-673, 1320-1323): `calc_data` after clearing. -/
def clearCalc (c : Cls) : Bytes :=
  if c.isSized then
    let body := [0, 0] ++ c.leadingData
    let body := body ++ List.replicate (c.minDataLength - body.length) 0
    setSlice body { start := some (lengthStart c : Int), stop := some (lengthStart c + 2 : Int) }
      (toLE 2 (c.leadingData.length + (body.drop (dataStart c)).length))
  else c.leadingData ++ List.replicate (c.minDataLength - c.leadingData.length) 0

end Ent
end Verif
