import Verif.Model.Entry

/-
Model of `TIVar` (`/repo/tivars/var.py:983-1293`) and of the file functions of `TIEntry`
(var.py:627-644, 846-866, 900-936). Opening, reading and writing files on disk is not
modelled: a file is its contents with a read position.
-/

namespace Verif

/-- A var: its header, its entries and its targeted model (var.py:990-1011). The name, which only
serves to make a file name, is left out. -/
structure Var where
  hdr : Hdr
  entries : List Ent
  model : Option Model
  deriving DecidableEq, Repr

/-- `TIEntry.next_entry_length(stream)` (var.py:627-644): warnings, length, stream. -/
def nextEntryLength (s : Stream) : List Warn × Nat × Stream :=
  let (m, s) := s.read 2
  let (d, s) := s.read 2
  let s := s.seekRel (-4)
  ((if fromLE m = 11 ∨ fromLE m = 13 then [] else [.nextMeta]), 2 + fromLE m + 2 + fromLE d, s)

namespace Var

/-- `var.entry_length` (var.py:1058-1066). -/
def entryLength (v : Var) : Nat := (v.entries.map Ent.len).sum

/-- `len(var)` (var.py:1051-1056). -/
def len (v : Var) : Nat := v.hdr.len + v.entryLength + 2

/-- The concatenated bytes of entries, or the first exception. -/
def entryBytes : List Ent → Except PyErr Bytes
  | [] => .ok []
  | e :: es =>
    match e.bytes with
    | .error x => .error x
    | .ok b =>
      match entryBytes es with
      | .error x => .error x
      | .ok bs => .ok (b ++ bs)

/-- `sum(sum(entry.bytes()) for entry in entries)` (var.py:1076). -/
def entrySums : List Ent → Except PyErr Nat
  | [] => .ok 0
  | e :: es =>
    match e.bytes with
    | .error x => .error x
    | .ok b =>
      match entrySums es with
      | .error x => .error x
      | .ok n => .ok ((b.map UInt8.toNat).sum + n)

/-- `var.checksum` (var.py:1068-1076). -/
def checksum (v : Var) : Except PyErr Bytes :=
  match entrySums v.entries with
  | .error x => .error x
  | .ok n => intToBytesLE ((n &&& 0xFFFF : Nat) : Int) 2

/-- `var.bytes()` (var.py:1238-1250). -/
def bytes (v : Var) : Except PyErr Bytes :=
  match intToBytesLE v.entryLength 2 with
  | .error x => .error x
  | .ok l =>
    match entryBytes v.entries with
    | .error x => .error x
    | .ok b =>
      match v.checksum with
      | .error x => .error x
      | .ok c => .ok (v.hdr.bytes ++ l ++ b ++ c)

/-- `var.add_entry(entry)` (var.py:1149-1164): `entry or TIEntry()` replaces an entry without
data, since such an entry is falsy (var.py:392-397). -/
def addEntry {V : Type} (env : Env V) (entry : Option Ent) : PyM Var Unit := do
  let entry := match entry with
    | none => Ent.fresh env
    | some e => if e.isEmpty then Ent.fresh env else e
  let v ← PyM.get
  match v.entries with
  | [] => pure ()
  | first :: _ =>
    if entry.metaLength ≠ first.metaLength then PyM.warn .metaConflict else pure ()
  PyM.set { v with entries := v.entries ++ [entry] }

/-- Run a method of the header on the var. -/
def onHeader {α : Type} (m : PyM Hdr α) : PyM Var α := ⟨fun v =>
  match m v.hdr with
  | ⟨r, h, w⟩ => ⟨r, { v with hdr := h }, w⟩⟩

/-- `self.entries[-1].load_bytes(data)` -/
def loadLast {V : Type} [LinearOrder V] (env : Env V) (data : Bytes) : PyM Var Unit := ⟨fun v =>
  match v.entries.getLast? with
  | none => ⟨.error .indexError, v, []⟩
  | some e =>
    match Ent.load env data e with
    | ⟨r, e', w⟩ => ⟨r, { v with entries := v.entries.dropLast ++ [e'] }, w⟩⟩

/-- The loop of `load_bytes` (var.py:1206-1218); `length` is `entry_length` and the fuel stands
for the unbounded `while`. -/
def loadLoop {V : Type} [LinearOrder V] (env : Env V) : Nat → Int → Stream → PyM Var (Int × Stream)
  | 0, _, _ => PyM.raise .recursionError
  | fuel + 1, length, s =>
    if 0 < length then do
      addEntry env none
      let (ws, l, s) := nextEntryLength s
      PyM.warnAll ws
      let (d, s) := s.read l
      loadLast env d
      if d.length ≠ l then PyM.warn .entryLength else pure ()
      loadLoop env fuel (length - l) s
    else pure (length, s)

/-- What depends on the missing `tokens` submodule and on Python's hashing: the order of models
and the iteration order of a set of models. -/
structure ModelEnv where
  ord : Model → Nat
  iter : List Model → List Model

/-- The check of the model after loading (var.py:1228-1230). -/
def checkModel (me : ModelEnv) : PyM Var Unit := do
  let v ← PyM.get
  match v.model with
  | none => pure ()
  | some m => do
    let ts ← PyM.ofExcept v.hdr.targets
    let least ← PyM.ofExcept (minModels me.ord (me.iter ts))
    if Model.le me.ord m least then pure () else PyM.warn .modelIncompat

/-- `var.load_bytes(data)` (var.py:1188-1236). -/
def load {V : Type} [LinearOrder V] (env : Env V) (me : ModelEnv) (data : Bytes) :
    PyM Var Unit := do
  let s := Stream.ofBytes data
  let (h, s) := s.read 53
  onHeader (Hdr.load h)
  let (l, s) := s.read 2
  PyM.modify fun v => { v with entries := [] }
  let (left, s) ← loadLoop env (fromLE l + 1) (fromLE l) s
  if left < 0 then PyM.warn .totalLength else pure ()
  let (sum, _) := s.read 2
  checkModel me
  let v ← PyM.get
  let own ← PyM.ofExcept v.checksum
  if sum ≠ own then PyM.warn .checksum else pure ()

/-- `TIVar(header=header, model=model)` (var.py:990-1011). -/
def init (header : Option Hdr) (model : Option Model) : PyM Var Unit := do
  match header with
  | some h => PyM.set ⟨h, [], model⟩
  | none => do
    PyM.set ⟨Hdr.unset, [], model⟩
    onHeader (Hdr.init model)
  match model with
  | none => pure ()
  | some m => do
    let v ← PyM.get
    let ts ← PyM.ofExcept v.hdr.targets
    if m ∈ ts then pure () else PyM.warn .headerIncompat

/-- `dict[key]` -/
def extAt (tbl : List (Model × Str)) (m : Model) : Except PyErr Str :=
  match tbl.find? fun p => p.1 == m with
  | some p => .ok p.2
  | none => .error .keyError

/-- `var.extension` (var.py:1078-1111): value and warnings. -/
def extension (ord : Model → Nat) (v : Var) : Except PyErr (Str × List Warn) :=
  match v.entries with
  | [] => .error .valueError
  | [e] =>
    match v.model with
    | none => .ok (e.cls.extensions.1, [])
    | some m =>
      let hit := Model.all.reverse.find? fun x =>
        (e.cls.extensions.2.any fun p => p.1 == x) && Model.le ord x m
      match (match hit with
        | none => .ok []
        | some _ => extAt e.cls.extensions.2 m : Except PyErr Str) with
      | .error x => .error x
      | .ok ext => .ok (if ext.isEmpty then (e.cls.extensions.1, [.extUnsupported])
          else (ext, []))
  | _ :: _ :: _ => .ok ("8xg".toList, [])

end Var

/-! ### Entries from files -/

/-- `n` times `file.seek(self.next_entry_length(file), 1)` (var.py:860-862). -/
def skipEntries : Nat → Stream → List Warn × Stream
  | 0, s => ([], s)
  | n + 1, s =>
    let (ws, l, s) := nextEntryLength s
    let (ws', s) := skipEntries n (s.seekRel l)
    (ws ++ ws', s)

/-- `entry.load_from_file(file, offset=offset)` (var.py:846-866); the header read first is
discarded. -/
def Ent.loadFromFile {V : Type} [LinearOrder V] (env : Env V) (file : Stream) (offset : Nat) :
    PyM Ent Stream := do
  let (_, file) := file.read 53
  let file := file.seekRel 2
  let (ws, file) := skipEntries offset file
  PyM.warnAll ws
  let (ws, l, file) := nextEntryLength file
  PyM.warnAll ws
  let (d, file) := file.read l
  Ent.load env d
  pure (file.seekRel 2)

/-- `cls.open(filename)` (var.py:900-936) once the file is open, run on the new entry `cls()`; the
check of the file name's extension is left out. -/
def Ent.openFile {V : Type} [LinearOrder V] (env : Env V) (file : Stream) : PyM Ent Unit := do
  let (_, file) := file.read 53
  let file := file.seekRel 2
  let (ws, l, file) := nextEntryLength file
  PyM.warnAll ws
  let (d, file) := file.read l
  Ent.load env d
  let file := file.seekRel 2
  let (remaining, _) := file.readAll
  if remaining = [] then pure ()
  else if remaining.take 2 = [0x0B, 0x00] ∨ remaining.take 2 = [0x0D, 0x00] then
    PyM.warn .openMultiple
  else PyM.warn .openExtra

end Verif
