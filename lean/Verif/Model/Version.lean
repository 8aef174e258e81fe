import Verif.Model.Tokenized

/-
Model of `get_version` of every entry class and of `TIGroup.ungroup`, which it uses
(`/repo/tivars/var.py:685-696, 820-827, 1333-1335`, `/repo/tivars/types/complex.py:271-281`,
`/repo/tivars/types/list.py:138-149`, `/repo/tivars/types/matrix.py:123-134, 148-151`,
`/repo/tivars/types/gdb.py:287-290, 551-588`, `/repo/tivars/types/group.py:95-154`).
-/

namespace Verif
namespace Ent
variable {V : Type} [LinearOrder V]

/-- `zip(*[iter(data)] * n)`: the full groups of `n` items, a remainder being dropped; none for
`n = 0`, where `zip()` is empty. The first argument bounds the number of groups. -/
def chunksN {α : Type} (n : Nat) : Nat → List α → List (List α)
  | 0, _ => []
  | fuel + 1, d =>
    if n = 0 then []
    else if d.length < n then []
    else d.take n :: chunksN n fuel (d.drop n)

/-- `zip(*[iter(data)] * n)`; there are at most `len(data)` groups. -/
def chunks {α : Type} (n : Nat) (d : List α) : List (List α) := chunksN n d.length d

/-- `max(values, default=0x00)` for versions. -/
def maxVersion (l : List Nat) : Nat := l.foldl max 0

/-- `ComplexEntry.get_version` on eighteen bytes or so (complex.py:271-281). -/
def complexVersion (d : Bytes) : Except PyErr Nat :=
  match d[0]?, d[9]? with
  | some a, some b =>
    if max a.toNat b.toNat = 0x0C then .ok 0x00
    else if max a.toNat b.toNat = 0x1B then .ok 0x0B
    else .ok 0x10
  | _, _ => .error .indexError

/-- The last lines of `TIList.get_version` and `TIMatrix.get_version` (list.py:142-149,
matrix.py:127-134). -/
def arrayVersion (version : Nat) : Nat :=
  if version > 0x1B then 0x10 else if version = 0x1B then 0x0B else 0x00

/-- `list(map(f, l))` where the calls may raise. -/
def mapE {α β : Type} (f : α → Except PyErr β) : List α → Except PyErr (List β)
  | [] => .ok []
  | a :: as =>
    match f a with
    | .error x => .error x
    | .ok b =>
      match mapE f as with
      | .error x => .error x
      | .ok bs => .ok (b :: bs)

/-- `TIList.get_version` and `TIMatrix.get_version` on the data: elements are asked through a fresh
`RealEntry()`, whose version is always `versions[0]`, or `ComplexEntry()`. -/
def arrayGetVersion (c : Cls) (d : Bytes) : Except PyErr Nat :=
  if c = .complexList then
    match mapE complexVersion (chunks 18 d) with
    | .error x => .error x
    | .ok vs => .ok (arrayVersion (maxVersion vs))
  else if c = .listE then .ok (arrayVersion (maxVersion []))
  else .ok (arrayVersion (maxVersion ((chunks 9 d).map fun _ => (Cls.versions .realE).headD 0)))

/-- `gdb.get_equations(data)` (gdb.py:551-582) down to the data of the equations: the styles are
skipped, then each equation reads its own data. -/
def gdbEquations (c : Cls) (d : Bytes) : List Bytes :=
  (readEquations (gdbCounts c).1 (Stream.ofBytes (d.drop (gdbCounts c).2.2))).1

/-- `TIMonoGDB.get_version` (gdb.py:587-588): `data` starts at the styles if given, although
`Data.set` passes the data of the entry from its third byte on. The data of an equation starts
at its third byte, the high byte of its length. -/
def gdbGetVersion (env : Env V) (e : Ent) (d : Bytes) : List Warn × Nat :=
  let src := if d.isEmpty then e.body.bytes.drop (gdbOffset e.cls) else d
  let rs := (gdbEquations e.cls src).map fun b =>
    let r := decode env.initial env.table (b.drop 2)
    (r.warns, tokenVersion env r.since (b.drop 2))
  (rs.flatMap Prod.fst, maxVersion (rs.map Prod.snd))

/-- `entry.load_data_section(data)` (var.py:820-827, 1333-1335, matrix.py:148-151, gdb.py:287-290):
the new `calc_data` and the rest of the stream. The length of the section is nine for real,
eighteen for complex numbers and unbounded otherwise. -/
def dataSection (c : Cls) (s : Stream) : Bytes × Stream :=
  if c = .graphedEquation then readEquation s
  else if c.isSized then
    let (len, s) := s.read 2
    let (d, s) := s.read (fromLE len)
    (len ++ d, s)
  else if c = .matrix then
    let (w, s) := s.read 1
    let (h, s) := s.read 1
    let (d, s) := s.read (fromLE w * fromLE h)
    (w ++ h ++ d, s)
  else if c.isSub .realE then s.read 9
  else if c.isSub .complexE then s.read 18
  else s.readAll

/-- `data.read(length - 1)` in `ungroup`: a negative count reads everything. -/
def readPred (s : Stream) (n : Nat) : Bytes × Stream := if n = 0 then s.readAll else s.read (n - 1)

/-- The part of the VAT entry after the version (group.py:116-138): page, name and stream. -/
def vatName (t : Nat) (s : Stream) : PyM Unit (UInt8 × Bytes × Stream) :=
  if t = 0x05 ∨ t = 0x06 ∨ t = 0x15 ∨ t = 0x17 then
    let (b, s) := s.read 4
    match b.reverse with
    | len :: page :: _ => do
      if len.toNat > 8 then PyM.warn .groupName else pure ()
      let (name, s) := s.read len.toNat
      pure (page, name, s)
    | _ => PyM.raise .valueError
  else if t = 0x01 ∨ t = 0x0D then
    let (b, s) := s.read 4
    match b.reverse with
    | len :: page :: _ => do
      if len.toNat > 7 then PyM.warn .groupName else pure ()
      let (name, s) := readPred s len.toNat
      let (_, s) := s.read 1
      pure (page, name, s)
    | _ => PyM.raise .valueError
  else
    let (b, s) := s.read 3
    match b.reverse with
    | page :: _ =>
      let (name, s) := s.read 3
      pure (page, name, s)
    | _ => PyM.raise .valueError

/-- One round of the loop of `ungroup` after the type byte (group.py:114-147). `TIEntry(…)` with
`for_flash=False` raises (`initMeta`); a `TIGraphedEquation` raises at `entry.raw.flags`. -/
def ungroupOne (env : Env V) (flash : Bool) (typeByte : UInt8) (s : Stream) :
    PyM Unit (Ent × Stream) := do
  let (b, s) := s.read 2
  match b with
  | [_, version] => do
    let t := typeByte.toNat &&& 63
    let (page, name, s) ← vatName t s
    let metaLen ← PyM.ofExcept (initMeta flash)
    let e : Ent := ⟨.entry, metaLen, [0xFF], env.unnamed, [version],
      [if page.toNat > 0 then 0x80 else 0x00], ⟨true, []⟩⟩
    let o := (do setTypeId t; coerce env : PyM Ent Unit) e
    PyM.warnAll o.warns
    PyM.ofExcept o.res
    let (body, s) := dataSection o.st.cls s
    if o.st.cls = .graphedEquation then PyM.raise .attributeError
    else pure ({ o.st with name := ljust 8 name, body := ⟨true, body⟩ }, s)
  | _ => PyM.raise .valueError

/-- The loop of `ungroup` (group.py:109-150); every round reads at least one byte, so the length of
the data bounds the number of rounds. -/
def ungroupLoop (env : Env V) (flash : Bool) : Nat → Stream → PyM Unit (List Ent)
  | 0, _ => pure []
  | fuel + 1, s =>
    match s.read 1 with
    | (typeByte :: _, s) => do
      let (e, s) ← ungroupOne env flash typeByte s
      let es ← ungroupLoop env flash fuel s
      pure (e :: es)
    | ([], _) => pure []

/-- `group.ungroup(data)` (group.py:101-152). -/
def ungroup (env : Env V) (e : Ent) (d : Bytes) : PyM Unit (List Ent) :=
  let src := if d.isEmpty then e.data else d
  ungroupLoop env (!e.flashBytes.isEmpty) (src.length + 1) (Stream.ofBytes src)

/-- `entry.get_version(data)` for every class, with the warnings on the way; the empty `data` means
that of the entry (`data or self.data`). The first argument bounds the nesting of groups. -/
def getVersionN (env : Env V) : Nat → Ent → Bytes → List Warn × Except PyErr Nat
  | 0, _, _ => ([], .error .recursionError)
  | fuel + 1, e, d =>
    match e.cls with
    | .tokenizedE | .equation | .newEquation | .graphedEquation | .string | .program | .protProgram
    | .asmProgram | .protAsmProgram => tokenGetVersion env e d
    | .complexE | .complex | .complexFraction | .complexRadical | .complexPi
    | .complexPiFraction => ([], complexVersion (if d.isEmpty then e.data else d))
    | .listE | .realList | .complexList | .matrix =>
      ([], arrayGetVersion e.cls (if d.isEmpty then e.data else d))
    | .monoGDB | .gdb | .monoFunc | .monoParam | .monoPolar | .monoSeq | .func | .param | .polar
    | .seq => ((gdbGetVersion env e d).1, .ok (gdbGetVersion env e d).2)
    | .group =>
      match ungroup env e d () with
      | ⟨.error x, _, ws⟩ => (ws, .error x)
      | ⟨.ok es, _, ws⟩ =>
        let rs := es.map fun x => getVersionN env fuel x []
        match mapE Prod.snd rs with
        | .error x => (ws ++ rs.flatMap Prod.fst, .error x)
        | .ok vs => (ws ++ rs.flatMap Prod.fst, .ok (maxVersion vs))
    | c => ([], .ok (c.versions.headD 0))

/-- `entry.get_version(data)`; a nested group is shorter than the group it is in. -/
def getVersion (env : Env V) : GetVersion := fun e d =>
  getVersionN env (e.body.bytes.length + d.length + 1) e d

end Ent
end Verif
