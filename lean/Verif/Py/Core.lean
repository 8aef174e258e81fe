/-
Python runtime pieces shared by every model: byte strings, exceptions and warnings as
values, and a small monad for methods that mutate an object, may raise, and may warn.
None of this models `/repo`; it models the Python operations that `/repo` uses.
-/

namespace Verif

/-- `bytes` / `bytearray` contents. -/
abbrev Bytes := List UInt8

/-- `str` as a list of code points (Lean characters; surrogates are not representable). -/
abbrev Str := List Char

/-- Exceptions that the modelled code can raise (by Python class). -/
inductive PyErr where
  | overflowError | valueError | indexError | typeError | keyError | attributeError
  | unicodeEncodeError | unicodeDecodeError | notImplementedError | stopIteration
  | zeroDivisionError | invalidOperation | userWarningError | bytesWarningError | recursionError | fileNotFoundError | osError
  deriving DecidableEq, Repr

/-- The two warning categories used by the library. -/
inductive WarnCat where
  | bytesWarning | userWarning
  deriving DecidableEq, Repr

/-- One constructor per `warn(...)` call site of `/repo/tivars` that is modelled; the category
is `BytesWarning` unless stated. -/
inductive Warn where
  | tooWide            -- data.py:414
  | tooManyBits        -- data.py:311
  | enumUnrecognized   -- flags.py:56
  | badToken           -- decoder.py:46
  | nullBytes          -- decoder.py:59
  | badName            -- tokenizer/__init__.py:51
  | flashlessMeta      -- var.py:370, UserWarning
  | flashlessInit      -- var.py:374, UserWarning
  | metaLost           -- var.py:496, UserWarning
  | flashlessSet       -- var.py:500, UserWarning
  | flashlessVersion   -- var.py:539, UserWarning
  | flashlessArchive   -- var.py:553, UserWarning
  | nextMeta           -- var.py:641
  | typeMismatch       -- var.py:743
  | typeUnknown        -- var.py:747
  | metaLength         -- var.py:765
  | flashMissing       -- var.py:773, UserWarning
  | archiveFlag        -- var.py:782
  | dataLengths        -- var.py:788
  | dataLength         -- var.py:796
  | versionUnrec       -- var.py:802
  | flashlessLoad      -- var.py:806
  | openExtension      -- var.py:911, UserWarning
  | openMultiple       -- var.py:928, UserWarning
  | openExtra          -- var.py:933
  | coerceUnrec        -- var.py:975
  | coerceNone         -- var.py:979, UserWarning
  | headerIncompat     -- var.py:1007, UserWarning
  | extUnsupported     -- var.py:1103, UserWarning
  | metaConflict       -- var.py:1160, UserWarning
  | entryLength        -- var.py:1214
  | totalLength        -- var.py:1221
  | modelIncompat      -- var.py:1230
  | checksum           -- var.py:1235
  | sizedLength        -- var.py:1330
  | subtypeUnrec       -- complex.py:352
  | gdbMode            -- gdb.py:517, 712, 821
  | paletteApprox      -- picture.py:89, UserWarning
  | pictureLength      -- picture.py:225
  | imageName          -- picture.py:350
  | notInteger         -- settings.py and gdb.py integer fields, UserWarning
  | matrixLimit        -- matrix.py:79-105, UserWarning
  | matrixSize         -- matrix.py:144
  | tokenVersion       -- tokenized.py:158, 389
  | tokenInvalid       -- tokenized.py:162, 393
  | asmText            -- tokenized.py:399, 406, UserWarning
  | listName           -- list.py:65, UserWarning
  | listLong           -- list.py:125, UserWarning
  | listLength         -- list.py:159
  | listInvalid        -- list.py:198, 202, UserWarning
  | groupSmall         -- group.py:58, 64, UserWarning
  | groupArchived      -- group.py:74, UserWarning
  | groupName          -- group.py:123, 132
  | blockType          -- flash.py:271
  | blockSize          -- flash.py:276
  | blockChecksum      -- flash.py:283
  | flashMagic         -- flash.py:672
  | flashName          -- flash.py:686
  | flashDevice        -- flash.py:694
  | flashType          -- flash.py:702, 706
  | flashLength        -- flash.py:719
  | flashChecksum      -- flash.py:727
  | flashCoerce        -- flash.py:807
  | flashCoerceNone    -- flash.py:811, UserWarning
  | notGraphable       -- real.py:221, UserWarning
  | settingUnknown     -- settings.py:43, gdb.py:628, 637, UserWarning
  | flashModel         -- flash.py:625, UserWarning
  | flashUnsupported   -- flash.py:635, UserWarning
  | flashOpenMultiple  -- flash.py:773, UserWarning
  | flashOpenExtra     -- flash.py:778
  | saveUnsupported    -- var.py:1289, UserWarning
  | gdbFormat          -- gdb.py:612, UserWarning
  | gdbSequence        -- gdb.py:622, UserWarning
  | gdbEquation        -- gdb.py:650, UserWarning
  | gdbComponents      -- gdb.py:1105, 1109, UserWarning
  | gdbSeqMode         -- gdb.py:1462, UserWarning
  deriving DecidableEq, Repr

/-- The category of each warning. -/
def Warn.cat : Warn → WarnCat
  | .flashlessMeta | .flashlessInit | .metaLost | .flashlessSet | .flashlessVersion |
    .flashlessArchive | .flashMissing | .openExtension | .openMultiple | .coerceNone |
    .headerIncompat | .extUnsupported | .metaConflict | .paletteApprox | .notInteger |
    .matrixLimit | .asmText | .listLong | .listInvalid | .groupSmall | .groupArchived |
    .listName | .notGraphable | .settingUnknown | .flashModel | .flashUnsupported |
    .flashCoerceNone | .flashOpenMultiple | .saveUnsupported | .gdbFormat | .gdbSequence |
    .gdbEquation | .gdbComponents | .gdbSeqMode => .userWarning
  | _ => .bytesWarning

deriving instance DecidableEq for Except

/-- The outcome of running a method on an object in state `σ`: a value or an exception,
the object's final state (mutations made before an exception persist, as in Python),
and the warnings emitted, in order. -/
structure Out (σ α : Type) where
  res   : Except PyErr α
  st    : σ
  warns : List Warn
  deriving DecidableEq

/-- Methods on an object with state `σ`. -/
structure PyM (σ α : Type) where
  run : σ → Out σ α

instance {σ α : Type} : CoeFun (PyM σ α) (fun _ => σ → Out σ α) := ⟨PyM.run⟩

namespace PyM
variable {σ α β : Type}

@[inline] protected def pure (a : α) : PyM σ α := ⟨fun s => ⟨.ok a, s, []⟩⟩

@[inline] protected def bind (x : PyM σ α) (f : α → PyM σ β) : PyM σ β := ⟨fun s =>
  match x s with
  | ⟨.error e, s', w⟩ => ⟨.error e, s', w⟩
  | ⟨.ok a, s', w⟩ => ⟨(f a s').res, (f a s').st, w ++ (f a s').warns⟩⟩

instance : Monad (PyM σ) where
  pure := PyM.pure
  bind := PyM.bind

/-- `raise e` -/
def raise (e : PyErr) : PyM σ α := ⟨fun s => ⟨.error e, s, []⟩⟩
/-- `warn(...)` -/
def warn (w : Warn) : PyM σ Unit := ⟨fun s => ⟨.ok (), s, [w]⟩⟩
/-- several `warn(...)` calls in order -/
def warnAll (ws : List Warn) : PyM σ Unit := ⟨fun s => ⟨.ok (), s, ws⟩⟩
def get : PyM σ σ := ⟨fun s => ⟨.ok s, s, []⟩⟩
def set (s : σ) : PyM σ Unit := ⟨fun _ => ⟨.ok (), s, []⟩⟩
def modify (f : σ → σ) : PyM σ Unit := ⟨fun s => ⟨.ok (), f s, []⟩⟩
/-- Run a pure computation that may raise. -/
def ofExcept (x : Except PyErr α) : PyM σ α := ⟨fun s => ⟨x, s, []⟩⟩

@[simp] theorem pure_run (a : α) (s : σ) : (pure a : PyM σ α) s = ⟨.ok a, s, []⟩ := rfl

@[simp] theorem raise_run (e : PyErr) (s : σ) : (raise e : PyM σ α) s = ⟨.error e, s, []⟩ := rfl
@[simp] theorem warn_run (w : Warn) (s : σ) : warn w s = ⟨.ok (), s, [w]⟩ := rfl
@[simp] theorem warnAll_run (ws : List Warn) (s : σ) : warnAll ws s = ⟨.ok (), s, ws⟩ := rfl
@[simp] theorem get_run (s : σ) : (get : PyM σ σ) s = ⟨.ok s, s, []⟩ := rfl
@[simp] theorem set_run (s t : σ) : set t s = ⟨.ok (), t, []⟩ := rfl
@[simp] theorem modify_run (f : σ → σ) (s : σ) : modify f s = ⟨.ok (), f s, []⟩ := rfl
@[simp] theorem ofExcept_run (x : Except PyErr α) (s : σ) : (ofExcept x : PyM σ α) s = ⟨x, s, []⟩ := rfl

@[simp] theorem ite_run {c : Prop} [Decidable c] (x y : PyM σ α) (s : σ) :
    (if c then x else y).run s = if c then x.run s else y.run s := by split <;> rfl

theorem bind_run (x : PyM σ α) (f : α → PyM σ β) (s : σ) :
    (x >>= f) s = match x s with
      | ⟨.error e, s', w⟩ => ⟨.error e, s', w⟩
      | ⟨.ok a, s', w⟩ => ⟨(f a s').res, (f a s').st, w ++ (f a s').warns⟩ := rfl

theorem bind_ok {x : PyM σ α} {f : α → PyM σ β} {s s' : σ} {a : α} {w : List Warn}
    (h : x s = ⟨.ok a, s', w⟩) :
    (x >>= f) s = ⟨(f a s').res, (f a s').st, w ++ (f a s').warns⟩ := by
  rw [bind_run, h]

theorem bind_error {x : PyM σ α} {f : α → PyM σ β} {s s' : σ} {e : PyErr} {w : List Warn}
    (h : x s = ⟨.error e, s', w⟩) :
    (x >>= f) s = ⟨.error e, s', w⟩ := by
  rw [bind_run, h]

end PyM

/-! ### Byte strings -/

/-- `int.from_bytes(data, 'little')` -/
def fromLE : Bytes → Nat
  | [] => 0
  | b :: bs => b.toNat + 256 * fromLE bs

/-- The `len` low base-256 digits of `n`, least significant first. -/
def toLE : (len n : Nat) → Bytes
  | 0, _ => []
  | l + 1, n => UInt8.ofNat n :: toLE l (n / 256)

/-- `int.from_bytes(data, 'big')` -/
def fromBE (d : Bytes) : Nat := fromLE d.reverse

/-- `int.to_bytes(value, len, 'little')` (unsigned). -/
def intToBytesLE (value : Int) (len : Nat) : Except PyErr Bytes :=
  if value < 0 ∨ (256 ^ len : Nat) ≤ value then .error .overflowError
  else .ok (toLE len value.toNat)

/-- `int.to_bytes(value, len, 'big')` (unsigned). -/
def intToBytesBE (value : Int) (len : Nat) : Except PyErr Bytes :=
  if value < 0 ∨ (256 ^ len : Nat) ≤ value then .error .overflowError
  else .ok (toLE len value.toNat).reverse

/-- `bytes([value])` -/
def byteOf (value : Int) : Except PyErr Bytes :=
  if value < 0 ∨ 256 ≤ value then .error .valueError
  else .ok [UInt8.ofNat value.toNat]

/-- `data.ljust(n, b'\x00')` -/
def ljust (n : Nat) (d : Bytes) : Bytes := d ++ List.replicate (n - d.length) 0

/-- `data.rstrip(b'\x00')` -/
def rstripNul (d : Bytes) : Bytes := (d.reverse.dropWhile (· == 0)).reverse

/-! ### Slices -/

/-- `slice(start, stop, step)` -/
structure Slice where
  start : Option Int := none
  stop  : Option Int := none
  step  : Option Int := none
  deriving DecidableEq, Repr

/-- `slice.indices(len)` for nonzero step (CPython `PySlice_AdjustIndices`). -/
def Slice.indices (s : Slice) (len : Nat) : Int × Int × Int :=
  let step := s.step.getD 1
  let lower : Int := if step < 0 then -1 else 0
  let upper : Int := if step < 0 then (len : Int) - 1 else len
  let clamp (x : Int) : Int := if x < 0 then max (x + len) lower else min x upper
  let start := match s.start with | none => (if step < 0 then upper else lower) | some x => clamp x
  let stop := match s.stop with | none => (if step < 0 then lower else upper) | some x => clamp x
  (start, stop, step)

/-- `x in range(start, stop, step)` -/
def inRange (r : Int × Int × Int) (x : Int) : Bool :=
  if 0 < r.2.2 then r.1 ≤ x && x < r.2.1 && (x - r.1) % r.2.2 == 0
  else if r.2.2 < 0 then r.2.1 < x && x ≤ r.1 && (r.1 - x) % (-r.2.2) == 0
  else false

/-- `len(range(start, stop, step))` -/
def rangeLen (r : Int × Int × Int) : Nat :=
  if 0 < r.2.2 then ((r.2.1 - r.1 + r.2.2 - 1) / r.2.2).toNat
  else if r.2.2 < 0 then ((r.1 - r.2.1 - r.2.2 - 1) / (-r.2.2)).toNat
  else 0

/-- Clamped bounds `(a, b)` of a step-one slice of a sequence of length `len`. -/
def Slice.bounds (s : Slice) (len : Nat) : Nat × Nat :=
  let a := ({ s with step := none }.indices len).1.toNat
  let b := ({ s with step := none }.indices len).2.1.toNat
  (a, max a b)

/-- `data[start:stop]` (step one). -/
def getSlice (d : Bytes) (s : Slice) : Bytes :=
  (d.drop (s.bounds d.length).1).take ((s.bounds d.length).2 - (s.bounds d.length).1)

/-- `data[start:stop] = v` on a `bytearray` (step one; may change the length). -/
def setSlice (d : Bytes) (s : Slice) (v : Bytes) : Bytes :=
  d.take (s.bounds d.length).1 ++ v ++ d.drop (s.bounds d.length).2

/-! ### `io.BytesIO` -/

/-- An in-memory byte stream. -/
structure Stream where
  data : Bytes
  pos  : Nat
  deriving DecidableEq, Repr

namespace Stream
/-- `BytesIO(data)` -/
def ofBytes (d : Bytes) : Stream := ⟨d, 0⟩
/-- What `read(n)` returns. -/
def peek (s : Stream) (n : Nat) : Bytes := (s.data.drop s.pos).take n
/-- `read(n)` -/
def read (s : Stream) (n : Nat) : Bytes × Stream :=
  (s.peek n, ⟨s.data, s.pos + (s.peek n).length⟩)
/-- `read()` -/
def readAll (s : Stream) : Bytes × Stream :=
  (s.data.drop s.pos, ⟨s.data, s.pos + (s.data.drop s.pos).length⟩)
/-- `seek(k, 1)`: relative seek, clipped at the start as `BytesIO` does. -/
def seekRel (s : Stream) (k : Int) : Stream := ⟨s.data, ((s.pos : Int) + k).toNat⟩
/-- What is left to read. -/
def rest (s : Stream) : Bytes := s.data.drop s.pos
end Stream

end Verif
