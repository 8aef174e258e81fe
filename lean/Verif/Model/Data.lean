import Verif.Py.Core

/-
Model of `/repo/tivars/data.py`: converters, sections and views.
Converters are pairs of functions; `instance`-dependent converters (`Data`, `SizedData`)
are modelled with the entries that use them (`Verif/Model/Entry.lean`).
-/

namespace Verif

/-- Lift a stateless computation into a method. -/
def PyM.lift {σ α : Type} (x : PyM Unit α) : PyM σ α := ⟨fun s =>
  ⟨(x ()).res, s, (x ()).warns⟩⟩

/-- `Converter` (data.py:37-68): `get(data)` and `set(value, length=, current=)`. -/
structure Conv (α : Type) where
  get : Bytes → Except PyErr α
  set : α → Option Nat → Bytes → PyM Unit Bytes

/-- `data[0]` of a byte string: `IndexError` when empty. -/
def byte0 (d : Bytes) : Except PyErr UInt8 :=
  match d with
  | [] => .error .indexError
  | b :: _ => .ok b

/-- `Bytes` (data.py:71-98). -/
def bytesConv : Conv Bytes where
  get d := .ok d
  set v _ _ := pure v

/-- `Boolean` (data.py:148-177). -/
def boolConv : Conv Bool where
  get d := .ok (d != [0x00])
  set v _ _ := pure (if v then [0x80] else [0x00])

/-- `Integer` (data.py:180-215). -/
def intConv : Conv Int where
  get d := .ok (fromLE d)
  set v len _ := PyM.ofExcept (intToBytesLE v (len.getD 2))

/-- `str.encode('latin-1')` -/
def latin1Encode : Str → Except PyErr Bytes
  | [] => .ok []
  | c :: cs =>
    if c.toNat < 256 then
      match latin1Encode cs with
      | .error e => .error e
      | .ok bs => .ok (UInt8.ofNat c.toNat :: bs)
    else .error .unicodeEncodeError

/-- `bytes.decode('latin-1')` -/
def latin1Decode (d : Bytes) : Str := d.map fun b => Char.ofNat b.toNat

/-- `s.rstrip('\0')` -/
def rstripNulStr (s : Str) : Str := (s.reverse.dropWhile (· == '\x00')).reverse

/-- `String` (data.py:218-247). -/
def strConv : Conv Str where
  get d := .ok (rstripNulStr (latin1Decode d))
  set v _ _ := PyM.ofExcept (latin1Encode v)

/-- `f"{n:08b}"[::-1]` for `n < 256`: the eight bits, least significant first
(true for the digit `1`). -/
def bits8 (n : Nat) : List Bool := (List.range 8).map n.testBit

/-- `int(s[::-1], 2)` for a list of binary digits given least significant first. -/
def ofBits : List Bool → Nat
  | [] => 0
  | b :: bs => b.toNat + 2 * ofBits bs

/-- The membership test `index in range(*item.indices(8))` (data.py:259). -/
def bitIdx (item : Slice) (index : Nat) : Bool := inRange (item.indices 8) index

/-- `BitSlice.get` loop (data.py:281-284): collect the bits whose index is in the slice. -/
def bitsGetLoop (inIdx : Nat → Bool) : Nat → List Bool → List Bool
  | _, [] => []
  | index, bit :: bits =>
    if inIdx index then bit :: bitsGetLoop inIdx (index + 1) bits
    else bitsGetLoop inIdx (index + 1) bits

/-- `BitSlice.get` (data.py:272-286). `int('', 2)` raises `ValueError`. -/
def bitSliceGet (inIdx : Nat → Bool) (d : Bytes) : Except PyErr Int :=
  match byte0 d with
  | .error e => .error e
  | .ok b =>
    let value := bitsGetLoop inIdx 0 (bits8 b.toNat)
    if value.isEmpty then .error .valueError else .ok (ofBits value)

/-- `BitSlice.set` loop (data.py:301-306) over the given indices: accumulates `data` and
returns it with the unconsumed `bits`; `next(bits)` on an exhausted iterator raises. -/
def bitsSetLoop (inIdx : Nat → Bool) (cur : Nat) :
    List Nat → Nat → List Bool → Except PyErr (Nat × List Bool)
  | [], data, bits => .ok (data, bits)
  | index :: rest, data, bits =>
    if inIdx index then
      match bits with
      | [] => .error .stopIteration
      | b :: bs => bitsSetLoop inIdx cur rest (data + b.toNat <<< index) bs
    else bitsSetLoop inIdx cur rest (data + (cur &&& 1 <<< index)) bits

/-- The `while 1` loop (data.py:308-315): one warning per unconsumed `1`. -/
def bitsLeftover : List Bool → List Warn
  | [] => []
  | b :: bs => if b then .tooManyBits :: bitsLeftover bs else bitsLeftover bs

/-- `BitSlice.set` (data.py:288-317). `current[0]` is only evaluated when some index is
outside the slice. -/
def bitSliceSet (inIdx : Nat → Bool) (value : Int) (current : Bytes) : PyM Unit Bytes := do
  let bits := bits8 (value % 256).toNat
  let cur ←
    if (List.range 8).all inIdx then pure 0
    else PyM.ofExcept ((byte0 current).map UInt8.toNat)
  let (data, rest) ← PyM.ofExcept (bitsSetLoop inIdx cur (List.range 8) 0 bits)
  PyM.warnAll (bitsLeftover rest)
  PyM.ofExcept (byteOf data)

/-- `Bits[item]` (data.py:250-319). -/
def bitsConv (item : Slice) : Conv Int where
  get := bitSliceGet (bitIdx item)
  set v _ cur := bitSliceSet (bitIdx item) v cur

/-- `Section.__get__` with an instance (data.py:384-388): `IndexError` becomes `ValueError`. -/
def wrapIndexError {α : Type} : Except PyErr α → Except PyErr α
  | .error .indexError => .error .valueError
  | x => x

/-- The width policy at the end of `Section._set_raw` (data.py:412-420). -/
def fitWidth (length : Option Nat) (value : Bytes) : PyM Unit Bytes :=
  match length with
  | none => pure value
  | some n =>
    if value.length > n then do
      PyM.warn .tooWide
      pure (ljust n (value.take n))
    else pure (ljust n value)

/-- `Section._set_raw` (data.py:409-420). -/
def setRaw {α : Type} (c : Conv α) (length : Option Nat) (current : Bytes) (value : α) :
    PyM Unit Bytes := do
  let v ← c.set value length current
  fitWidth length v

/-- Contents of a raw slot: `bytearray` (mutable) or `bytes`. -/
structure Buf where
  mutable : Bool
  bytes : Bytes
  deriving DecidableEq, Repr

/-- `Section.__get__` (data.py:380-388). -/
def sectionGet {α : Type} (c : Conv α) (b : Buf) : Except PyErr α :=
  wrapIndexError (c.get b.bytes)

/-- `Section.__set__` (data.py:390-391): the slot is *replaced* by the `bytes` object the
converter returned, which is immutable. -/
def sectionSet {α : Type} (c : Conv α) (length : Option Nat) (value : α) : PyM Buf Unit := do
  let b ← PyM.get
  let v ← PyM.lift (setRaw c length b.bytes value)
  PyM.set ⟨false, v⟩

/-- `View.__init__` length computation (data.py:474-487). `x or y` picks `y` for 0/None. -/
def viewLength (targetLength : Option Nat) (i : Slice) : Option Nat :=
  match targetLength with
  | none =>
    let start := i.start.getD 0
    let stop := i.stop.getD 0
    let step := if i.step.getD 1 = 0 then 1 else i.step.getD 1
    let l : Option Nat := some (max (Int.fdiv (stop - start) step) 0).toNat
    if step > 0 then
      if start ≥ 0 ∧ (i.stop = none ∨ stop < 0) then none else l
    else
      if stop ≥ 0 ∧ (i.start = none ∨ start < 0) then none else l
  | some n => some (rangeLen (i.indices n))

/-- A view into a raw slot (data.py:439-507), with its computed length. Only contiguous
forward slices, as the class requires. -/
structure View (α : Type) where
  conv : Conv α
  slice : Slice
  length : Option Nat

/-- `View(target, converter)[indices]` -/
def View.mk' {α : Type} (targetLength : Option Nat) (c : Conv α) (i : Slice) : View α :=
  ⟨c, i, viewLength targetLength i⟩

/-- `View.__get__`: `Section.__get__` over `View._get_raw` (data.py:380-388, 498-499). -/
def View.get {α : Type} (v : View α) (b : Buf) : Except PyErr α :=
  wrapIndexError (v.conv.get (getSlice b.bytes v.slice))

/-- `View.__set__` (data.py:489-490): slice assignment into the slot; assigning into an
immutable `bytes` object raises `TypeError`. -/
def View.put {α : Type} (v : View α) (value : α) : PyM Buf Unit := do
  let b ← PyM.get
  let x ← PyM.lift (setRaw v.conv v.length (getSlice b.bytes v.slice) value)
  if b.mutable then PyM.set ⟨true, setSlice b.bytes v.slice x⟩
  else PyM.raise .typeError

end Verif
