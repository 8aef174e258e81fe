import Verif.Model.Data
import Verif.Model.Numeric

/-
Model of flash files: blocks and headers (`/repo/tivars/flash.py:104-812`, `/repo/tivars/types/flash.py`).
The converters `BCDDate` and `BCDRevision` are in `Verif.Model.Numeric`.
-/

namespace Verif

/-! ### Hexadecimal text -/

/-- The value of a hexadecimal digit in ASCII. -/
def hexByteVal (b : UInt8) : Option Nat :=
  if 0x30 ≤ b ∧ b ≤ 0x39 then some (b.toNat - 0x30)
  else if 0x41 ≤ b ∧ b ≤ 0x46 then some (b.toNat - 0x37)
  else if 0x61 ≤ b ∧ b ≤ 0x66 then some (b.toNat - 0x57)
  else none

/-- The upper case hexadecimal digit of `n < 16` in ASCII. -/
def hexByte (n : Nat) : UInt8 := if n < 10 then UInt8.ofNat (0x30 + n) else UInt8.ofNat (0x37 + n)

/-- White space that `bytes.fromhex` skips between bytes. -/
def hexSpace (b : UInt8) : Bool := (0x09 ≤ b && b ≤ 0x0D) || b == 0x20

/-- `bytes.fromhex(d.decode())`. A byte outside ASCII raises `UnicodeDecodeError` or `ValueError`, of
which the former is a subclass; both are `ValueError` here. -/
def bytesFromHex : Bytes → Except PyErr Bytes
  | [] => .ok []
  | [b] => if hexSpace b then .ok [] else .error .valueError
  | a :: b :: d =>
    if hexSpace a then bytesFromHex (b :: d)
    else match hexByteVal a, hexByteVal b with
      | some x, some y =>
        match bytesFromHex d with
        | .error e => .error e
        | .ok r => .ok (UInt8.ofNat (16 * x + y) :: r)
      | _, _ => .error .valueError

/-- The hexadecimal digits of `n` before those in `acc`; the first argument bounds the number of digits. -/
def hexDigits : Nat → Nat → Bytes → Bytes
  | 0, n, acc => hexByte (n % 16) :: acc
  | fuel + 1, n, acc => if n < 16 then hexByte n :: acc else hexDigits fuel (n / 16) (hexByte (n % 16) :: acc)

/-- `f"{n:02X}".encode()` -/
def hex02 (n : Nat) : Bytes := if n < 16 then [0x30, hexByte n] else hexDigits n n []

/-- `int(d.decode(), 16)` for hexadecimal digits. Python also accepts signs, surrounding white space,
underscores, the prefix `0x` and other decimal digits, which are outside the modelled domain. -/
def parseHex (d : Bytes) : Except PyErr Nat :=
  if d = [] then .error .valueError
  else d.foldlM (fun acc b => match hexByteVal b with
    | some x => .ok (16 * acc + x)
    | none => .error .valueError) 0

/-! ### Blocks -/

/-- The raw sections of a `TIFlashBlock` (flash.py:157); `data` is missing until it is set. -/
structure Block where
  address : Bytes
  blockType : Bytes
  data : Option Bytes
  deriving DecidableEq, Repr

namespace Block

/-- `raw.size` (flash.py:172-177). -/
def sizeText (d : Bytes) : Bytes := hex02 (d.length / 2)

/-- `raw.checksum` (flash.py:159-169) for given data. -/
def checksumOf (k : Block) (d : Bytes) : Except PyErr Bytes :=
  match bytesFromHex (sizeText d ++ k.address ++ k.blockType ++ d) with
  | .error e => .error e
  | .ok bs => .ok (hex02 ((-((bs.map UInt8.toNat).sum : Nat) : Int) % 256).toNat)

/-- `raw.bytes()` (flash.py:179-184). -/
def bytes (k : Block) : Except PyErr Bytes :=
  match k.data with
  | none => .error .attributeError
  | some d =>
    match k.checksumOf d with
    | .error e => .error e
    | .ok c => .ok (0x3A :: (sizeText d ++ k.address ++ k.blockType ++ d ++ c))

/-- `TIFlashBlock.load_bytes` (flash.py:246-284). -/
def load (d : Bytes) : PyM Block Unit := do
  let s : Stream := ⟨d, 1⟩
  let (size, s) := s.read 2
  let n ← PyM.ofExcept (parseHex size)
  let (a, s) := s.read 4
  PyM.modify fun k => { k with address := a }
  let (t, s) := s.read 2
  PyM.modify fun k => { k with blockType := t }
  if t = [0x30, 0x30] ∨ t = [0x30, 0x31] ∨ t = [0x30, 0x32] then pure () else PyM.warn .blockType
  let (data, s) := s.read (2 * n)
  PyM.modify fun k => { k with data := some data }
  if data.length ≠ 2 * n then PyM.warn .blockSize else pure ()
  let (c, _) := s.read 2
  let k ← PyM.get
  let c' ← PyM.ofExcept (k.checksumOf data)
  if c ≠ c' then PyM.warn .blockChecksum else pure ()

/-- `TIFlashBlock(address=, block_type=, data=)` (flash.py:186-212), without `init`: no data leaves the
section unset. -/
def new (address blockType data : Bytes) : PyM Unit Block := do
  let a ← setRaw bytesConv (some 4) [] address
  let t ← setRaw bytesConv (some 2) [] blockType
  pure ⟨a, t, if data = [] then none else some data⟩

/-- `TIFlashBlock(d)`: the address is `0000` and the type `00` until `d` is loaded. -/
def ofBytes (d : Bytes) : PyM Unit Block :=
  ⟨fun s =>
    match load d ⟨[0x30, 0x30, 0x30, 0x30], [0x30, 0x30], none⟩ with
    | ⟨.error e, _, ws⟩ => ⟨.error e, s, ws⟩
    | ⟨.ok (), k, ws⟩ => ⟨.ok k, s, ws⟩⟩

end Block

/-! ### Data made of blocks -/

/-- `data.split(b'\r\n')` -/
def splitCRLF : Bytes → List Bytes
  | [] => [[]]
  | 0x0D :: 0x0A :: d => [] :: splitCRLF d
  | b :: d =>
    match splitCRLF d with
    | [] => [[b]]
    | p :: ps => (b :: p) :: ps

/-- `list(map(TIFlashBlock, pieces))` -/
def loadBlocks : List Bytes → PyM Unit (List Block)
  | [] => pure []
  | p :: ps => do
    let k ← Block.ofBytes p
    let ks ← loadBlocks ps
    pure (k :: ks)

/-- `FlashData.get` for `binary_flag == 0x01` (flash.py:306-317). -/
def flashDataGet (d : Bytes) : PyM Unit (List Block) := loadBlocks (splitCRLF d)

/-- `b'\r\n'.join(block.bytes() for block in value)` -/
def joinBlocks : List Block → Except PyErr Bytes
  | [] => .ok []
  | [k] => k.bytes
  | k :: ks =>
    match k.bytes, joinBlocks ks with
    | .error e, _ => .error e
    | _, .error e => .error e
    | .ok b, .ok bs => .ok (b ++ [0x0D, 0x0A] ++ bs)

/-! ### Headers -/

/-- `TIFlashHeader` and its subclasses (types/flash.py:11-82). -/
inductive FlashCls where
  | header | os | app | certificate | license
  deriving DecidableEq, Repr

/-- `_type_id` (flash.py:349, types/flash.py:25, 40, 57, 76). -/
def FlashCls.typeId : FlashCls → Option Nat
  | .header => none
  | .os => some 0x23
  | .app => some 0x24
  | .certificate => some 0x25
  | .license => some 0x3E

/-- `TIFlashHeader.get_type` (flash.py:566-575) over the registered classes. -/
def FlashCls.ofTypeId (t : Nat) : Option FlashCls :=
  if t = 0x23 then some .os
  else if t = 0x24 then some .app
  else if t = 0x25 then some .certificate
  else if t = 0x3E then some .license
  else none

/-- The raw sections of a `TIFlashHeader` (flash.py:363) with its class and `_has_checksum`; `calcData` is
missing until it is set. -/
structure Flash where
  cls : FlashCls
  magic : Bytes
  revision : Bytes
  binaryFlag : Bytes
  objectType : Bytes
  date : Bytes
  name : Bytes
  devices : Bytes
  productId : Bytes
  calcData : Option Bytes
  hasChecksum : Bool
  deriving DecidableEq, Repr

/-- `**TIFL**` -/
def flashMagic : Bytes := [0x2A, 0x2A, 0x54, 0x49, 0x46, 0x4C, 0x2A, 0x2A]

namespace Flash

/-- `raw.name_length` (flash.py:384-389). -/
def nameLength (h : Flash) : Except PyErr Bytes := byteOf (rstripNul h.name).length

/-- `raw.checksum` (flash.py:374-381) for given data. -/
def checksumOf (d : Bytes) : Bytes := toLE 2 ((d.map UInt8.toNat).sum % 65536)

/-- `raw.bytes()` (flash.py:391-398). -/
def rawBytes (h : Flash) : Except PyErr Bytes :=
  match h.nameLength with
  | .error e => .error e
  | .ok n =>
    match h.calcData with
    | none => .error .attributeError
    | some d =>
      match intToBytesLE d.length 4 with
      | .error e => .error e
      | .ok size => .ok (h.magic ++ h.revision ++ h.binaryFlag ++ h.objectType ++ h.date ++ n ++ h.name ++
          List.replicate 23 0x00 ++ h.devices ++ List.replicate 23 0x00 ++ h.productId ++ size ++ d ++
          checksumOf d)

/-- `header.bytes()` (flash.py:735-740). -/
def bytes (h : Flash) : Except PyErr Bytes :=
  match h.rawBytes with
  | .error e => .error e
  | .ok b => if h.hasChecksum then .ok b else .ok (b.take (b.length - 2))

/-- `len(header)` (flash.py:448-453). -/
def len (h : Flash) : Except PyErr Nat :=
  match h.calcData with
  | none => .error .attributeError
  | some d =>
    match intToBytesLE d.length 4 with
    | .error e => .error e
    | .ok size => .ok (78 + fromLE size + if h.hasChecksum then 2 else 0)

/-- The view `device_type` (flash.py:519-523), for which `Enum.get` gives the first byte. -/
def deviceType (h : Flash) : Except PyErr UInt8 :=
  wrapIndexError (byte0 (getSlice h.devices ⟨some 0, some 1, none⟩))

/-- The view `type_id` (flash.py:525-529). -/
def typeId (h : Flash) : Except PyErr Int :=
  wrapIndexError ((bitsConv {}).get (getSlice h.devices ⟨some 1, some 2, none⟩))

/-- `DeviceType.DEVICES` (flash.py:25-36). -/
def deviceTypes : List UInt8 := [0x73, 0x74, 0x88, 0x98]

/-- `header.coerce()` (flash.py:793-812). -/
def coerce : PyM Flash Unit := do
  let h ← PyM.get
  if h.cls.typeId = none then do
    let t ← PyM.ofExcept h.typeId
    match FlashCls.ofTypeId t.toNat with
    | some c => PyM.set { h with cls := c }
    | none => if t ≠ 0xFF then PyM.warn .flashCoerce else PyM.warn .flashCoerceNone
  else pure ()

/-- The check of the type ID while loading (flash.py:700-708). -/
def checkType : PyM Flash Unit := do
  let h ← PyM.get
  match h.cls.typeId with
  | none => pure ()
  | some t => do
    let t' ← PyM.ofExcept h.typeId
    if t' ≠ t then PyM.warn .flashType else pure ()

/-- The fields before the name (flash.py:668-681). -/
def loadStart (s : Stream) : PyM Flash Stream := do
  let (magic, s) := s.read 8
  PyM.modify fun h => { h with magic := magic }
  if magic ≠ flashMagic then PyM.warn .flashMagic else pure ()
  let (rev, s) := s.read 2
  let (flag, s) := s.read 1
  let (type, s) := s.read 1
  let (date, s) := s.read 4
  PyM.modify fun h => { h with revision := rev, binaryFlag := flag, objectType := type, date := date }
  pure s

/-- The name (flash.py:683-689). -/
def loadName (s : Stream) : PyM Flash Stream := do
  let (n, s) := s.read 1
  let n ← PyM.ofExcept (byte0 n)
  let (name, s) := s.read 31
  PyM.modify fun h => { h with name := rstripNul name }
  let h ← PyM.get
  let n' ← PyM.ofExcept h.nameLength
  if n.toNat ≠ fromLE n' then PyM.warn .flashName else pure ()
  pure s

/-- The devices and the product (flash.py:691-713). -/
def loadDevices (s : Stream) : PyM Flash Stream := do
  let (d, s) := s.read 1
  PyM.modify fun h => { h with devices := d }
  let h ← PyM.get
  let t ← PyM.ofExcept h.deviceType
  if t ∈ deviceTypes then pure () else PyM.warn .flashDevice
  let (i, s) := s.read 1
  PyM.modify fun h => { h with devices := h.devices ++ i }
  checkType
  let (r, s) := s.read 23
  let (p, s) := s.read 1
  PyM.modify fun h => { h with devices := h.devices ++ rstripNul r, productId := p }
  pure s

/-- The data and the checksum (flash.py:715-731). -/
def loadData (s : Stream) : PyM Flash Unit := do
  let (size, s) := s.read 4
  let (d, s) := s.read (fromLE size)
  PyM.modify fun h => { h with calcData := some d }
  if d.length ≠ fromLE size then PyM.warn .flashLength else pure ()
  let (c, _) := s.read 2
  if c ≠ [] then
    if c ≠ checksumOf d then PyM.warn .flashChecksum else pure ()
  else PyM.modify fun h => { h with hasChecksum := false }

/-- `TIFlashHeader.load_bytes` (flash.py:653-733). The magic is compared as text without trailing null
bytes, which makes no difference since `**TIFL**` has eight characters. -/
def load (d : Bytes) : PyM Flash Unit := do
  let s ← loadStart (Stream.ofBytes d)
  let s ← loadName s
  let s ← loadDevices s
  loadData s
  coerce

/-- Arguments of the constructor without `init`. -/
structure NewArgs where
  magic : Str := "**TIFL**".toList
  revision : Str := "0.0".toList
  binaryFormat : Bool := false
  objectType : Int := 0x88
  date : Int × Int × Int := (0, 0, 0)
  name : Str := "UNNAMED".toList
  deviceType : Int := 0x73
  productId : Int := 0x00
  data : Bytes := [0x3A, 0x30, 0x30, 0x30, 0x30, 0x30, 0x30, 0x30, 0x31, 0x46, 0x46]

/-- `FlashDevices.set` for one device (flash.py:125-135): `bytes([…])`. -/
def deviceBytes (t i : Int) : Except PyErr Bytes :=
  match byteOf t, byteOf i with
  | .ok a, .ok b => .ok (a ++ b)
  | _, _ => .error .valueError

/-- `cls(…)` (flash.py:400-439) without `init`, which is ignored anyway unless the data is empty. -/
def new (c : FlashCls) (a : NewArgs) : PyM Unit Flash := do
  let magic ← setRaw strConv (some 8) [] a.magic
  let revision ← setRaw bcdRevisionConv (some 2) [] a.revision
  let flag ← setRaw (bitsConv {}) (some 1) [] (if a.binaryFormat then 0x00 else 0x01)
  let type ← setRaw (bitsConv {}) (some 1) [] a.objectType
  let date ← setRaw bcdDateConv (some 4) [] a.date
  let name ← setRaw strConv (some 31) [] a.name
  let devices ← PyM.ofExcept (deviceBytes a.deviceType (c.typeId.getD 0xFF))
  let product ← setRaw (bitsConv {}) (some 1) [] a.productId
  pure ⟨c, magic, revision, flag, type, date, name, devices, product,
    if a.data = [] then none else some a.data, true⟩

/-- `header.data` (flash.py:550-557) when the data consists of blocks. -/
def blocks (h : Flash) : PyM Unit (List Block) := flashDataGet (h.calcData.getD [])

/-- `TIFlashHeader.next_header_length` (flash.py:577-603): the length and the stream afterwards. -/
def nextHeaderLength (s : Stream) : Nat × Stream :=
  let s := s.seekRel 74
  let (size, s) := s.read 4
  let n := fromLE size
  let s := s.seekRel n
  let (r, s) := s.read 8
  let (len, s) :=
    if r = [] then (78 + n, s)
    else if r = flashMagic then (78 + n, s.seekRel (-8))
    else (78 + n + 2, s.seekRel (-(r.length : Int)))
  (len, s.seekRel (-78 - (n : Int)))

/-- The loop of `load_from_file` (flash.py:752-754). -/
def skipHeaders : Nat → Stream → Stream
  | 0, s => s
  | k + 1, s =>
    let (n, s) := nextHeaderLength s
    skipHeaders k (s.seekRel n)

/-- `header.load_from_file(file, offset=k)` (flash.py:742-756). -/
def loadFromFile (file : Stream) (k : Nat) : PyM Flash Unit :=
  let (n, s) := nextHeaderLength (skipHeaders k file)
  load (s.read n).1

/-- `cls.open(filename)` (flash.py:758-781) on the contents of the file; a new header is made first. -/
def openFile (c : FlashCls) (contents : Bytes) : PyM Unit Flash := do
  let h ← new c {}
  let (n, s) := nextHeaderLength (Stream.ofBytes contents)
  let (b, s) := s.read n
  let o := load b h
  PyM.warnAll o.warns
  PyM.ofExcept o.res
  if s.rest ≠ [] then
    if flashMagic.isPrefixOf s.rest then PyM.warn .flashOpenMultiple else PyM.warn .flashOpenExtra
  else pure ()
  pure o.st

end Flash
end Verif
