import Verif.Model.Flash

/-! Specifications for flash files. -/

namespace Verif.Spec

/-- `c` is the hexadecimal digit for `x`, in either case. -/
def HexDigit (c : UInt8) (x : Nat) : Prop :=
  "0123456789ABCDEF".toList[x]? = some (Char.ofNat c.toNat) ∨
  "0123456789abcdef".toList[x]? = some (Char.ofNat c.toNat)

/-- A text of hexadecimal digits, two for each byte, with the higher one first. -/
inductive HexText : Bytes → Bytes → Prop
  | nil : HexText [] []
  | cons {a b : UInt8} {x y : Nat} {s d : Bytes} (ha : HexDigit a x) (hb : HexDigit b y) (hs : HexText s d) :
      HexText (a :: b :: s) (UInt8.ofNat (16 * x + y) :: d)

/-- The sum of bytes. -/
def byteSum (d : Bytes) : Nat := (d.map UInt8.toNat).sum

/-- A block with two bytes of address, one of type and at most 255 of data, all as text. -/
structure IsRecord (k : Block) (a : Bytes) (t : UInt8) (d : Bytes) : Prop where
  address : HexText k.address a
  alen : a.length = 2
  type : HexText k.blockType [t]
  data : ∃ s, k.data = some s ∧ HexText s d
  dlen : d.length ≤ 255

/-- The contents of a header: all fields but the lengths and the checksum. -/
structure FlashFields where
  revision : Bytes
  flag : UInt8
  objectType : UInt8
  date : Bytes
  name : Bytes
  devices : Bytes
  product : UInt8
  data : Bytes
  withSum : Bool
  deriving DecidableEq

/-- No null byte at the end. -/
def Trimmed (d : Bytes) : Prop := ∀ b, d.getLast? = some b → b ≠ 0x00

/-- Fields that fit into a header: the name into 31 bytes and the devices, at least one, into 25. -/
structure FlashFields.Fit (f : FlashFields) : Prop where
  revision : f.revision.length = 2
  date : f.date.length = 4
  name : f.name.length ≤ 31
  nameEnd : Trimmed f.name
  devices : 2 ≤ f.devices.length ∧ f.devices.length ≤ 25
  devicesEnd : Trimmed (f.devices.drop 2)
  data : f.data.length < 2 ^ 32

/-- A header as flash files have it: after the eight bytes of magic, two of revision, two flags, four of date
and the length of the name come 31 bytes of name, 25 of devices, one of product, four of data length, the data and
possibly the sum of the data modulo 65536. -/
def FlashFields.file (f : FlashFields) : Bytes :=
  [0x2A, 0x2A, 0x54, 0x49, 0x46, 0x4C, 0x2A, 0x2A] ++ f.revision ++ [f.flag, f.objectType] ++ f.date ++
  [UInt8.ofNat f.name.length] ++ (f.name ++ List.replicate (31 - f.name.length) 0x00) ++
  (f.devices ++ List.replicate (25 - f.devices.length) 0x00) ++ [f.product] ++
  toLE 4 f.data.length ++ f.data ++ (if f.withSum then toLE 2 (byteSum f.data % 65536) else [])

/-- A header with the given fields and class. -/
def FlashFields.header (f : FlashFields) (c : FlashCls) (sum : Bool) : Flash :=
  ⟨c, [0x2A, 0x2A, 0x54, 0x49, 0x46, 0x4C, 0x2A, 0x2A], f.revision, [f.flag], [f.objectType], f.date, f.name,
    f.devices, [f.product], some f.data, sum⟩

/-- The class for the type of the first device: operating systems, apps, certificates and licenses. -/
def flashKind (t : UInt8) : FlashCls :=
  if t = 0x23 then .os else if t = 0x24 then .app else if t = 0x25 then .certificate
  else if t = 0x3E then .license else .header

/-- The warnings due when a header is loaded: an unknown device, a class other than that asked for, or an unknown type. -/
def FlashFields.warnings (f : FlashFields) (c : FlashCls) : List Warn :=
  (if f.devices.headD 0 ∈ [0x73, 0x74, 0x88, 0x98] then [] else [.flashDevice]) ++
  (if c = .header then
    if flashKind (f.devices.getD 1 0) = .header then
      if f.devices.getD 1 0 = 0xFF then [.flashCoerceNone] else [.flashCoerce]
    else []
  else if flashKind (f.devices.getD 1 0) = c then [] else [.flashType])

/-- The warnings due for blocks: one for each type other than data, end and page. -/
def blockWarnings (ks : List Block) : List Warn := ks.flatMap fun k =>
  if k.blockType = [0x30, 0x30] ∨ k.blockType = [0x30, 0x31] ∨ k.blockType = [0x30, 0x32] then [] else [.blockType]

/-- A header with a short name. -/
def sampleFlash : FlashFields :=
  { revision := [0x01, 0x02], flag := 0x00, objectType := 0x88, date := [0x01, 0x02, 0x20, 0x20], name := [0x41, 0x42, 0x43],
    devices := [0x73, 0x24], product := 0x0F, data := [0x01, 0x02, 0xFF], withSum := true }

end Verif.Spec
