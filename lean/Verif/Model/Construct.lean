import Verif.Model.Flags
import Verif.Model.Version

/-
Model of the constructor of entries (`/repo/tivars/var.py:343-390`) and of the `clear` overrides
(`/repo/tivars/types/real.py:136-140`, `/repo/tivars/types/complex.py:247-251`), and of the colours of new graph
databases (`/repo/tivars/types/gdb.py:83-107, 727-751`).
-/

namespace Verif
namespace Ent
variable {V : Type} [LinearOrder V]

/-- `calc_data` after `clear()` of the class: reals and complex numbers get their subtypes. The
`Bits[0:6]` views write into null bytes, so the byte is the subtype. -/
def clearFull (c : Cls) : Bytes :=
  if c.isSub .realE then
    match c.typeId with
    | some t => UInt8.ofNat t :: List.replicate 8 0
    | none => List.replicate 9 0
  else if c.isSub .complexE then
    0x0C :: List.replicate 8 0 ++ UInt8.ofNat (c.typeId.getD 0x0C) :: List.replicate 8 0
  else clearCalc c

/-- Whether the `data` view has the plain converter `Bytes` (list.py:130, matrix.py:107). -/
def plainData (c : Cls) : Bool := c.isSub .listE || c = .matrix

/-- `entry.data = value` for every class. -/
def assignData (env : Env V) (value : Bytes) : PyM Ent Unit := do
  let e ← PyM.get
  if plainData e.cls then viewPut (dataView e.cls) value else setData (getVersion env) value

/-- Arguments of the constructor other than `init` and `data`; `name` is the encoded name of eight
bytes, since encoding it needs the token sheets. -/
structure NewArgs where
  name : Bytes
  forFlash : Bool := true
  version : Option Nat := none
  archived : Option Bool := none

/-- The object before `clear()` (var.py:360-366). The setters of `archived` and `version` warn for
flashless entries, but those have failed before. -/
def newBase (c : Cls) (a : NewArgs) : Except PyErr Ent :=
  match initMeta a.forFlash with
  | .error x => .error x
  | .ok m => .ok ⟨c, m, [UInt8.ofNat (c.typeId.getD 0xFF)], a.name, [UInt8.ofNat (a.version.getD 0)],
      [if a.archived.getD false then 0x80 else 0x00], ⟨true, []⟩⟩

/-- The rest of the constructor (var.py:377-390): `load` is what `init` does, `pure ()` without
it. -/
def newRest (env : Env V) (a : NewArgs) (data : Bytes) (load : PyM Ent Unit) : PyM Ent Unit := do
  PyM.modify fun e => { e with body := ⟨true, clearFull e.cls⟩ }
  if data ≠ [] then do
    assignData env data
    coerce env
  else load
  if a.version = none then do
    let e ← PyM.get
    PyM.warnAll (getVersion env e []).1
    let v ← PyM.ofExcept (getVersion env e []).2
    setVersion v
  else pure ()

/-- `GraphColor` (gdb.py:83-107). -/
def colorNames : List (Str × Int) :=
  [("Mono".toList, 0x00), ("Blue".toList, 0x01), ("Red".toList, 0x02), ("Black".toList, 0x03),
   ("Magenta".toList, 0x04), ("Green".toList, 0x05), ("Orange".toList, 0x06), ("Brown".toList, 0x07),
   ("Navy".toList, 0x08), ("LtBlue".toList, 0x09), ("Yellow".toList, 0x0A), ("White".toList, 0x0B),
   ("LtGray".toList, 0x0C), ("MedGray".toList, 0x0D), ("Gray".toList, 0x0E), ("DarkGray".toList, 0x0F)]

/-- `View(calc_data, Enum)[start:stop]` for an enum with these names. -/
def enumViewAt (names : List (Str × Int)) (start stop : Int) : View Int :=
  View.mk' none (enumConv (names.map Prod.snd)) { start := some start, stop := some stop }

/-- `grid_color`, `axes_color` (gdb.py:741-751). -/
def gridView : View Int := enumViewAt colorNames (-5) (-4)
def axesView : View Int := enumViewAt colorNames (-4) (-3)

/-- What `TIGDB.__init__` does after `super().__init__` (gdb.py:734-735). On an object that is no longer a `TIGDB` the
assignments only add attributes. -/
def setColors : PyM Ent Unit := do
  let e ← PyM.get
  if e.cls.isSub .gdb then do
    viewPut axesView 0x03
    viewPut gridView 0x0D
  else pure ()

/-- The whole initialisation of an object of class `c`, after the sections before `clear()`: only `TIGDB` extends it,
`TIGraphedEquation` apart. -/
def newInit (env : Env V) (c : Cls) (a : NewArgs) (data : Bytes) (load : PyM Ent Unit) : PyM Ent Unit := do
  newRest env a data load
  if c.isSub .gdb then setColors else pure ()

/-- `cls(init, for_flash=, name=, version=, archived=, data=)` (var.py:343-390, gdb.py:727-735), for every class but
`TIGraphedEquation`. -/
def new (env : Env V) (c : Cls) (a : NewArgs) (data : Bytes) (load : PyM Ent Unit := pure ()) :
    PyM Unit Ent := ⟨fun s =>
  match newBase c a with
  | .error x => ⟨.error x, s, []⟩
  | .ok e =>
    match newInit env c a data load e with
    | ⟨.error x, _, ws⟩ => ⟨.error x, s, ws⟩
    | ⟨.ok (), e', ws⟩ => ⟨.ok e', s, ws⟩⟩

/-- `copy.copy(entry)` (var.py:406-413), for every class but `TIGraphedEquation`. -/
def copyEnt (env : Env V) (e : Ent) : PyM Unit Ent := do
  let n ← new env e.cls { name := env.unnamed } []
  let b ← PyM.ofExcept e.bytes
  ⟨fun s => match load env b n with
    | ⟨.error x, _, ws⟩ => ⟨.error x, s, ws⟩
    | ⟨.ok (), e', ws⟩ => ⟨.ok e', s, ws⟩⟩

/-- `entry == other` (var.py:415-427) for two entries; `bytes()` does not raise `AttributeError`. -/
def eqEnt (a b : Ent) : Except PyErr Bool :=
  if a.cls = b.cls then
    match a.bytes with
    | .error x => .error x
    | .ok p => match b.bytes with
      | .error x => .error x
      | .ok q => .ok (p == q)
  else .ok false

end Ent
end Verif
