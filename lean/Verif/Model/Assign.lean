import Verif.Model.Entry

/-
Model of assignments to the `data` of an entry and of `clear`
(`/repo/tivars/data.py:101-145`, `/repo/tivars/var.py:667-673, 1304-1323`).
-/

namespace Verif

/-- A `get_version(data)` method: it reads the entry and the new data, and yields warnings and a
version or an exception. None of the implementations changes the entry. -/
abbrev GetVersion := Ent → Bytes → List Warn × Except PyErr Nat

namespace Ent

/-- `View(calc_data, Integer)` on the length field of a sized entry (var.py:1310). -/
def lengthView (c : Cls) : View Int := View.mk' none intConv
  { start := some (lengthStart c : Int), stop := some (lengthStart c + 2 : Int) }

/-- `entry.length = value`. -/
def setLength (value : Int) : PyM Ent Unit := do
  let e ← PyM.get
  viewPut (lengthView e.cls) value

/-- `View(calc_data, Bytes)[start:]`: the slice of the `data` view. -/
def dataView (c : Cls) : View Bytes := View.mk' none bytesConv
  { start := some (dataStart c : Int) }

/-- `Data.set` with an instance (data.py:113-123): `instance.version = instance.get_version(value)`. -/
def updateVersion (gv : GetVersion) (value : Bytes) : PyM Ent Unit := do
  let e ← PyM.get
  PyM.warnAll (gv e value).1
  let v ← PyM.ofExcept (gv e value).2
  setVersion v

/-- `entry.data = value`: the converter runs first, `SizedData.set` (data.py:138-145) for sized
entries and `Data.set` otherwise, then the slice is assigned (data.py:489-490). -/
def setData (gv : GetVersion) (value : Bytes) : PyM Ent Unit := do
  let e ← PyM.get
  if e.cls.isSized then setLength value.length else pure ()
  updateVersion gv value
  viewPut (dataView e.cls) value

/-- `entry.clear()` of the bases (var.py:667-673, 1320-1323): the slot gets a new `bytearray`. -/
def clear : PyM Ent Unit := PyM.modify fun e => { e with body := ⟨true, clearCalc e.cls⟩ }

end Ent
end Verif
