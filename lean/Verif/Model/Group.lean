import Verif.Model.Construct

/-
Model of grouping entries (`/repo/tivars/types/group.py:40-93, 156-166`); ungrouping is in
`Verif.Model.Version`.
-/

namespace Verif
namespace Ent
variable {V : Type} [LinearOrder V]

/-- The VAT entry of an entry (group.py:70-90) with type ID `t` and version `v`. -/
def vatEntry (e : Ent) (t v : Nat) : Bytes :=
  [UInt8.ofNat t, 0x00, UInt8.ofNat v, 0x00, 0x00, if e.getArchived then 0x01 else 0x00] ++
  (if t = 0x05 ∨ t = 0x06 ∨ t = 0x15 ∨ t = 0x17 then
    UInt8.ofNat (rstripNul e.name).length :: rstripNul e.name
  else if t = 0x01 ∨ t = 0x0D then
    UInt8.ofNat ((rstripNul e.name).length + 1) :: rstripNul e.name ++ [0x00]
  else ljust 3 (rstripNul e.name))

/-- One round of the loop of `group` (group.py:69-93), the state being the group. A
`TIGraphedEquation` raises at `entry.raw.flags` (group.py:77). -/
def addEntry (env : Env V) (e : Ent) : PyM Ent Unit := do
  let t ← PyM.ofExcept e.getTypeId
  let v ← PyM.ofExcept e.getVersionByte
  if e.getArchived then PyM.warn .groupArchived else pure ()
  if e.cls = .graphedEquation then PyM.raise .attributeError
  else do
    let g ← PyM.get
    setData (getVersion env) (g.data ++ vatEntry e t v)
    let g ← PyM.get
    setData (getVersion env) (g.data ++ e.body.bytes)

/-- The loop of `group`. -/
def addEntries (env : Env V) : List Ent → PyM Ent Unit
  | [] => pure ()
  | e :: es => do
    addEntry env e
    addEntries env es

/-- `TIGroup.group(entries, name=name)` (group.py:47-93); `nm` is the encoded name. -/
def group (env : Env V) (nm : Bytes) : List Ent → PyM Unit Ent
  | [] => do
    PyM.warn .groupSmall
    new env .group { name := nm, archived := some true } []
  | first :: rest => do
    if rest = [] then PyM.warn .groupSmall else pure ()
    let g ← new env .group
      { name := nm, forFlash := !first.flashBytes.isEmpty, archived := some true } []
    let o := addEntries env (first :: rest) g
    PyM.warnAll o.warns
    PyM.ofExcept o.res
    pure o.st

end Ent
end Verif
