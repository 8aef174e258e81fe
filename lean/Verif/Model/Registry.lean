import Verif.Model.AnyText
import Verif.Model.Flash

/-
Model of the registries of classes: `TIEntry` (`/repo/tivars/var.py:292, 459-463, 616-625, 647-655`), `TIFlashHeader`
(`/repo/tivars/flash.py:350, 446-450, 567-575, 606-614`), and of the loops over a registry
(`/repo/tivars/types/list.py:186-203`, `/repo/tivars/types/complex.py:327-332`).
-/

namespace Verif

/-- `_type_ids` (var.py:292, flash.py:350): a dict from type IDs to classes, in order of insertion. The key is `None` for a class without an ID. -/
abbrev Registry (C : Type) := List (Option Nat × C)

namespace Registry
variable {C : Type}

/-- `_type_ids[key] = value`: an existing key keeps its place. -/
def set (reg : Registry C) (key : Option Nat) (value : C) : Registry C :=
  match reg with
  | [] => [(key, value)]
  | (k, c) :: rest => if k = key then (k, value) :: rest else (k, c) :: set rest key value

/-- `_type_ids.get(key, None)` -/
def get (reg : Registry C) (key : Option Nat) : Option C :=
  match reg with
  | [] => none
  | (k, c) :: rest => if k = key then some c else get rest key

/-- `get_type(type_id)` (var.py:616-625, flash.py:567-575). -/
def getType (reg : Registry C) (typeId : Nat) : Option C := reg.get (some typeId)

/-- `register(var_type, override)` (var.py:647-655, flash.py:606-614); `typeIdOf` is the attribute `_type_id` of a class. -/
def register (typeIdOf : C → Option Nat) (reg : Registry C) (varType : C) (override : Option Nat) : Registry C :=
  reg.set (if override = none then typeIdOf varType else override) varType

/-- `class C(…, register=True, override=…)` for each of these in turn (var.py:459-463, flash.py:446-450). -/
def fill (typeIdOf : C → Option Nat) : Registry C → List (C × Option Nat) → Registry C
  | reg, [] => reg
  | reg, (c, o) :: rest => fill typeIdOf (reg.register typeIdOf c o) rest

/-- `_type_ids.values()` -/
def values (reg : Registry C) : List C := reg.map Prod.snd

end Registry

namespace Ent

/-- The class statements with `register=True`, in the order in which `import tivars` runs them (see `registered`), with their `override`
(gdb.py:151). -/
def statements : List (Cls × Option Nat) :=
  [(.appVar, none),
   (.real, none), (.undefReal, none), (.realFraction, none), (.realRadical, none), (.realPi, none), (.realPiFraction, none),
   (.complex, none), (.complexFraction, none), (.complexRadical, none), (.complexPi, none), (.complexPiFraction, none),
   (.equation, none), (.newEquation, none), (.string, none), (.program, none), (.protProgram, none),
   (.graphedEquation, some 0x23), (.monoGDB, none),
   (.realList, none), (.complexList, none),
   (.group, none), (.matrix, none), (.picture, none), (.image, none),
   (.window, none), (.recallWindow, none), (.tableSettings, none)]

/-- The loop of `TIList.coerce` for the number `t` in the first element (list.py:187-203). -/
def listLoop (t : Nat) : Registry Cls → PyM Ent Unit
  | [] => PyM.warn .listInvalid
  | (k, c) :: rest =>
    if k = some t then
      if c.isSub .realE then setClass .realList
      else if c.isSub .complexE then setClass .complexList
      else PyM.warn .listInvalid
    else listLoop t rest

/-- `TIList.coerce` over the registry (list.py:186-203): `self.data[0]` is read in the loop, or for the last warning. -/
def listCoerce (reg : Registry Cls) : PyM Ent Unit := do
  let e ← PyM.get
  let b ← PyM.ofExcept (byte0 e.data)
  listLoop (b.toNat &&& 31) reg

/-- The types gone through by `ComplexEntry.load_string` when the first attempt failed (complex.py:327-329): those registered for
subclasses of `RealEntry`. -/
def realItems : Registry Cls → List (Int × Cls)
  | [] => []
  | (k, c) :: rest =>
    if c.isSub .realE then
      match k with
      | some t => ((t : Int), c) :: realItems rest
      | none => realItems rest
    else realItems rest

end Ent

/-- The class statements of `/repo/tivars/types/flash.py:11, 28, 43, 60`, in their order; none has an `override`. -/
def flashStatements : List (FlashCls × Option Nat) := [(.os, none), (.app, none), (.certificate, none), (.license, none)]

end Verif
