import Verif.Model.Construct

/-
Model of the real-valued fields of window and table settings (`/repo/tivars/types/settings.py:33-50, 90-293, 333-536, 576-608`) and of graph databases (`/repo/tivars/types/gdb.py:462-490, 850-862, 1004-1020, 1186-1202, 1328-1430`), with the converter `GraphRealEntry` (`/repo/tivars/types/real.py:209-224`,
`/repo/tivars/var.py:570-590`).
-/

namespace Verif
namespace Ent
variable {V : Type} [LinearOrder V]

/-- What the method of a field checks before storing. -/
inductive FieldCheck where
  | any
  | integer   -- settings.py:170, 184, 210, 242, 413, 427, 453, 485, 584, 598; gdb.py:1336, 1350, 1376, 1408
  | xres      -- settings.py:256, 499; gdb.py:858
  deriving DecidableEq, Repr

/-- The fields of window settings (settings.py:90-266). -/
def windowFields : List (Str × Nat × FieldCheck) :=
    [("Xmin".toList, 3, .any), ("Xmax".toList, 12, .any), ("Xscl".toList, 21, .any),
     ("Ymin".toList, 30, .any), ("Ymax".toList, 39, .any), ("Yscl".toList, 48, .any),
     ("Thetamin".toList, 57, .any), ("Thetamax".toList, 66, .any), ("Thetastep".toList, 75, .any),
     ("Tmin".toList, 84, .any), ("Tmax".toList, 93, .any), ("Tstep".toList, 102, .any),
     ("PlotStart".toList, 111, .integer), ("nMax".toList, 120, .integer), ("unMin0".toList, 129, .any),
     ("vnMin0".toList, 138, .any), ("nMin".toList, 147, .integer), ("unMin1".toList, 156, .any),
     ("vnMin1".toList, 165, .any), ("wnMin0".toList, 174, .any), ("PlotStep".toList, 183, .integer),
     ("Xres".toList, 192, .xres), ("wnMin1".toList, 201, .any)]

/-- The fields of saved window settings (settings.py:333-509). -/
def recallFields : List (Str × Nat × FieldCheck) :=
    [("Xmin".toList, 2, .any), ("Xmax".toList, 11, .any), ("Xscl".toList, 20, .any),
     ("Ymin".toList, 29, .any), ("Ymax".toList, 38, .any), ("Yscl".toList, 47, .any),
     ("Thetamin".toList, 56, .any), ("Thetamax".toList, 65, .any), ("Thetastep".toList, 74, .any),
     ("Tmin".toList, 83, .any), ("Tmax".toList, 92, .any), ("Tstep".toList, 101, .any),
     ("PlotStart".toList, 110, .integer), ("nMax".toList, 119, .integer), ("unMin0".toList, 128, .any),
     ("vnMin0".toList, 137, .any), ("nMin".toList, 146, .integer), ("unMin1".toList, 155, .any),
     ("vnMin1".toList, 164, .any), ("wnMin0".toList, 173, .any), ("PlotStep".toList, 182, .integer),
     ("Xres".toList, 191, .xres), ("wnMin1".toList, 200, .any)]

/-- The fields of table settings (settings.py:576-602). -/
def tableFields : List (Str × Nat × FieldCheck) :=
    [("TblMin".toList, 2, .integer), ("DeltaTbl".toList, 11, .integer)]

/-- The fields common to graph databases (gdb.py:462-490). -/
def gdbFields : List (Str × Nat × FieldCheck) :=
    [("Xmin".toList, 7, .any), ("Xmax".toList, 16, .any), ("Xscl".toList, 25, .any),
     ("Ymin".toList, 34, .any), ("Ymax".toList, 43, .any), ("Yscl".toList, 52, .any)]

/-- The further fields of each kind of graph database (gdb.py:850-862, 1004-1020, 1186-1202, 1328-1430). -/
def funcFields : List (Str × Nat × FieldCheck) :=
    [("Xres".toList, 61, .xres)]
def paramFields : List (Str × Nat × FieldCheck) :=
    [("Tmin".toList, 61, .any), ("Tmax".toList, 70, .any), ("Tstep".toList, 79, .any)]
def polarFields : List (Str × Nat × FieldCheck) :=
    [("Thetamin".toList, 61, .any), ("Thetamax".toList, 70, .any), ("Thetastep".toList, 79, .any)]
def seqFields : List (Str × Nat × FieldCheck) :=
    [("PlotStart".toList, 61, .integer), ("nMax".toList, 70, .integer), ("unMin".toList, 79, .any),
     ("vnMin".toList, 88, .any), ("nMin".toList, 97, .integer), ("unMinp1".toList, 106, .any),
     ("vnMinp1".toList, 115, .any), ("wnMin".toList, 124, .any), ("PlotStep".toList, 133, .integer),
     ("wnMinp1".toList, 142, .any)]

/-- The real-valued fields of each class: name, where the nine bytes start, and the check. -/
def graphFields : Cls → List (Str × Nat × FieldCheck)
  | .window => windowFields
  | .recallWindow => recallFields
  | .tableSettings => tableFields
  | .monoGDB | .gdb => gdbFields
  | .monoFunc | .func => gdbFields ++ funcFields
  | .monoParam | .param => gdbFields ++ paramFields
  | .monoPolar | .polar => gdbFields ++ polarFields
  | .monoSeq | .seq => gdbFields ++ seqFields
  | _ => []

/-- The length of the section `calc_data`: fixed for settings (settings.py:86, 329, 572), open for graph
databases. -/
def fieldTarget (c : Cls) : Option Nat :=
  if c.isSub .settingsE then some c.minDataLength else none

/-- The check of a field; `num` gives `int(value)` and whether `int(value) == float(value)`, or what they
raise. Binary floating-point numbers are not modelled, so `num` is a parameter. -/
def fieldCheck (num : Ent → Except PyErr (Int × Bool)) : FieldCheck → Ent → PyM Unit Unit
  | .any, _ => pure ()
  | .integer, value => do
    let r ← PyM.ofExcept (num value)
    if r.2 then pure () else PyM.warn .notInteger
  | .xres, value => do
    let r ← PyM.ofExcept (num value)
    if r.2 ∧ 1 ≤ r.1 ∧ r.1 ≤ 8 then pure () else PyM.warn .notInteger

/-- The converter of a field, as a setter: the check, then `GraphRealEntry.set` (real.py:218-224). -/
def fieldSet (num : Ent → Except PyErr (Int × Bool)) (k : FieldCheck) (value : Ent) : PyM Unit Bytes := do
  fieldCheck num k value
  if value.cls = .real ∨ value.cls = .undefReal ∨ value.cls = .realFraction then pure ()
  else PyM.warn .notGraphable
  pure value.body.bytes

/-- The view of a field, as far as writing is concerned. -/
def graphView (num : Ent → Except PyErr (Int × Bool)) (c : Cls) (start : Nat) (k : FieldCheck) : View Ent :=
  View.mk' (fieldTarget c) ⟨fun _ => .error .notImplementedError, fun v _ _ => fieldSet num k v⟩
    { start := some (start : Int), stop := some (start + 9 : Int) }

/-- `setattr(entry, name, value)` for a real-valued field; another name makes a new attribute, which is not
part of the data. -/
def setField (num : Ent → Except PyErr (Int × Bool)) (name : Str) (value : Ent) : PyM Ent Unit := do
  let e ← PyM.get
  match (graphFields e.cls).lookup name with
  | some (start, k) => viewPut (graphView num e.cls start k) value
  | none => pure ()

/-- `Section.__get__` turning `IndexError` into `ValueError` (data.py:384-388), for a converter that
warns. -/
def wrapIndex {α : Type} (x : PyM Unit α) : PyM Unit α := ⟨fun s =>
  match x s with
  | ⟨r, s', ws⟩ => ⟨wrapIndexError r, s', ws⟩⟩

/-- `getattr(entry, name)` for a real-valued field: `GraphRealEntry(data=…)` (var.py:570-579); `nm` is the
encoded default name of numbers, `"A"`. -/
def getField (env : Env V) (nm : Bytes) (name : Str) (e : Ent) : PyM Unit Ent :=
  match (graphFields e.cls).lookup name with
  | some (start, _) => wrapIndex (new env .graphRealE { name := nm }
      (getSlice e.body.bytes { start := some (start : Int), stop := some (start + 9 : Int) }))
  | none => PyM.raise .attributeError

/-- The keys of the dictionary `settings.dict()`, in order (settings.py:268-293, 511-536, 604-608). -/
def settingsKeys (c : Cls) : List Str := (graphFields c).map Prod.fst

/-- `settings.load_dict(dct)` (settings.py:34-46): the loop runs over the keys and unpacks each key, a text,
into `var` and `value`. The texts of two characters give a one-character `var`, which is no attribute. -/
def loadKeys : List Str → PyM Ent Unit
  | [] => pure ()
  | key :: keys =>
    if key.length ≠ 2 then PyM.raise .valueError
    else do
      PyM.warn .settingUnknown
      loadKeys keys

end Ent
end Verif
