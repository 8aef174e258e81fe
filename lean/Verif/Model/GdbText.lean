import Verif.Model.Json
import Verif.Model.GdbDefault

/-
Model of the text of graph databases and settings: `TIMonoGDB.__format__("")` and `TIMonoGDB.load_string`
(`/repo/tivars/types/gdb.py:423-429, 692-694`), `SettingsEntry.__format__("")` and `SettingsEntry.load_string`
(`/repo/tivars/types/settings.py:25-50`).

Simplified as the dictionaries are (`Model/GdbDict.lean`): a text in which a key has a value of a kind that the code does not expect, or
that is `null`, is not modelled; reading it gives `none`.
-/

namespace Verif
namespace Ent
open Json
variable {V : Type} [LinearOrder V]

/-! ### Dictionaries as values of JSON -/

/-- A name or `None`. -/
def nameJson : Option Str → Json
  | none => .null
  | some s => .str s

/-- A number. -/
def numJson : JNum → Json
  | .float x => .float x
  | .int n => .int n
  | .str s => .str s

/-- The keys that are there. -/
def present (parts : List (String × Option Json)) : List (Str × Json) := parts.filterMap fun p => p.2.map fun j => (p.1.toList, j)

/-- `flags` in `equation.dict()` (gdb.py:325-329). -/
def flagsParts (f : EqFlags) : List (String × Option Json) :=
  [("selected", f.selected.map .bool), ("wasUsedForGraph", f.used.map .bool), ("linkTransfer", f.transfer.map .bool)]
def flagsJson (f : EqFlags) : Json := .obj (present (flagsParts f))

/-- `equation.dict()` (gdb.py:313-330) with the order of its keys. -/
def eqParts (q : EqDict) : List (String × Option Json) :=
  [("style", q.style.map nameJson), ("color", q.color.map nameJson), ("flags", q.flags.map flagsJson), ("expr", q.expr.map .str)]
def eqJson (q : EqDict) : Json := .obj (present (eqParts q))

/-- `colors` and `other` in `global84CSettings` (gdb.py:796-806). -/
def colorsParts (d : ColorDict) : List (String × Option Json) :=
  [("grid", d.grid.map nameJson), ("axes", d.axes.map nameJson), ("border", d.border.map .int)]
def otherParts (d : ColorDict) : List (String × Option Json) :=
  [("globalLineStyle", d.line.map nameJson), ("detectAsymptotes", d.detect.map .bool)]

/-- `global84CSettings` (gdb.py:794-807). -/
def colorParts (d : ColorDict) : List (String × Option Json) :=
  [("colors", some (.obj (present (colorsParts d)))), ("other", some (.obj (present (otherParts d))))]
def colorJson (d : ColorDict) : Json := .obj (present (colorParts d))

/-- Numbers by name. -/
def numbersJson (l : List (Str × JNum)) : Json := .obj (l.map fun kv => (kv.1, numJson kv.2))

/-- `specificData`, which all classes but the base class have (gdb.py:932-942, 1112-1124, 1248-1260, 1488-1508). -/
def specificParts (settings : List (Str × JNum)) (equations : List (Str × EqDict)) : List (String × Option Json) :=
  [("settings", some (numbersJson settings)), ("equations", some (.obj (equations.map fun kv => (kv.1, eqJson kv.2))))]
def specificJson (settings : List (Str × JNum)) (equations : List (Str × EqDict)) : Option Json :=
  if settings = [] ∧ equations = [] then none
  else some (.obj (present (specificParts settings equations)))

/-- `extSettings` (gdb.py:679-681, 1468-1474). -/
def extParts (showExpr : Option Bool) (extSeq : Option Str) : List (String × Option Json) :=
  [("showExpr", showExpr.map .bool), ("seqMode", extSeq.map .str)]

/-- `seqSettings` (gdb.py:1476-1488). -/
def seqJson (s : Str) : Json := .obj (present [("mode", some (.str s))])

/-- `gdb.dict()` with the order of its keys (gdb.py:663-690, 794-807, 975-976, 1465-1508). -/
def gdbParts (d : GdbDict JNum) : List (String × Option Json) :=
  [("graphMode", d.mode.map nameJson), ("formatSettings", some (.arr (d.format.map .str))),
   ("extSettings", some (.obj (present (extParts d.showExpr d.extSeq)))), ("globalWindowSettings", some (numbersJson d.window)),
   ("seqSettings", d.seqSettings.map seqJson), ("seqMode", d.seqMode.map .str),
   ("specificData", specificJson d.settings d.equations), ("global84CSettings", d.color.map colorJson)]

/-- `gdb.dict()` as a value of JSON. -/
def gdbJson (d : GdbDict JNum) : Json := .obj (present (gdbParts d))

/-- `str(gdb)`, that is `gdb.__format__("")` (gdb.py:423-429): `json.dumps(self.dict())`. -/
def gdbText (env : Env V) (nm : Bytes) (e : Ent) : PyM Unit Str := do
  let d ← gdbDict env nm (realIO env nm) e
  pure (dump (gdbJson d))

/-! ### Values of JSON as dictionaries -/

/-- A name or `None`. -/
def readName : Json → Option (Option Str)
  | .null => some none
  | .str s => some (some s)
  | _ => none

/-- A text. -/
def readStr : Json → Option Str
  | .str s => some s
  | _ => none

/-- A truth value. -/
def readBool : Json → Option Bool
  | .bool b => some b
  | _ => none

/-- An integer. -/
def readInt : Json → Option Int
  | .int n => some n
  | _ => none

/-- What `TIReal` takes. -/
def readNum : Json → Option JNum
  | .float x => some (.float x)
  | .int n => some (.int n)
  | .str s => some (.str s)
  | _ => none

/-- A dictionary. -/
def readObj : Json → Option (List (Str × Json))
  | .obj kvs => some kvs
  | _ => none

/-- A list. -/
def readArr : Json → Option (List Json)
  | .arr xs => some xs
  | _ => none

/-- `dct.get(key)`: the value of a key that may be absent. -/
def readKey {α : Type} (k : String) (f : Json → Option α) (kvs : List (Str × Json)) : Option (Option α) :=
  match kvs.lookup k.toList with
  | none => some none
  | some j => (f j).map some

/-- `dct.get(key, {})`. -/
def readDict (k : String) (kvs : List (Str × Json)) : Option (List (Str × Json)) :=
  match kvs.lookup k.toList with
  | none => some []
  | some j => readObj j

/-- All values of a dictionary. -/
def readValues {α : Type} (f : Json → Option α) : List (Str × Json) → Option (List (Str × α))
  | [] => some []
  | (k, j) :: kvs => do
    let x ← f j
    let xs ← readValues f kvs
    some ((k, x) :: xs)

/-- All items of a list. -/
def readItems {α : Type} (f : Json → Option α) : List Json → Option (List α)
  | [] => some []
  | j :: js => do
    let x ← f j
    let xs ← readItems f js
    some (x :: xs)

/-- The flags of an equation (gdb.py:306). -/
def readFlags (j : Json) : Option EqFlags := do
  let kvs ← readObj j
  let a ← readKey "selected" readBool kvs
  let b ← readKey "wasUsedForGraph" readBool kvs
  let c ← readKey "linkTransfer" readBool kvs
  some ⟨a, b, c⟩

/-- The dictionary of an equation (gdb.py:292-311). -/
def readEq (j : Json) : Option EqDict := do
  let kvs ← readObj j
  let s ← readKey "style" readName kvs
  let c ← readKey "color" readName kvs
  let f ← readKey "flags" readFlags kvs
  let x ← readKey "expr" readStr kvs
  some ⟨s, c, f, x⟩

/-- `global84CSettings` (gdb.py:776-792). -/
def readColors (j : Json) : Option ColorDict := do
  let kvs ← readObj j
  let cs ← readDict "colors" kvs
  let os ← readDict "other" kvs
  let g ← readKey "grid" readName cs
  let a ← readKey "axes" readName cs
  let b ← readKey "border" readInt cs
  let l ← readKey "globalLineStyle" readName os
  let d ← readKey "detectAsymptotes" readBool os
  some ⟨g, a, b, l, d⟩

/-- `seqSettings`: only whether it is there matters (gdb.py:621, 1457). -/
def readSeq (j : Json) : Option Str :=
  match j with
  | .obj kvs => some (((kvs.lookup "mode".toList).bind readStr).getD [])
  | _ => some []

/-- The keys of a dictionary that `load_dict` looks at (gdb.py:590-658, 773-792, 1446-1463). -/
def readGdb (kvs : List (Str × Json)) : Option (GdbDict JNum) := do
  let mode ← readKey "graphMode" readName kvs
  let format ← readKey "formatSettings" (fun j => (readArr j).bind (readItems readStr)) kvs
  let ext ← readDict "extSettings" kvs
  let showExpr ← readKey "showExpr" readBool ext
  let extSeq ← readKey "seqMode" readStr ext
  let seqSettings ← readKey "seqSettings" readSeq kvs
  let seqMode ← readKey "seqMode" readStr kvs
  let window ← readDict "globalWindowSettings" kvs
  let window ← readValues readNum window
  let data ← readDict "specificData" kvs
  let settings ← readDict "settings" data
  let settings ← readValues readNum settings
  let equations ← readDict "equations" data
  let equations ← readValues readEq equations
  let color ← readKey "global84CSettings" readColors kvs
  some ⟨mode, format.getD [], showExpr, extSeq, seqSettings, seqMode, window, settings, equations, color⟩

/-- `json.load(file)`, as the keys that `load_dict` looks at (gdb.py:925-928, 1095-1098, 1241-1244, 1439-1442). -/
def defaultDict (c : Cls) : Option (GdbDict JNum) :=
  match defaultText c with
  | none => none
  | some s =>
    match loads s with
    | .ok (.obj kvs) => readGdb kvs
    | _ => none

/-- `gdb.load_dict()` (gdb.py:590-604, 924-930, 1094-1100, 1240-1246, 1438-1444): the classes of the four modes take their default dictionary; the other classes look for
keys in `None`. -/
def loadDefault (env : Env V) (nm : Bytes) (eq : Str → PyM Unit Ent) : PyM Ent Unit := do
  let e ← PyM.get
  match defaultDict e.cls with
  | some d => loadGdbDict env nm (realIO env nm) eq d
  | none => do
    clear
    PyM.raise .attributeError

/-- `gdb.load_dict(dct)` for a value of JSON: a list, a text or a number has no `get` (gdb.py:590-604), which is found out after `clear`.
`null` is `None`, for which the classes of the four modes take the default dictionary (gdb.py:924-930). -/
def loadGdbJson (env : Env V) (nm : Bytes) (eq : Str → PyM Unit Ent) : Json → Option (PyM Ent Unit)
  | .null => some (loadDefault env nm eq)
  | .obj kvs => (readGdb kvs).map (loadGdbDict env nm (realIO env nm) eq)
  | _ => some (do
      clear
      PyM.raise .attributeError)

/-- `gdb.load_string(string)` (gdb.py:692-694). -/
def loadGdbString (env : Env V) (nm : Bytes) (eq : Str → PyM Unit Ent) (s : Str) : Option (PyM Ent Unit) :=
  match loads s with
  | .error x => some (PyM.raise x)
  | .ok j => loadGdbJson env nm eq j

/-! ### Settings -/

/-- `settings.dict()` (settings.py:268-293, 511-536, 604-608): fields that are checked to be whole are cut to integers. -/
def settingsDict (env : Env V) (nm : Bytes) (e : Ent) : PyM Unit (List (Str × JNum)) :=
  mapW (numberOut env nm (realIO env nm) e) ((graphFields e.cls).map fun f => (f.1, f.1, decide (f.2.2 ≠ .any)))

/-- `str(settings)` (settings.py:25-31). -/
def settingsText (env : Env V) (nm : Bytes) (e : Ent) : PyM Unit Str := do
  let d ← settingsDict env nm e
  pure (dump (numbersJson d))

/-- `GraphRealEntry(value)`: the class has no loader of its own, so numbers raise `NotImplementedError` (real.py:155-180), and for texts
the subclasses are tried, of which there are none (var.py:868-891). -/
def graphRealOf : JNum → PyM Ent Unit
  | .str _ => PyM.raise .valueError
  | _ => PyM.raise .notImplementedError

/-- The loop of `settings.load_dict` over pairs (settings.py:41-46). -/
def loadPairs (env : Env V) (nm : Bytes) : List (Str × JNum) → PyM Ent Unit
  | [] => pure ()
  | kv :: kvs => do
    let e ← PyM.get
    match (graphFields e.cls).lookup kv.1 with
    | none => do
      PyM.warn .settingUnknown
      loadPairs env nm kvs
    | some _ => do
      let _ ← PyM.lift (getField env nm kv.1 e)
      graphRealOf kv.2

/-- A pair of a name and a number, as a list. -/
def readPair : Json → Option (Str × JNum)
  | .arr [.str k, v] => (readNum v).map fun x => (k, x)
  | _ => none

/-- `settings.load_dict(value)` for a value of JSON: a dictionary is a loop over its keys; numbers and words are not iterable, and the
characters of a text cannot be unpacked. -/
def loadSettingsJson (env : Env V) (nm : Bytes) : Json → Option (PyM Ent Unit)
  | .obj kvs => some (loadKeys (kvs.map Prod.fst))
  | .arr xs => (readItems readPair xs).map (loadPairs env nm)
  | .str s => some (if s = [] then pure () else PyM.raise .valueError)
  | _ => some (PyM.raise .typeError)

/-- `settings.load_string(string)` (settings.py:48-50). -/
def loadSettingsString (env : Env V) (nm : Bytes) (s : Str) : Option (PyM Ent Unit) :=
  match loads s with
  | .error x => some (PyM.raise x)
  | .ok j => loadSettingsJson env nm j

end Ent
end Verif
