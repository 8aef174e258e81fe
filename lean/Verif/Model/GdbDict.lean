import Verif.Model.Gdb
import Verif.Model.Tokenized
import Verif.Model.ArrayText

/-
Model of the dictionaries of graph databases (`/repo/tivars/types/gdb.py:21-148, 292-330, 590-690, 741-807, 924-962, 1088-1163, 1240-1294, 1432-1545`).

A dictionary read from JSON is modelled by the keys the code looks at; a key that is absent is `none`. Simplified:
keys with a value of another kind than the one expected are only modelled where a `null` can come from the code
itself, and a name given in a dictionary that is an attribute of the class other than the ones intended (`"get"`,
`"_all"`, …) is taken for an unknown name. The conversions of the numbers of JSON are
parameters; `Model/JsonNumber` has those of the code.
-/

namespace Verif
namespace Ent
variable {V : Type} [LinearOrder V]

/-- `GraphStyle` (gdb.py:66-80). -/
def styleNames : List (Str × Int) :=
  [("SolidLine".toList, 0x00), ("ThickLine".toList, 0x01), ("ShadeAbove".toList, 0x02), ("ShadeBelow".toList, 0x03),
   ("Trace".toList, 0x04), ("Animate".toList, 0x05), ("DottedLine".toList, 0x06)]

/-- `GlobalLineStyle` (gdb.py:110-121). -/
def lineNames : List (Str × Int) :=
  [("Thick".toList, 0x00), ("DotThick".toList, 0x01), ("Thin".toList, 0x02), ("DotThin".toList, 0x03)]

/-- `BorderColor.COLORS` (gdb.py:124-135). -/
def borderColors : List Int := [0x01, 0x02, 0x03, 0x04]

/-- `GraphMode` (gdb.py:21-50). -/
def modeNames : List (Str × FlagItems) :=
  [("Dot".toList, [(0, true)]), ("Connected".toList, [(0, false)]),
   ("Simul".toList, [(1, true)]), ("Sequential".toList, [(1, false)]),
   ("GridOn".toList, [(2, true), (7, false)]), ("GridOff".toList, [(2, false), (7, false)]),
   ("GridLine".toList, [(2, true), (7, true)]), ("GridDot".toList, [(2, true), (7, false)]),
   ("PolarGC".toList, [(3, true)]), ("RectGC".toList, [(3, false)]),
   ("CoordOn".toList, [(4, false)]), ("CoordOff".toList, [(4, true)]),
   ("AxesOff".toList, [(5, true)]), ("AxesOn".toList, [(5, false)]),
   ("LabelOn".toList, [(6, true)]), ("LabelOff".toList, [(6, false)]),
   ("ExprOff".toList, [(0, true)]), ("ExprOn".toList, [(0, false)]),
   ("SEQ_n".toList, [(1, false), (2, false)]), ("SEQ_np1".toList, [(1, true), (2, false)]),
   ("SEQ_np2".toList, [(1, false), (2, true)]),
   ("DetectAsymptotesOff".toList, [(0, true)]), ("DetectAsymptotesOn".toList, [(0, false)])]

/-- `SeqMode` (gdb.py:53-63). -/
def seqModes : List (Str × FlagItems) :=
  [("Time".toList, [(0, false), (1, false), (2, false), (3, false), (4, false)]),
   ("Web".toList, [(0, true), (1, false), (2, false), (3, false), (4, false)]),
   ("VertWeb".toList, [(0, false), (1, true), (2, false), (3, false), (4, false)]),
   ("uv".toList, [(0, false), (1, false), (2, true), (3, false), (4, false)]),
   ("vw".toList, [(0, false), (1, false), (2, false), (3, true), (4, false)]),
   ("uw".toList, [(0, false), (1, false), (2, false), (3, false), (4, true)])]

/-- `Enum.get_name` (flags.py:61-70): the name of a value, or `None`. No two members of an enum have the same
value, so the order of `dir` does not matter. -/
def getName (names : List (Str × Int)) (v : Int) : Option Str := (names.find? fun p => p.2 = v).map Prod.fst

/-- `getattr(Enum, name)`, where `name` may be `None`. -/
def getAttr {α : Type} (names : List (Str × α)) : Option Str → Except PyErr α
  | none => .error .typeError
  | some s =>
    match names.lookup s with
    | some v => .ok v
    | none => .error .attributeError

/-- `dct[key]`. -/
def getKey {α : Type} : Option α → Except PyErr α
  | some v => .ok v
  | none => .error .keyError

/-- `for x in xs: f(x)`. -/
def eachM {σ α : Type} (f : α → PyM σ Unit) : List α → PyM σ Unit
  | [] => pure ()
  | x :: xs => do
    f x
    eachM f xs

/-- `lst[i]`, counted from the end if negative. -/
def pyIndex {α : Type} (l : List α) (i : Int) : Except PyErr α :=
  let k := if i < 0 then i + l.length else i
  if k < 0 then .error .indexError
  else match l[k.toNat]? with
    | some a => .ok a
    | none => .error .indexError

/-! ### Graphed equations -/

/-- The three flags in the dictionary of an equation. -/
structure EqFlags where
  selected : Option Bool
  used : Option Bool
  transfer : Option Bool
  deriving DecidableEq, Repr

/-- The dictionary of an equation: `style`, `color`, `flags` and `expr`. -/
structure EqDict where
  style : Option (Option Str)
  color : Option (Option Str)
  flags : Option EqFlags
  expr : Option Str
  deriving DecidableEq, Repr

/-- `equation.style = value` (gdb.py:245): `Section(1, GraphStyle)`. -/
def putStyle (v : Int) : PyM GEq Unit := do
  let g ← PyM.get
  let b ← PyM.lift (setRaw (enumConv (styleNames.map Prod.snd)) (some 1) g.style v)
  PyM.set { g with style := b }

/-- `equation.color = value` (gdb.py:253): `Section(1, GraphColor)`. -/
def putColor (v : Int) : PyM GEq Unit := do
  let g ← PyM.get
  let b ← PyM.lift (setRaw (enumConv (colorNames.map Prod.snd)) (some 1) g.color v)
  PyM.set { g with color := b }

/-- `equation.flags = value` (gdb.py:265). -/
def putEqFlags (f : FlagItems) : PyM GEq Unit := ⟨fun g =>
  match eqFlagsView.put f ⟨true, g.body⟩ with
  | ⟨r, b, w⟩ => ⟨r, { g with body := b.bytes }, w⟩⟩

/-- `equation.flags |= value`. -/
def orEqFlags (s : FlagItems) : PyM GEq Unit := do
  let g ← PyM.get
  let f ← PyM.ofExcept (eqFlagsView.get ⟨true, g.body⟩)
  putEqFlags (flagsUpdate f s)

/-- `TIEquation(expr)` for a text (tokenized.py:165-178): `nm` is the encoded default name of equations. -/
def equationOf (env : Env V) (trie : Trie (Tok V)) (mode : EncMode) (nm : Bytes) (expr : Str) : PyM Unit Ent :=
  new env .equation { name := nm } [] (loadString env trie mode expr)

/-- `equation.load_dict(dct)` (gdb.py:292-311); `eq` is `TIEquation(expr)`. -/
def loadEqDict (eq : Str → PyM Unit Ent) (d : EqDict) : PyM GEq Unit := do
  let s ← PyM.ofExcept (getKey d.style)
  let v ← PyM.ofExcept (getAttr styleNames s)
  putStyle v
  let s ← PyM.ofExcept (getKey d.color)
  let v ← PyM.ofExcept (getAttr colorNames s)
  putColor v
  let t ← PyM.ofExcept (getKey d.expr)
  let q ← PyM.lift (eq t)
  PyM.modify fun g => loadEquation g q
  let f ← PyM.ofExcept (getKey d.flags)
  putEqFlags (flagsInit [(1, true), (0, true)])
  orEqFlags [(5, f.selected.getD false)]
  orEqFlags [(6, f.used.getD false)]
  orEqFlags [(7, f.transfer.getD false)]

/-- `equation.string()` (var.py:893-898, tokenized.py:45-90): the texts of the tokens of `data`. -/
def GEq.string (env : Env V) (g : GEq) : PyM Unit Str := do
  PyM.warnAll (decode env.initial env.table g.data).warns
  pure ((decode env.initial env.table g.data).out.flatMap Tok.display)

/-- `equation.dict()` (gdb.py:313-330). -/
def GEq.dict (env : Env V) (g : GEq) : PyM Unit EqDict := do
  let s ← PyM.ofExcept (sectionGet (enumConv (styleNames.map Prod.snd)) ⟨false, g.style⟩)
  let c ← PyM.ofExcept (sectionGet (enumConv (colorNames.map Prod.snd)) ⟨false, g.color⟩)
  let f ← PyM.ofExcept (eqFlagsView.get ⟨true, g.body⟩)
  let a ← PyM.ofExcept (flagsContains f [(5, true)])
  let b ← PyM.ofExcept (flagsContains f [(6, true)])
  let t ← PyM.ofExcept (flagsContains f [(7, true)])
  let expr ← g.string env
  pure ⟨some (getName styleNames s), if c ≠ 0x00 then some (getName colorNames c) else none,
    some ⟨some a, some b, some t⟩, some expr⟩

/-! ### Graph databases -/

/-- `global84CSettings`: `colors` with `grid`, `axes` and `border`, `other` with `globalLineStyle` and
`detectAsymptotes`. An empty `colors` or `other` is the same as none. -/
structure ColorDict where
  grid : Option (Option Str)
  axes : Option (Option Str)
  border : Option Int
  line : Option (Option Str)
  detect : Option Bool
  deriving DecidableEq, Repr

/-- The dictionary of a graph database; `J` are the numbers of JSON. `mode` is `graphMode`, `format` is
`formatSettings`, `showExpr` and `extSeq` are the keys of `extSettings`, `seqSettings` is its `mode`, `seqMode` is a
key of the dictionary itself, `window` is `globalWindowSettings`, `settings` and `equations` are those of
`specificData`, `color` is `global84CSettings`. -/
structure GdbDict (J : Type) where
  mode : Option (Option Str)
  format : List Str
  showExpr : Option Bool
  extSeq : Option Str
  seqSettings : Option Str
  seqMode : Option Str
  window : List (Str × J)
  settings : List (Str × J)
  equations : List (Str × EqDict)
  color : Option ColorDict
  deriving DecidableEq, Repr

/-- The conversions between numbers and JSON: `TIReal(value)`, `real.json_number()`, `int(real)`, and what the
checked fields ask (`fieldCheck`). -/
structure NumIO (J : Type) where
  real : J → PyM Unit Ent
  json : Ent → Except PyErr J
  int : Ent → Except PyErr J
  num : Ent → Except PyErr (Int × Bool)

/-- `equation_names` (gdb.py:409, 838, 992, 1174, 1310). -/
def equationNames : Cls → List Str
  | .monoFunc | .func => ["Y1".toList, "Y2".toList, "Y3".toList, "Y4".toList, "Y5".toList, "Y6".toList, "Y7".toList,
      "Y8".toList, "Y9".toList, "Y0".toList]
  | .monoParam | .param => ["X1T".toList, "Y1T".toList, "X2T".toList, "Y2T".toList, "X3T".toList, "Y3T".toList,
      "X4T".toList, "Y4T".toList, "X5T".toList, "Y5T".toList, "X6T".toList, "Y6T".toList]
  | .monoPolar | .polar => ["r1".toList, "r2".toList, "r3".toList, "r4".toList, "r5".toList, "r6".toList]
  | .monoSeq | .seq => ["u".toList, "v".toList, "w".toList]
  | _ => []

/-- `mode_flags`, `extended_mode_flags`, `sequence_flags`, `color_mode_flags` (gdb.py:446-460, 1322-1326, 765-771). -/
def flagsViewAt (start : Int) (stop : Option Int) : View FlagItems :=
  View.mk' none flagsConv { start := some start, stop := stop }
def modeFlagsView : View FlagItems := flagsViewAt 4 (some 5)
def extFlagsView : View FlagItems := flagsViewAt 6 (some 7)
def seqFlagsView : View FlagItems := flagsViewAt 5 (some 6)
def colorFlagsView : View FlagItems := flagsViewAt (-1) none

/-- `gdb.flags |= value` for one of these views. -/
def orFlags (v : View FlagItems) (s : FlagItems) : PyM Ent Unit := do
  let e ← PyM.get
  let f ← PyM.ofExcept (viewGet v e)
  viewPut v (flagsUpdate f s)

/-- `global_line_style`, `border_color` (gdb.py:753-763). -/
def lineView : View Int := enumViewAt lineNames (-3) (-2)
def borderView : View Int := View.mk' none (enumConv borderColors) { start := some (-2), stop := some (-1) }

/-- `color_magic` (gdb.py:956, 1138, 1274, 1522): `View(calc_data, String)`. -/
def magicView : Cls → Option (View Str)
  | .func => some (View.mk' none strConv { start := some (-18), stop := some (-15) })
  | .param | .polar => some (View.mk' none strConv { start := some (-14), stop := some (-11) })
  | .seq => some (View.mk' none strConv { start := some (-11), stop := some (-8) })
  | _ => none

/-- The modes by name (gdb.py:599-604). -/
def modeByte : Option (Option Str) → UInt8
  | none => 0x10
  | some none => 0x00
  | some (some m) =>
    if m = "Function".toList then 0x10
    else if m = "Parametric".toList then 0x40
    else if m = "Polar".toList then 0x20
    else if m = "Sequence".toList then 0x80
    else 0x00

/-- One of the `formatSettings` (gdb.py:607-613). -/
def loadFormat (s : Str) : PyM Ent Unit :=
  match modeNames.lookup s with
  | some f => orFlags modeFlagsView f
  | none => PyM.warn .gdbFormat

/-- One of the `globalWindowSettings` or `settings` (gdb.py:626-640): `hasattr` reads the field. -/
def loadNumber {J : Type} (env : Env V) (nm : Bytes) (io : NumIO J) (kv : Str × J) : PyM Ent Unit := do
  let e ← PyM.get
  match (graphFields e.cls).lookup kv.1 with
  | none => PyM.warn .settingUnknown
  | some _ => do
    let _ ← PyM.lift (getField env nm kv.1 e)
    let v ← PyM.lift (io.real kv.2)
    setField io.num kv.1 v

/-- One of the `equations` (gdb.py:643-651). -/
def loadEntry (eq : Str → PyM Unit Ent) (kv : Str × EqDict) : PyM Ent Unit := do
  let e ← PyM.get
  match (equationNames e.cls).idxOf? kv.1 with
  | none => PyM.warn .gdbEquation
  | some i => do
    let g ← PyM.lift ⟨fun s => match loadEqDict eq kv.2 freshEquation with
      | ⟨.error x, _, ws⟩ => ⟨.error x, s, ws⟩
      | ⟨.ok (), g, ws⟩ => ⟨.ok g, s, ws⟩⟩
    setEquation i g

/-- `color_magic = "84C"` for the classes that have it (gdb.py:774). -/
def putMagic (c : Cls) : PyM Ent Unit :=
  match magicView c with
  | some v => viewPut v "84C".toList
  | none => pure ()

/-- `if key in colors: view = getattr(names, colors[key])` (gdb.py:777-781, 787-788). -/
def putEnum (names : List (Str × Int)) (v : View Int) : Option (Option Str) → PyM Ent Unit
  | some s => do
    let x ← PyM.ofExcept (getAttr names s)
    viewPut v x
  | none => pure ()

/-- `border_color = BorderColor.COLORS[n - 1]` (gdb.py:783-784). -/
def putBorder : Option Int → PyM Ent Unit
  | some n => do
    let v ← PyM.ofExcept (pyIndex borderColors (n - 1))
    viewPut borderView v
  | none => pure ()

/-- `color_mode_flags |= …` (gdb.py:790-792). -/
def putDetect : Option Bool → PyM Ent Unit
  | some b => orFlags colorFlagsView [(0, !b)]
  | none => pure ()

/-- `TIGDB._load_dict` (gdb.py:773-792). -/
def loadColors (d : Option ColorDict) : PyM Ent Unit := do
  let e ← PyM.get
  putMagic e.cls
  match d with
  | none => pure ()
  | some d => do
    putEnum colorNames gridView d.grid
    putEnum colorNames axesView d.axes
    putBorder d.border
    putEnum lineNames lineView d.line
    putDetect d.detect

/-- `TIMonoParamGDB._load_dict` (gdb.py:1102-1110). -/
def loadComponents : PyM Ent Unit := do
  let e ← PyM.get
  eachM (fun i => do
    let x ← PyM.ofExcept (wrapIndexError (pyIndex (getEquations e) (2 * i : Nat)))
    let y ← PyM.ofExcept (wrapIndexError (pyIndex (getEquations e) (2 * i + 1 : Nat)))
    if x.style ≠ y.style then PyM.warn .gdbComponents else pure ()
    if x.color ≠ y.color then PyM.warn .gdbComponents else pure ()) (List.range (gdbCounts e.cls).2.2)

/-- `TIMonoSeqGDB._load_dict` (gdb.py:1446-1463). -/
def loadSequence {J : Type} (d : GdbDict J) : PyM Ent Unit := do
  match d.extSeq with
  | some s =>
    if s = "SEQ(n)".toList then orFlags extFlagsView [(1, false), (2, false)]
    else if s = "SEQ(n+1)".toList then orFlags extFlagsView [(1, true), (2, false)]
    else if s = "SEQ(n+2)".toList then orFlags extFlagsView [(1, false), (2, true)]
    else pure ()
  | none => pure ()
  match d.seqSettings with
  | some _ => do
    let s ← PyM.ofExcept (getKey d.seqMode)
    match seqModes.lookup s with
    | some f => orFlags seqFlagsView f
    | none => PyM.warn .gdbSeqMode
  | none => pure ()

/-- `gdb._load_dict(dct)` by class (gdb.py:660-661, 773-792, 971-973, 1102-1110, 1153-1155, 1289-1291, 1446-1463, 1537-1539). -/
def loadSpecific {J : Type} (d : GdbDict J) : PyM Ent Unit := do
  let e ← PyM.get
  match e.cls with
  | .monoParam => loadComponents
  | .monoSeq => loadSequence d
  | .gdb | .func | .polar => loadColors d.color
  | .param => do
    loadComponents
    loadColors d.color
  | .seq => do
    loadSequence d
    loadColors d.color
  | _ => pure ()

/-- `showExpr` (gdb.py:616-618). -/
def putShowExpr : Option Bool → PyM Ent Unit
  | some b => orFlags extFlagsView [(0, !b)]
  | none => pure ()

/-- Settings of sequences in a dictionary of another mode (gdb.py:620-623): `null` as the mode has no `lower`. -/
def checkSequence {J : Type} (d : GdbDict J) : PyM Ent Unit :=
  if modeByte d.mode ≠ 0x80 ∧ (d.extSeq ≠ none ∨ d.seqSettings ≠ none) then
    if d.mode = some none then PyM.raise .attributeError else PyM.warn .gdbSequence
  else pure ()

/-- `if "global84CSettings" in dct: self.__class__ = TIGDB` (gdb.py:653-655). -/
def widenClass {J : Type} (d : GdbDict J) : PyM Ent Unit :=
  if d.color ≠ none then setClass .gdb else pure ()

/-- `gdb.load_dict(dct)` (gdb.py:590-658); `eq` is `TIEquation(expr)` and `nm` the encoded default name of
numbers. -/
def loadGdbDict {J : Type} (env : Env V) (nm : Bytes) (io : NumIO J) (eq : Str → PyM Unit Ent) (d : GdbDict J) :
    PyM Ent Unit := do
  clear
  PyM.modify fun e => { e with body := ⟨true, setSlice e.body.bytes { start := some 3, stop := some 4 } [modeByte d.mode]⟩ }
  eachM loadFormat d.format
  putShowExpr d.showExpr
  checkSequence d
  eachM (loadNumber env nm io) d.window
  eachM (loadNumber env nm io) d.settings
  eachM (loadEntry eq) d.equations
  widenClass d
  coerce env
  loadSpecific d

/-- The keys of `settings` in `gdb.dict()`, with the field each is taken from and whether it is an integer
(gdb.py:935-937, 1115-1119, 1251-1255, 1491-1502). -/
def numberKeys : Cls → List (Str × Str × Bool)
  | .monoFunc | .func => [("Xres".toList, "Xres".toList, true)]
  | .monoParam | .param => [("Tmin".toList, "Tmin".toList, false), ("Tmax".toList, "Tmax".toList, false),
      ("Tstep".toList, "Tstep".toList, false)]
  | .monoPolar | .polar => [("Thetamin".toList, "Thetamin".toList, false),
      ("Thetamax".toList, "Thetamax".toList, false), ("Thetastep".toList, "Thetastep".toList, false)]
  | .monoSeq | .seq => [("nMin".toList, "nMin".toList, true), ("nMax".toList, "nMax".toList, true),
      ("PlotStart".toList, "PlotStart".toList, true), ("PlotStep".toList, "PlotStep".toList, true),
      ("unMin".toList, "unMin".toList, false), ("unMinp1".toList, "unMinp1".toList, false),
      ("vnMin".toList, "vnMinp1".toList, false), ("vnMinp1".toList, "vnMinp1".toList, false),
      ("wnMin".toList, "wnMin".toList, false), ("wnMinp1".toList, "wnMinp1".toList, false)]
  | _ => []

/-- The keys of `globalWindowSettings` (gdb.py:683-690). -/
def windowKeys : List (Str × Str × Bool) :=
  [("Xmin".toList, "Xmin".toList, false), ("Xmax".toList, "Xmax".toList, false),
   ("Xscl".toList, "Xscl".toList, false), ("Ymin".toList, "Ymin".toList, false),
   ("Ymax".toList, "Ymax".toList, false), ("Yscl".toList, "Yscl".toList, false)]

/-- A number for the dictionary. -/
def numberOut {J : Type} (env : Env V) (nm : Bytes) (io : NumIO J) (e : Ent) (k : Str × Str × Bool) :
    PyM Unit (Str × J) := do
  let v ← getField env nm k.2.1 e
  let j ← PyM.ofExcept (if k.2.2 then io.int v else io.json v)
  pure (k.1, j)

/-- `gdb.mode` (gdb.py:498-518). -/
def modeName (e : Ent) : PyM Unit (Option Str) :=
  if e.modeId = 0x10 then pure (some "Function".toList)
  else if e.modeId = 0x40 then pure (some "Parametric".toList)
  else if e.modeId = 0x20 then pure (some "Polar".toList)
  else if e.modeId = 0x80 then pure (some "Sequence".toList)
  else do
    PyM.warn .gdbMode
    pure none

/-- `"a" if flag in flags else "b"`. -/
def choose (f flag : FlagItems) (a b : String) : PyM Unit Str := do
  let r ← PyM.ofExcept (flagsContains f flag)
  pure (if r then a.toList else b.toList)

/-- The first of the names whose flags are contained. -/
def firstMode (f : FlagItems) : List (Str × FlagItems) → PyM Unit (Option Str)
  | [] => pure none
  | (s, flag) :: rest => do
    let r ← PyM.ofExcept (flagsContains f flag)
    if r then pure (some s) else firstMode f rest

/-- The sequence modes named in `extSettings` (gdb.py:1468-1474). -/
def extSeqNames : List (Str × FlagItems) :=
  [("SEQ(n)".toList, [(1, false), (2, false)]), ("SEQ(n+1)".toList, [(1, true), (2, false)]),
   ("SEQ(n+2)".toList, [(1, false), (2, true)])]

/-- `formatSettings` (gdb.py:670-678). -/
def formatOut (f : FlagItems) : PyM Unit (List Str) := do
  let a ← choose f [(0, true)] "Dot" "Connected"
  let b ← choose f [(1, true)] "Simul" "Sequential"
  let c ← choose f [(2, true), (7, false)] "GridOn" "GridOff"
  let d ← choose f [(3, true)] "PolarGC" "RectGC"
  let g ← choose f [(4, true)] "CoordOff" "CoordOn"
  let h ← choose f [(5, true)] "AxesOff" "AxesOn"
  let i ← choose f [(6, true)] "LabelOn" "LabelOff"
  pure [a, b, c, d, g, h, i]

/-- `global84CSettings` (gdb.py:794-807). -/
def colorsOut (e : Ent) : PyM Unit ColorDict := do
  let g ← PyM.ofExcept (viewGet gridView e)
  let a ← PyM.ofExcept (viewGet axesView e)
  let b ← PyM.ofExcept (viewGet borderView e)
  let l ← PyM.ofExcept (viewGet lineView e)
  let f ← PyM.ofExcept (viewGet colorFlagsView e)
  let d ← PyM.ofExcept (flagsContains f [(0, false)])
  pure ⟨some (getName colorNames g), some (getName colorNames a), some b, some (getName lineNames l), some d⟩

/-- `gdb.dict()` (gdb.py:663-690, 794-807, 932-942, 975-976, 1112-1124, 1157-1158, 1248-1260, 1293-1294, 1465-1508, 1541-1542), of every class but
`TIGDB`, whose dictionary has the colours only. The JSON name of an equation (gdb.py:279-285) is the name it was
made with. -/
def gdbDict {J : Type} (env : Env V) (nm : Bytes) (io : NumIO J) (e : Ent) : PyM Unit (GdbDict J) := do
  let mode ← modeName e
  let f ← PyM.ofExcept (viewGet modeFlagsView e)
  let format ← formatOut f
  let x ← PyM.ofExcept (viewGet extFlagsView e)
  let showExpr ← PyM.ofExcept (flagsContains x [(0, false)])
  let window ← mapW (numberOut env nm io e) windowKeys
  let extSeq ← if e.cls.isSub .monoSeq then firstMode x extSeqNames else pure none
  let seqSettings ← if e.cls.isSub .monoSeq then do
      let s ← PyM.ofExcept (viewGet seqFlagsView e)
      firstMode s seqModes
    else pure none
  let settings ← mapW (numberOut env nm io e) (numberKeys e.cls)
  let eqs ← mapW (GEq.dict env) (getEquations e)
  if e.cls.isSub .gdb then do
    let c ← colorsOut e
    pure ⟨some mode, format, some showExpr, extSeq, seqSettings, none, window, settings,
      (equationNames e.cls).zip eqs, some c⟩
  else pure ⟨some mode, format, some showExpr, extSeq, seqSettings, none, window, settings,
      (equationNames e.cls).zip eqs, none⟩

end Ent
end Verif
