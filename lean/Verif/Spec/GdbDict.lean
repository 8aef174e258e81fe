import Verif.Model.GdbDict
import Verif.Spec.Gdb
import Verif.Spec.Array

/-! Specifications for the dictionaries of graph databases: what each key says about the bytes. -/

namespace Verif.Spec
open Ent

/-- The styles of curves, in the order of their codes. -/
def graphStyles : List String :=
  ["SolidLine", "ThickLine", "ShadeAbove", "ShadeBelow", "Trace", "Animate", "DottedLine"]

/-- The colours, in the order of their codes. -/
def graphColors : List String :=
  ["Mono", "Blue", "Red", "Black", "Magenta", "Green", "Orange", "Brown", "Navy", "LtBlue", "Yellow", "White",
   "LtGray", "MedGray", "Gray", "DarkGray"]

/-- The line styles, in the order of their codes. -/
def lineStyles : List String := ["Thick", "DotThick", "Thin", "DotThin"]

/-- The names of the equations of each kind of database, in order. -/
def curveNames : Cls → List String
  | .monoFunc | .func => ["Y1", "Y2", "Y3", "Y4", "Y5", "Y6", "Y7", "Y8", "Y9", "Y0"]
  | .monoParam | .param => ["X1T", "Y1T", "X2T", "Y2T", "X3T", "Y3T", "X4T", "Y4T", "X5T", "Y5T", "X6T", "Y6T"]
  | .monoPolar | .polar => ["r1", "r2", "r3", "r4", "r5", "r6"]
  | .monoSeq | .seq => ["u", "v", "w"]
  | _ => []

/-- The graphing mode of each kind of database and its code. -/
def plotMode : Cls → String × UInt8
  | .monoFunc | .func => ("Function", 0x10)
  | .monoPolar | .polar => ("Polar", 0x20)
  | .monoParam | .param => ("Parametric", 0x40)
  | _ => ("Sequence", 0x80)

/-- The databases with colours. -/
def colored : Cls → Bool
  | .func | .param | .polar | .seq => true
  | _ => false

/-- The code a name stands for. -/
def codeIn (names : List String) : Option (Option Str) → UInt8
  | some (some s) => UInt8.ofNat ((names.map String.toList).idxOf s)
  | _ => 0x00

/-- The name is one of the list. -/
def NamedIn (names : List String) (s : Option (Option Str)) : Prop :=
  ∃ n ∈ names, s = some (some n.toList)

/-- The flags of an equation: three bits say that it is selected, was graphed and is being sent; the low bits
are those of every equation. -/
def eqFlagByte (f : EqFlags) : UInt8 :=
  (if f.transfer = some true then 0x80 else 0) + (if f.used = some true then 0x40 else 0) +
    (if f.selected = some true then 0x20 else 0) + 0x03

/-- The bits each of the format settings stands for. -/
def formatBits : List (String × List (Nat × Bool)) :=
  [("Dot", [(0, true)]), ("Connected", [(0, false)]), ("Simul", [(1, true)]), ("Sequential", [(1, false)]),
   ("GridOn", [(2, true), (7, false)]), ("GridOff", [(2, false), (7, false)]),
   ("GridLine", [(2, true), (7, true)]), ("GridDot", [(2, true), (7, false)]),
   ("PolarGC", [(3, true)]), ("RectGC", [(3, false)]), ("CoordOn", [(4, false)]), ("CoordOff", [(4, true)]),
   ("AxesOff", [(5, true)]), ("AxesOn", [(5, false)]), ("LabelOn", [(6, true)]), ("LabelOff", [(6, false)])]

/-- What a format setting says about a bit. -/
def formatSays (s : Str) (k : Nat) : Option Bool :=
  match formatBits.find? fun f => f.1.toList = s with
  | some f => f.2.lookup k
  | none => none

/-- The value of a bit after a list of format settings: the last one that says anything about it decides. -/
def formatBit (k : Nat) : List Str → Bool → Bool
  | [], b => b
  | s :: ss, b => formatBit k ss ((formatSays s k).getD b)

/-- The last value given for a key. -/
def lastFor {α : Type} (key : Str) : List (Str × α) → Option α
  | [] => none
  | (k, v) :: rest => (lastFor key rest).or (if k = key then some v else none)

/-- The size of a database without tokens, its length field not counted. -/
def emptySize (c : Cls) : Nat :=
  fieldStart c (fieldNames c).length - 2 + styleCount c + 3 * equationCount c +
    if colored c then 8 + styleCount c else 0

/-- The byte of extended settings: whether expressions are hidden and, for sequences, which form they have. -/
def extByte (showExpr : Option Bool) (form : Option Str) : UInt8 :=
  (if showExpr = some false then 1 else 0) +
    if form = some "SEQ(n+1)".toList then 2 else if form = some "SEQ(n+2)".toList then 4 else 0

/-- The forms of sequences. -/
def seqForms : List String := ["SEQ(n)", "SEQ(n+1)", "SEQ(n+2)"]

/-- The modes of sequences, in the order of their bits. -/
def seqModeCodes : List (String × UInt8) :=
  [("Time", 0x00), ("Web", 0x01), ("VertWeb", 0x02), ("uv", 0x04), ("vw", 0x08), ("uw", 0x10)]

/-- The byte of the mode of sequences: zero unless there are settings of sequences. -/
def seqByte (settings mode : Option Str) : UInt8 :=
  if settings = none then 0x00
  else ((seqModeCodes.find? fun m => some m.1.toList = mode).map Prod.snd).getD 0x00

/-- The five bytes of colour settings. -/
def colorBytes : Option ColorDict → Bytes
  | none => [0, 0, 0, 0, 0]
  | some d => [codeIn graphColors d.grid, codeIn graphColors d.axes, codeIn lineStyles d.line,
      UInt8.ofNat (d.border.getD 0).toNat, if d.detect = some false then 1 else 0]

/-- A dictionary of an equation in which everything is known. -/
structure KnownEq (q : EqDict) : Prop where
  style : NamedIn graphStyles q.style
  color : NamedIn graphColors q.color
  flags : q.flags ≠ none
  expr : q.expr ≠ none

/-- The colours of a dictionary are known. -/
structure KnownColors (d : ColorDict) : Prop where
  grid : d.grid ≠ none → NamedIn graphColors d.grid
  axes : d.axes ≠ none → NamedIn graphColors d.axes
  line : d.line ≠ none → NamedIn lineStyles d.line
  border : ∀ n, d.border = some n → 1 ≤ n ∧ n ≤ 4

/-- A dictionary in which everything is known and meant for the kind of database. -/
structure KnownGdb {J : Type} (c : Cls) (d : GdbDict J) : Prop where
  mode : d.mode = some (some (plotMode c).1.toList)
  format : ∀ s ∈ d.format, ∃ f ∈ formatBits, s = f.1.toList
  form : ∀ s, d.extSeq = some s → (plotMode c).1 = "Sequence" ∧ ∃ n ∈ seqForms, s = n.toList
  numbers : ∀ kv ∈ d.window ++ d.settings, ∃ n ∈ fieldNames c, kv.1 = n.toList
  curves : ∀ kv ∈ d.equations, (∃ n ∈ curveNames c, kv.1 = n.toList) ∧ KnownEq kv.2
  colors : ∀ cd, d.color = some cd → colored c = true ∧ KnownColors cd

/-- The settings of sequences come with a mode of sequences that is known. -/
def KnownSeq {J : Type} (c : Cls) (d : GdbDict J) : Prop :=
  d.seqSettings ≠ none → (plotMode c).1 = "Sequence" ∧ ∃ m ∈ seqModeCodes, d.seqMode = some m.1.toList

/-- The equation described by a dictionary. -/
def saidCurve (tok : Str → Bytes) (q : EqDict) : PlotEq :=
  ⟨eqFlagByte (q.flags.getD ⟨none, none, none⟩), tok (q.expr.getD [])⟩

/-- The database says what the dictionary says: `val` are the numbers of JSON and `tok` the tokens of texts.
What is not mentioned is zero. -/
structure Says {J : Type} (c : Cls) (d : GdbDict J) (val : J → Bytes) (tok : Str → Bytes) (p : Plot) : Prop where
  fits : p.Fits c
  start : p.head.take 4 = toLE 2 (emptySize c) ++ [0x00, (plotMode c).2]
  format : ∀ k < 8, ((p.head.getD 4 0).toNat.testBit k) = formatBit k d.format false
  seq : p.head.getD 5 0 = seqByte d.seqSettings d.seqMode
  ext : p.head.getD 6 0 = extByte d.showExpr d.extSeq
  numbers : ∀ (i : Nat) (n : String), (fieldNames c)[i]? = some n →
    fieldBytes c i p.head = ((lastFor n.toList (d.window ++ d.settings)).map val).getD (List.replicate 9 0)
  curves : ∀ (i : Nat) (n : String), (curveNames c)[i]? = some n →
    p.eqs[i]? = some (((lastFor n.toList d.equations).map (saidCurve tok)).getD ⟨0x00, []⟩)
  styles : ∀ (i : Nat) (n : String), (curveNames c)[i * sharing c]? = some n →
    p.styles[i]? = some (((lastFor n.toList d.equations).map fun q => codeIn graphStyles q.style).getD 0x00)
  mono : colored c = false → p.tail = none
  colors : colored c = true → ∃ t, p.tail = some t ∧ t.magic = [0x38, 0x34, 0x43] ∧
    t.settings = colorBytes d.color ∧ ∀ (i : Nat) (n : String), (curveNames c)[i * sharing c]? = some n →
      t.colors[i]? = some (((lastFor n.toList d.equations).map fun q => codeIn graphColors q.color).getD 0x00)

/-- The number of JSON converts. -/
structure Converts {J : Type} (io : NumIO J) (val : J → Ent) (j : J) : Prop where
  real : io.real j () = ⟨.ok (val j), (), []⟩
  elem : RealElem (val j)
  num : ∃ r, io.num (val j) = .ok r

/-- The warnings due when a number is stored. -/
def numberWarns {J : Type} (io : NumIO J) (val : J → Ent) (kv : Str × J) : List Warn :=
  match io.num (val kv.2) with
  | .ok r => valueWarnings (String.ofList kv.1) r.1 r.2 ++ classWarnings (val kv.2).cls
  | .error _ => []

/-- The text becomes an equation. -/
def Parses (eq : Str → PyM Unit Ent) (tok : Str → Bytes) (ws : Str → List Warn) (t : Str) : Prop :=
  ∃ s, eq t () = ⟨.ok s, (), ws t⟩ ∧ s.body.bytes = toLE 2 (tok t).length ++ tok t ∧ (tok t).length < 65536

/-- The number goes through JSON unharmed: it is written as `j`, as a whole number if asked to, and `j` is read as a
number of the same bytes. -/
structure Carried {J : Type} (io : NumIO J) (val : J → Ent) (whole : Bool) (x : Ent) (j : J) : Prop where
  elem : RealElem x
  out : ∀ y, SameNumber x y → (if whole then io.int y else io.json y) = .ok j
  back : Converts io val j
  same : (val j).body.bytes = x.body.bytes

/-- The databases whose dictionary loads back: with colours, without tokens, and with no setting that a dictionary
does not have a name for. -/
structure PlainPlot (c : Cls) (p : Plot) : Prop where
  fits : p.Fits c
  start : p.head.take 4 = toLE 2 (emptySize c) ++ [0x00, (plotMode c).2]
  format : (p.head.getD 4 0).toNat < 128
  seq : p.head.getD 5 0 = 0
  ext : (p.head.getD 6 0).toNat < 2
  eqs : ∀ q ∈ p.eqs, q.tokens = [] ∧ q.flags.toNat % 32 = 3
  styles : ∀ s ∈ p.styles, s.toNat < 7
  tail : ∃ t, p.tail = some t ∧ t.magic = [0x38, 0x34, 0x43] ∧ (∀ k ∈ t.colors, 1 ≤ k.toNat ∧ k.toNat < 16) ∧
    ∃ g a l b d : UInt8, t.settings = [g, a, l, b, d] ∧ g.toNat < 16 ∧ a.toNat < 16 ∧ l.toNat < 4 ∧
      1 ≤ b.toNat ∧ b.toNat ≤ 4 ∧ d.toNat < 2

/-- The name is in the list. -/
def nameIn (names : List String) (s : Str) : Bool := names.any fun n => n.toList == s

/-- Names of settings of other bytes, which are looked up together with the format settings. -/
def otherFlags : List String :=
  ["ExprOff", "ExprOn", "SEQ_n", "SEQ_np1", "SEQ_np2", "DetectAsymptotesOff", "DetectAsymptotesOn"]

/-- The dictionary without the names that mean nothing for the kind of database. -/
def onlyKnown {J : Type} (c : Cls) (d : GdbDict J) : GdbDict J :=
  { d with
    format := d.format.filter (nameIn (formatBits.map Prod.fst))
    window := d.window.filter fun kv => nameIn (fieldNames c) kv.1
    settings := d.settings.filter fun kv => nameIn (fieldNames c) kv.1
    equations := d.equations.filter fun kv => nameIn (curveNames c) kv.1 }

/-- One warning for each name that means nothing. -/
def unknownWarns {J : Type} (c : Cls) (d : GdbDict J) : List Warn :=
  List.replicate (d.format.countP fun s => !nameIn (formatBits.map Prod.fst) s) .gdbFormat ++
  List.replicate ((d.window ++ d.settings).countP fun kv => !nameIn (fieldNames c) kv.1) .settingUnknown ++
  List.replicate (d.equations.countP fun kv => !nameIn (curveNames c) kv.1) .gdbEquation

end Verif.Spec
