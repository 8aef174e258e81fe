import Verif.Model.Settings

/-
Model of the equations of graph databases (`/repo/tivars/types/gdb.py:151-240, 253-290, 332-340, 528-582`).
-/

namespace Verif
namespace Ent

/-- The raw sections of a `TIGraphedEquation` that take part in a graph database (gdb.py:161-169): the style
and colour bytes bundled with it and its `calc_data`. -/
structure GEq where
  style : Bytes
  color : Bytes
  body : Bytes
  deriving DecidableEq, Repr

/-- `n` times `data.read(1)`. -/
def readOnes : Nat → Stream → List Bytes × Stream
  | 0, s => ([], s)
  | n + 1, s =>
    let (b, s) := s.read 1
    let (bs, s) := readOnes n s
    (b :: bs, s)

/-- `self.num_equations // self.num_styles`. -/
def perStyle (c : Cls) : Nat := (gdbCounts c).1 / (gdbCounts c).2.2

/-- `gdb.get_equations()` (gdb.py:551-582): the style and the colour number `i` go to the equations
`r * i + j`; without colour data the colour is that of a new equation. -/
def getEquations (e : Ent) : List GEq :=
  let s := Stream.ofBytes (e.body.bytes.drop (gdbOffset e.cls))
  let (styles, s) := readOnes (gdbCounts e.cls).2.2 s
  let (eqs, s) := readEquations (gdbCounts e.cls).1 s
  let colors := (readOnes (gdbCounts e.cls).2.2 ((Stream.ofBytes s.rest).seekRel 3)).1
  (List.range (gdbCounts e.cls).1).map fun i =>
    ⟨styles.getD (i / perStyle e.cls) [],
      if s.rest = [] then [0x00] else colors.getD (i / perStyle e.cls) [], eqs.getD i []⟩

/-- The items at `range(0, num_equations, num_equations // num_styles)`. -/
def everyStyle (c : Cls) (eqs : List GEq) : List GEq :=
  ((List.range (gdbCounts c).1).filter fun i => i % perStyle c == 0).map fun i => eqs.getD i ⟨[], [], []⟩

/-- `IndexedEquationConverter.set` (gdb.py:208-238) for the index `i` counted from 0. -/
def equationBytes (e : Ent) (i : Nat) (value : GEq) : Except PyErr Bytes :=
  if i < (getEquations e).length then
    let eqs := (getEquations e).set i value
    let data := e.body.bytes.take (gdbOffset e.cls) ++ (everyStyle e.cls eqs).flatMap GEq.style ++
      eqs.flatMap GEq.body
    if e.colorData ≠ [] then
      .ok (data ++ [0x38, 0x34, 0x43] ++ (everyStyle e.cls eqs).flatMap GEq.color ++
        e.colorData.drop (e.colorData.length - 5))
    else .ok data
  else .error .indexError

/-- `gdb.Y1 = value`, …: the equation views cover all of `calc_data` (gdb.py:864-922 and the like). -/
def setEquation (i : Nat) (value : GEq) : PyM Ent Unit := do
  let e ← PyM.get
  viewPut (View.mk' none ⟨fun _ => .error .notImplementedError,
    fun v _ _ => PyM.ofExcept (equationBytes e i v)⟩ {}) value

/-- `TIGraphedEquation()` (gdb.py:171-179): the data after `clear()`, then `flags`, `style`, `color`. -/
def freshEquation : GEq :=
  ⟨[0x00], [0x00], (viewPut eqFlagsView (flagsInit [(0, true), (1, true)])
    ⟨.graphedEquation, [0x0D, 0x00], [0x03], [], [0x00], [0x00], ⟨true, clearCalc .graphedEquation⟩⟩).st.body.bytes⟩

/-- `graphed.load_equation(equation)` (gdb.py:332-340). -/
def loadEquation (g : GEq) (equation : Ent) : GEq := { g with body := g.body.take 1 ++ equation.body.bytes }

/-- `graphed.data` (var.py:1316): the view inherited from sized entries starts at the third byte. -/
def GEq.data (g : GEq) : Bytes := g.body.drop 2

end Ent
end Verif
