import Verif.Model.Float
import Verif.Model.GdbDict

/-
Model of numbers on their way through JSON: `TIReal(value)` for the values that JSON has for numbers
(`/repo/tivars/types/real.py:155-180, 262-264, 274-312`, `/repo/tivars/var.py:343-390`), and with it the conversions that graph
databases use (`/repo/tivars/types/gdb.py:626-640, 683-690`). The text of JSON, through which floats go
unchanged, is modelled in `Model/Json`.
-/

namespace Verif

/-- `number.load(value)` for a `TIReal`, down to its data: strings, and floats and integers by way of `Decimal`. -/
def loadJson : JNum → PyM Buf Unit
  | .float x => realLoadFloat x.neg x.m x.q
  | .int n => realLoadDecimal ⟨decide (n < 0), n.natAbs, 0⟩
  | .str s => realLoadString s

namespace Ent
variable {V : Type} [LinearOrder V]

/-- A loader of the data of a number, as one of the entry. -/
def onData (load : PyM Buf Unit) : PyM Ent Unit := ⟨fun e =>
  match load e.body with
  | ⟨r, b, ws⟩ => ⟨r, { e with body := b }, ws⟩⟩

/-- `TIReal(value)`; `nm` is the encoded default name. -/
def realOf (env : Env V) (nm : Bytes) (j : JNum) : PyM Unit Ent := new env .real { name := nm } [] (onData (loadJson j))

/-- `int(value)` and whether `int(value) == float(value)` (gdb.py:65-67, 101-103; settings.py). -/
def wholeOf (e : Ent) : Except PyErr (Int × Bool) :=
  match realFloat e.cls e.body with
  | .error x => .error x
  | .ok x => .ok (floatTrunc x, floatWhole x)

/-- The conversions between numbers and JSON (gdb.py:626-640, 683-690). -/
def realIO (env : Env V) (nm : Bytes) : NumIO JNum where
  real := realOf env nm
  json e := jsonNumber e.cls e.body
  int e := match realInt e.cls e.body with
    | .error x => .error x
    | .ok n => .ok (.int n)
  num := wholeOf

end Ent
end Verif
