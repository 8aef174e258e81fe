import Verif.Model.Construct

/-
Model of lists and matrices beyond loading and coercion (`/repo/tivars/types/list.py:116-184`,
`/repo/tivars/types/matrix.py:65-105, 153-180`).
-/

namespace Verif
namespace Ent
variable {V : Type} [LinearOrder V]

/-- `View(calc_data, Integer)[a:b]`. -/
def fieldView (a b : Nat) : View Int := View.mk' none intConv
  { start := some (a : Int), stop := some (b : Int) }

/-- `lst.length = value` (list.py:117-128). -/
def setListLength (value : Nat) : PyM Ent Unit := do
  if value > 999 then PyM.warn .listLong else pure ()
  viewPut (fieldView 0 2) value

/-- `lst.load_list(lst)` (list.py:163-171); an element gives its `calc_data`. -/
def loadList (lst : List Ent) : PyM Ent Unit := do
  setListLength lst.length
  let e ← PyM.get
  viewPut (dataView e.cls) (lst.flatMap fun x => x.body.bytes)

/-- `TIList._E` (list.py:79, 211, 228). -/
def elemCls (c : Cls) : Cls :=
  if c = .realList then .realE else if c = .complexList then .complexE else .entry

/-- `[f(x) for x in l]` where the calls may raise and warn. -/
def mapW {α β : Type} (f : α → PyM Unit β) : List α → PyM Unit (List β)
  | [] => pure []
  | a :: as => do
    let b ← f a
    let bs ← mapW f as
    pure (b :: bs)

/-- `lst.list()` (list.py:174-180); `name` is the encoded default name of numbers, `"A"`. -/
def list (env : Env V) (name : Bytes) (e : Ent) : PyM Unit (List Ent) :=
  mapW (new env (elemCls e.cls) { name := name, forFlash := !e.flashBytes.isEmpty })
    (chunks (elemCls e.cls).minDataLength e.data)

/-- `matrix.width` and `matrix.height` (matrix.py:69-105). -/
def matrixSide (i : Nat) (e : Ent) : Nat := fromLE ((e.body.bytes.drop i).take 1)

/-- `matrix.width = value` for `i = 0` and `matrix.height = value` for `i = 1` (matrix.py:65-105). -/
def setSide (i value : Nat) : PyM Ent Unit := do
  let e ← PyM.get
  if value > 99 then PyM.warn .matrixLimit else pure ()
  if value * matrixSide (1 - i) e > 400 then PyM.warn .matrixLimit else pure ()
  viewPut (fieldView i (i + 1)) value

/-- `matrix.load_matrix(matrix)` (matrix.py:153-166). -/
def loadMatrix (rows : List (List Ent)) : PyM Ent Unit := do
  if rows.any (fun r => r.length != (rows.headD []).length) then PyM.raise .indexError
  else do
    setSide 0 (rows.headD []).length
    setSide 1 rows.length
    let e ← PyM.get
    viewPut (dataView e.cls) (rows.flatMap fun r => r.flatMap fun x => x.body.bytes)

/-- `matrix.matrix()` (matrix.py:168-175): `zip(*[it] * width)` groups the groups of nine bytes; the
elements of a row are made when the row is complete. -/
def matrix (env : Env V) (name : Bytes) (e : Ent) : PyM Unit (List (List Ent)) :=
  mapW (fun row => mapW (new env .realE { name := name, forFlash := !e.flashBytes.isEmpty }) row)
    (chunks (matrixSide 0 e) (chunks 9 e.data))

end Ent
end Verif
