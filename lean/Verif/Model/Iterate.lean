import Verif.Model.Picture

/-
Model of going through containers (`/repo/tivars/types/list.py:99-100`, `/repo/tivars/types/matrix.py:56-63, 111-117`,
`/repo/tivars/types/picture.py:198-201`). `__iter__` of matrices and pictures is a generator that computes the whole array first; the
model returns the list of everything it yields, or the exception that the first step raises.
-/

namespace Verif
namespace Ent
variable {V : Type} [LinearOrder V]

/-- `[*picture]` given `picture.array()` (picture.py:198-201). -/
def pixels {α : Type} (array : Except PyErr (List (List α))) : Except PyErr (List α) :=
  match array with
  | .error x => .error x
  | .ok rows => .ok (rows.flatMap fun row => row.flatMap fun col => [col])

/-- `[*lst]` (list.py:99-100). -/
def listIter (env : Env V) (name : Bytes) (e : Ent) : PyM Unit (List Ent) := list env name e

/-- `[*matrix]` (matrix.py:56-63). -/
def matrixIter (env : Env V) (name : Bytes) (e : Ent) : PyM Unit (List Ent) := do
  let rows ← matrix env name e
  pure (rows.flatMap fun row => row.flatMap fun entry => [entry])

/-- `matrix.size` (matrix.py:111-117). -/
def matrixSize (e : Ent) : Nat := matrixSide 0 e * matrixSide 1 e

end Ent
end Verif
