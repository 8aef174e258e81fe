import Verif.Model.Graphed

/-
Model of taking the equation out of a graphed equation (`/repo/tivars/types/gdb.py:342-350`).
-/

namespace Verif
namespace Ent
variable {V : Type} [LinearOrder V]

/-- `filterwarnings("ignore", "The data section length is incorrect")` (gdb.py:349) around an action: the only warning with that
beginning is var.py:796. -/
def ignoreDataLength {σ α : Type} (f : PyM σ α) : PyM σ α := ⟨fun s =>
  match f s with
  | ⟨r, s', ws⟩ => ⟨r, s', ws.filter fun w => w ≠ .dataLength⟩⟩

/-- `b[:-n] + b[-n + 1:]` (gdb.py:350). For `n = 0` the first slice is empty, for `n = 1` the second is everything. -/
def withoutFlags (b : Bytes) (n : Nat) : Bytes :=
  getSlice b { stop := some (-(n : Int)) } ++ getSlice b { start := some (-(n : Int) + 1) }

/-- `graphed.equation()` (gdb.py:342-350); `nm` is the encoded default name of a `TIEquation`. -/
def equationOut (env : Env V) (nm : Bytes) (g : Ent) : PyM Unit Ent := do
  let b ← PyM.ofExcept g.bytes
  ignoreDataLength (new env .equation { name := nm } [] (load env (withoutFlags b g.calcLength)))

end Ent
end Verif
