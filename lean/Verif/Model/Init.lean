import Verif.Model.Construct

/-
Model of the construction of entries from other entries (`/repo/tivars/var.py:343-390`) and of the `mono` methods of the
colour graph databases (`/repo/tivars/types/gdb.py:964-969, 1146-1151, 1282-1287, 1530-1535`).
-/

namespace Verif
namespace Ent
variable {V : Type} [LinearOrder V]

/-- `cls(entry, …)` (var.py:343-390): entries have `bytes`, so the bytes are loaded (var.py:382-383). -/
def newFrom (env : Env V) (c : Cls) (a : NewArgs) (e : Ent) : PyM Unit Ent :=
  new env c a [] (do
    let b ← PyM.ofExcept e.bytes
    load env b)

/-- What each `mono` method constructs, and how many bytes it cuts off (gdb.py:969, 1151, 1287, 1535). -/
def monoParts : Cls → Option (Cls × Nat)
  | .func => some (.monoFunc, 18)
  | .param => some (.monoParam, 14)
  | .polar => some (.monoPolar, 14)
  | .seq => some (.monoSeq, 11)
  | _ => none

/-- `gdb.mono()` (gdb.py:964-969, 1146-1151, 1282-1287, 1530-1535): `nm` is the encoded default name of graph databases. -/
def mono (env : Env V) (nm : Bytes) (e : Ent) : PyM Unit Ent :=
  match monoParts e.cls with
  | none => PyM.raise .attributeError
  | some (c, n) =>
    new env c { name := nm } [] (do
      let b ← PyM.ofExcept e.bytes
      load env (b.take (b.length - n)))

end Ent
end Verif
