import Verif.Model.Construct
import Verif.Model.RadicalValue
import Verif.Model.Complex

/-
Model of `-number` and of `decimal()` for all classes of real numbers (`/repo/tivars/types/real.py:88-92, 266-272, 518-521, 639-643`).
-/

namespace Verif
namespace Ent
variable {V : Type} [LinearOrder V]

/-- `-number` (real.py:88-92): a copy with the other sign bit. -/
def negate (env : Env V) (e : Ent) : PyM Unit Ent := do
  let n ← copyEnt env e
  ⟨fun s => match realNeg n.body with
    | ⟨.error x, _, ws⟩ => ⟨.error x, s, ws⟩
    | ⟨.ok (), b, ws⟩ => ⟨.ok { n with body := b }, s, ws⟩⟩

end Ent

/-- `number.decimal()` for the classes of real numbers (real.py:266-272, 518-521, 639-643). -/
def realPartDecimal (c : Cls) (b : Buf) : Except PyErr PyDec :=
  match c with
  | .realRadical => radDecimal b
  | .realPi | .realPiFraction => piDecimal b
  | _ => match realDecimal b with
    | .error e => .error e
    | .ok (c, e) => .ok ⟨decide (c < 0), c.natAbs, e⟩

/-- `number.sign` (real.py:128-134, 494-496). -/
def realPartSign (c : Cls) (b : Buf) : Except PyErr Int :=
  match c with
  | .realRadical => radSign b
  | _ => realSign b

end Verif
