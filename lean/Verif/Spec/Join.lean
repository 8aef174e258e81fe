import Verif.Spec.Construct
import Verif.Spec.Mono

/-! Specifications for copies of vars. -/

namespace Verif.Spec

/-- The entry with data that can be changed. -/
def thaw (e : Ent) : Ent := { e with body := ⟨true, e.body.bytes⟩ }

/-- The type and content of an entry lead to its class: they agree with it, and a graph database is longer than 61 bytes if it
has colours and not longer if it has none. -/
def FromFile {V : Type} [LinearOrder V] (env : Env V) (e : Ent) : Prop :=
  Settled env e ∧ (e.cls ∈ colorClasses → 61 < e.body.bytes.length) ∧
    (e.cls ∈ [Cls.monoFunc, .monoParam, .monoPolar, .monoSeq] → e.body.bytes.length ≤ 61)

/-- An entry that comes back from a file exactly. -/
structure Exact {V : Type} [LinearOrder V] (env : Env V) (e : Ent) : Prop where
  wf : WF e
  flash : e.metaLen = [0x0D, 0x00] → ¬FlashIsLength e
  fromFile : FromFile env e

end Verif.Spec
