import Verif.Spec.Json
import Verif.Model.GdbText

/-! Specifications for the text of databases and settings. -/

namespace Verif.Spec
open Ent

/-- The dictionary is one that Python can have: no key twice, and floats are floats. -/
structure ProperDict (d : GdbDict JNum) : Prop where
  window : (d.window.map Prod.fst).Nodup
  settings : (d.settings.map Prod.fst).Nodup
  equations : (d.equations.map Prod.fst).Nodup
  floats : ∀ k x, (k, JNum.float x) ∈ d.window ++ d.settings → IsFloat x

end Verif.Spec
