import Verif.Model.FlashFile
import Verif.Spec.Flash
import Verif.Spec.Var

/-! Specifications for the files and views of flash headers. -/

namespace Verif.Spec

/-- The characters with the codes of the bytes. -/
def asText (d : Bytes) : Str := d.map fun b => Char.ofNat b.toNat

/-- The file extensions of flash files: the class, the models and the extensions. -/
def flashExtension (c : FlashCls) (m : Model) : Option Str :=
  match c, m with
  | .os, .ti82a | .license, .ti82a => some ['8', '2', 'u']
  | .os, .ti84pcse | .license, .ti84pcse => some ['8', 'c', 'u']
  | .os, .ti84pce | .license, .ti84pce => some ['8', 'e', 'u']
  | .os, .ti83pce | .license, .ti83pce => some ['8', 'p', 'u']
  | .os, .ti82aep | .license, .ti82aep => some ['8', 'y', 'u']
  | .app, .ti83p => some ['8', 'x', 'k']
  | .app, .ti84pcse => some ['8', 'c', 'k']
  | .app, .ti84pce => some ['8', 'e', 'k']
  | .certificate, .ti83p => some ['8', 'x', 'q']
  | .certificate, .ti84pcse => some ['8', 'c', 'q']
  | .certificate, .ti84pce => some ['8', 'e', 'q']
  | _, _ => none

/-- The extension of the TI-84 Plus CE, used when there is none for a model. -/
def flashDefault : FlashCls → Str
  | .header | .app => ['8', 'e', 'k']
  | .os | .license => ['8', 'e', 'u']
  | .certificate => ['8', 'e', 'q']

end Verif.Spec
