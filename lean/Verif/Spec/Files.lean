import Verif.Model.Files

/-! Specifications for saving and opening files. -/

namespace Verif.Spec

/-- The file an argument of `save` means: none means the name of the var, and without a dot the extension is
added. -/
def pathOf (name filename ext : Str) : Str :=
  if filename = [] then name ++ '.' :: ext
  else if '.' ∈ filename then filename
  else filename ++ '.' :: ext

/-- The last part of a path. -/
def lastPart (path : Str) : Str := (path.reverse.takeWhile (· ≠ '/')).reverse

/-- What `TIEntry.open` says about the entries behind the first one: the two bytes it compares with the length of a meta
section are the length of the data. -/
def restWarning : List Ent → List Warn
  | [] => []
  | x :: _ => if x.body.bytes.length = 11 ∨ x.body.bytes.length = 13 then [.openMultiple] else [.openExtra]

end Verif.Spec
