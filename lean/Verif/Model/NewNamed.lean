import Verif.Model.EntryName
import Verif.Model.Construct

/-
Model of the constructors of entries with the name given as text (`/repo/tivars/var.py:343-390`) and of the defaults of
their arguments in each class.
-/

namespace Verif
namespace Ent
variable {V : Type} [LinearOrder V]

/-- The default of the argument `name` (var.py:344, appvar.py:28, complex.py:124, gdb.py:172, 417, 728, group.py:41, list.py:86,
matrix.py:40, picture.py:261, 314, 394, real.py:56, settings.py:72, 315, 558, tokenized.py:255, 309). -/
def defaultName (c : Cls) : Str :=
  if c.isSub .realE then "A".toList
  else if c.isSub .complexE then "A".toList
  else if c.isSub .listE then "L1".toList
  else if c.isSub .matrix then "[A]".toList
  else if c.isSub .equation then "Y1".toList
  else if c.isSub .string then "Str1".toList
  else if c = .monoPicture ∨ c = .picture then "Pic1".toList
  else if c = .image then "Image1".toList
  else if c = .window then "Window".toList
  else if c = .recallWindow then "RclWindw".toList
  else if c = .tableSettings then "TblSet".toList
  else if c.isSub .monoGDB then "GDB1".toList
  else if c = .group then "GROUP".toList
  else "UNNAMED".toList

/-- The default of the argument `archived` (var.py:345, appvar.py:29, picture.py:262, 315, 395, group.py:42). -/
def defaultArchived (c : Cls) : Option Bool :=
  if c ∈ [Cls.appVar, .monoPicture, .picture, .image, .group] then some true else none

/-- `cls(init, for_flash=, name=, version=, archived=, data=)` (var.py:343-390), for every class but `TIGraphedEquation`: the name is
assigned after the meta length and the type. -/
def newNamed (env : Env V) (trie : Trie (Tok V)) (c : Cls) (name : Str) (forFlash : Bool) (version : Option Nat)
    (archived : Option Bool) (data : Bytes) (load : PyM Ent Unit) : PyM Unit Ent := do
  let _ ← PyM.ofExcept (initMeta forFlash)
  let v ← nameConv env trie c name
  let v ← fitWidth (some 8) v
  new env c ⟨v, forFlash, version, archived⟩ data load

/-- `cls()`. -/
def newDefault (env : Env V) (trie : Trie (Tok V)) (c : Cls) : PyM Unit Ent :=
  newNamed env trie c (defaultName c) true none (defaultArchived c) [] (pure ())

end Ent
end Verif
