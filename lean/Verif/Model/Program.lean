import Verif.Model.Tokenized

/-
Model of the text of programs (`/repo/tivars/types/tokenized.py:404-414`).
-/

namespace Verif
namespace Ent
variable {V : Type} [LinearOrder V]

/-- `program.string()` (tokenized.py:404-414): the classes for assembly programs warn about themselves and ignore the warnings of the
decoder. -/
def programString (env : Env V) (e : Ent) : PyM Unit Str :=
  if e.cls = .asmProgram ∨ e.cls = .protAsmProgram then do
    PyM.warn .asmText
    pure (e.string env)
  else do
    PyM.warnAll (e.tokens env).1
    pure (e.string env)

end Ent
end Verif
