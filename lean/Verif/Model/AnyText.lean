import Verif.Model.ArrayText
import Verif.Model.Tokenized
import Verif.Model.Construct

/-
Model of loading a text into an entry whose class has no format of its own (`/repo/tivars/var.py:868-891`) and of the order in which
the classes are registered (`/repo/tivars/var.py:459-463, 647-655`).
-/

namespace Verif
namespace Ent
variable {V : Type} [LinearOrder V]

/-- `TIEntry._type_ids.values()` after `import tivars`: the classes in the order of their statements, modules being run when they are
first imported (types/__init__.py:10-20, complex.py:12, gdb.py:17-18, group.py:13-16). No ID is registered twice, so that no class
takes the place of another. -/
def registered : List Cls :=
  [.appVar,                                                                                     -- appvar.py:10
   .real, .undefReal, .realFraction, .realRadical, .realPi, .realPiFraction,                    -- real.py:227-655
   .complex, .complexFraction, .complexRadical, .complexPi, .complexPiFraction,                 -- complex.py:356-432
   .equation, .newEquation, .string, .program, .protProgram,                                    -- tokenized.py:236-458
   .graphedEquation, .monoGDB,                                                                  -- gdb.py:151, 364
   .realList, .complexList,                                                                     -- list.py:206, 223
   .group, .matrix, .picture, .image,                                       -- group.py:19, matrix.py:16, picture.py:280, 357
   .window, .recallWindow, .tableSettings]                                                      -- settings.py:53, 296, 539

/-- `entry.load_string(string)` for the number entries, tokens, lists and matrices. AppVars have no format: the base
method would construct the class itself again with the same text, until Python gives up with `RecursionError`, which is caught and
becomes `ValueError` (var.py:881-891). What graphed equations, graph databases, groups, pictures and settings do with a text is given
by `other`. -/
def textLoader (env : Env V) (trie : Trie (Tok V)) (mode : EncMode) (other : Cls → Str → PyM Ent Unit) (c : Cls) (s : Str) :
    PyM Ent Unit :=
  if c.isSub .realE then ⟨fun e => match loadRealString c s e.body with | ⟨r, b, w⟩ => ⟨r, { e with body := b }, w⟩⟩
  else if c.isSub .complexE then loadComplexString s
  else if c ∈ [Cls.equation, .newEquation, .string, .program, .protProgram] then loadString env trie mode s
  else if c.isSub .listE then loadListString s
  else if c = .matrix then loadMatrixString s
  else if c = .appVar then PyM.raise .valueError
  else other c s

/-- `cls(string)` (var.py:343-390); `nm c` is the encoded default name of the class. -/
def newText (env : Env V) (trie : Trie (Tok V)) (mode : EncMode) (other : Cls → Str → PyM Ent Unit) (nm : Cls → Bytes) (c : Cls) (s : Str) :
    PyM Unit Ent :=
  new env c { name := nm c } [] (textLoader env trie mode other c s)

/-- `self.load_bytes(entry_type(string).bytes())` (var.py:885). -/
def loadVia (env : Env V) (mk : PyM Unit Ent) : PyM Ent Unit := do
  let x ← PyM.lift mk
  let b ← PyM.ofExcept x.bytes
  load env b

/-- The loop of `TIEntry.load_string` (var.py:881-891); no warning is shown. `issubclass` is asked of the class the entry has at the
time. -/
def tryClasses (env : Env V) (mk : Cls → PyM Unit Ent) : List Cls → PyM Ent Unit
  | [] => PyM.raise .valueError
  | c :: cs => ⟨fun e =>
    if c.isSub e.cls then
      match loadVia env (mk c) e with
      | ⟨.ok (), e', _⟩ => ⟨.ok (), e', []⟩
      | ⟨.error _, e', _⟩ => tryClasses env mk cs e'
    else tryClasses env mk cs e⟩

/-- `TIEntry.load_string` (var.py:868-891). -/
def loadAnyText (env : Env V) (trie : Trie (Tok V)) (mode : EncMode) (other : Cls → Str → PyM Ent Unit) (nm : Cls → Bytes) (s : Str) :
    PyM Ent Unit :=
  tryClasses env (fun c => newText env trie mode other nm c s) registered

end Ent
end Verif
