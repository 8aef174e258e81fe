import Verif.Model.Assign
import Verif.Py.Str

/-
Model of the methods of `TokenizedEntry` and `TIProgram` that are not part of loading
(`/repo/tivars/types/tokenized.py:165-233, 366-380`).
-/

namespace Verif
namespace Ent
variable {V : Type} [LinearOrder V]

/-- `entry.tokens()` (tokenized.py:190-195): tokens and the decoder's warnings. -/
def tokens (env : Env V) (e : Ent) : List Warn × List (Tok V) :=
  ((decode env.initial env.table e.data).warns, (decode env.initial env.table e.data).out)

/-- `entry.string()` (var.py:893-898, tokenized.py:45-67, 72-90, 329-330): `format(self, "")`, the
display names of the tokens of the default model put together; in quotation marks for a
`TIString`. The warning of assembly programs is left out. -/
def string (env : Env V) (e : Ent) : Str :=
  let s := (e.tokens env).2.flatMap Tok.display
  if e.cls = .string then '"' :: s ++ ['"'] else s

/-- The loop of `lines` (tokenized.py:210-233): `done` are the finished lines and `line` the last
one, `lines[-1]`. -/
def linesLoop {V : Type} : List (Tok V) → Bool → List (List (Tok V)) → List (Tok V) →
    List (List (Tok V))
  | [], _, done, line => done ++ [line]
  | t :: ts, inString, done, line =>
    if t.bits = [0x04] then linesLoop ts false done line
    else if t.bits = [0x2A] then linesLoop ts (!inString) done line
    else if t.bits = [0x3E] ∧ inString = false then linesLoop ts inString (done ++ [line]) []
    else if t.bits = [0x3F] then linesLoop ts false (done ++ [line]) []
    else linesLoop ts inString done (line ++ [t])

/-- The body of `lines` after `tokens = self.tokens()`. -/
def splitLines {V : Type} (ts : List (Tok V)) : List (List (Tok V)) := linesLoop ts false [] []

/-- `entry.lines()` (tokenized.py:198-233). -/
def lines (env : Env V) (e : Ent) : List (List (Tok V)) := splitLines (e.tokens env).2

/-- `program.protect()` (tokenized.py:366-372); `TIProtectedProgram.type_id` is the class attribute
6. -/
def protect (env : Env V) : PyM Ent Unit := do
  setTypeId 0x06
  coerce env

/-- `program.unprotect()` (tokenized.py:374-380). -/
def unprotect (env : Env V) : PyM Ent Unit := do
  setTypeId 0x05
  coerce env

/-- `entry.get_version(data)` of a tokenised entry as the method used on assignment
(tokenized.py:112-150). -/
def tokenGetVersion (env : Env V) : GetVersion := fun e d =>
  ((tokenizedVersion env e (some d)).1, .ok (tokenizedVersion env e (some d)).2)

/-- `entry.load_tokens(tokens)` (tokenized.py:180-188). -/
def loadTokens (env : Env V) (ts : List (Tok V)) : PyM Ent Unit :=
  setData (tokenGetVersion env) (ts.flatMap Tok.bits)

/-- `entry.load_string(string, mode=)` (tokenized.py:165-178, 325-327, 396-402), on the already normalized
string, with the trie of the model and language at hand; `TIString` strips quotation marks. -/
def loadString (env : Env V) (trie : Trie (Tok V)) (mode : EncMode) (s : Str) : PyM Ent Unit := do
  let e ← PyM.get
  if e.cls = .asmProgram ∨ e.cls = .protAsmProgram then PyM.warn .asmText else pure ()
  match encode env.initial trie mode (if e.cls = .string then stripChars ['"'] s else s) with
  | some (.ok acc) => setData (tokenGetVersion env) acc.data
  | _ => PyM.raise .valueError

end Ent
end Verif
