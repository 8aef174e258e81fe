import Verif.Model.Support
import Verif.Model.Construct
import Verif.Py.Str

/-
Model of saving and opening files (`/repo/tivars/var.py:900-960, 1113-1123, 1261-1293`).

The files of a directory are a function from names to contents. Opening a file for writing always succeeds and
empties it, as `open(filename, 'wb+')` does; opening a missing file for reading raises `FileNotFoundError`. Errors
of the operating system, such as names that are not allowed, are not modelled.
-/

namespace Verif
variable {V : Type} [LinearOrder V]

/-- The files of a directory. -/
abbrev Files := Str → Option Bytes

/-- A file is given new contents. -/
def Files.write (fs : Files) (name : Str) (b : Bytes) : Files := fun n => if n = name then some b else fs n

namespace Var

/-- The file name `save` uses (var.py:1113-1123, 1280-1284): `name` is the name of the var and `filename` the argument, empty
for none. -/
def fileName (ord : Model → Nat) (v : Var) (name filename : Str) : Except PyErr (Str × List Warn) :=
  if filename.isEmpty then (v.extension ord).map fun p => (name ++ '.' :: p.1, p.2)
  else if '.' ∈ filename then .ok (filename, [])
  else (v.extension ord).map fun p => (filename ++ '.' :: p.1, p.2)

/-- The loop over the entries in `save` (var.py:1287-1290). -/
def supportWarns (env : OsEnv V) (m : Model) : List Ent → List Warn × Except PyErr Unit
  | [] => ([], .ok ())
  | e :: es =>
    match e.getMinOs env [] with
    | (ws, .error x) => (ws, .error x)
    | (ws, .ok os) =>
      (ws ++ (if env.latest m < os then [.saveUnsupported] else []) ++ (supportWarns env m es).1, (supportWarns env m es).2)

/-- The check of the entries in `save` (var.py:1286-1290). -/
def saveCheck (env : OsEnv V) (v : Var) : List Warn × Except PyErr Unit :=
  match v.model with
  | none => ([], .ok ())
  | some m => supportWarns env m v.entries

/-- `var.save(filename)` (var.py:1273-1293): the file is opened before the bytes are computed. -/
def save (env : OsEnv V) (ord : Model → Nat) (v : Var) (name filename : Str) : PyM Files Unit := do
  let (path, ws) ← PyM.ofExcept (v.fileName ord name filename)
  PyM.warnAll ws
  PyM.warnAll (v.saveCheck env).1
  PyM.ofExcept (v.saveCheck env).2
  PyM.modify fun fs => fs.write path []
  let b ← PyM.ofExcept v.bytes
  PyM.modify fun fs => fs.write path b

/-- `TIVar(data=data)` (var.py:990-1011). -/
def ofData (env : Env V) (me : ModelEnv) (data : Bytes) : PyM Var Unit := do
  init none none
  if data.isEmpty then pure () else load env me data

/-- `TIVar.open(filename)` (var.py:1261-1271). -/
def openVar (env : Env V) (me : ModelEnv) (filename : Str) : PyM Files Var := ⟨fun fs =>
  match fs filename with
  | none => ⟨.error .fileNotFoundError, fs, []⟩
  | some b =>
    match ofData env me b ⟨Hdr.unset, [], none⟩ with
    | ⟨.error x, _, ws⟩ => ⟨.error x, fs, ws⟩
    | ⟨.ok (), v, ws⟩ => ⟨.ok v, fs, ws⟩⟩

end Var

namespace Ent

/-- `entry.export(header=, model=)` (var.py:949-960). -/
def exportVar (env : Env V) (e : Ent) (header : Option Hdr) (model : Option Model) : PyM Var Unit := do
  Var.init header model
  Var.addEntry env (some e)

/-- `entry.save(filename, header=, model=)` (var.py:938-947); `name` is the name of the entry as a text. -/
def save (env : OsEnv V) (ord : Model → Nat) (e : Ent) (name filename : Str) (header : Option Hdr)
    (model : Option Model) : PyM Files Unit := ⟨fun fs =>
  match exportVar env.toEnv e header model ⟨Hdr.unset, [], none⟩ with
  | ⟨.error x, _, ws⟩ => ⟨.error x, fs, ws⟩
  | ⟨.ok (), v, ws⟩ =>
    match v.save env ord name filename fs with
    | ⟨r, fs', ws'⟩ => ⟨r, fs', ws ++ ws'⟩⟩

/-- The check of the file name in `open` (var.py:909-913). `lower` is restricted to ASCII letters; no other letter
has a lower case that occurs in an extension. -/
def extensionWarns (c : Cls) (filename : Str) : List Warn :=
  if c.typeId.isSome && !((c.extensions.1 :: c.extensions.2.map Prod.snd).any fun x => endsWith (lowerAscii filename) x)
  then [.openExtension] else []

/-- `cls.open(filename)` (var.py:900-936); `name` is the encoded default name of the class. A file, other than the
streams of `openFile`, cannot be left before its start: with fewer than two bytes, the position is at most three when
the look-ahead steps back by four (var.py:628-644 and 919-922), which the operating system refuses. -/
def openAs (env : Env V) (c : Cls) (name : Bytes) (filename : Str) : PyM Files Ent := ⟨fun fs =>
  match fs filename with
  | none => ⟨.error .fileNotFoundError, fs, extensionWarns c filename⟩
  | some b =>
    match (new env c { name := name } []) () with
    | ⟨.error x, _, ws⟩ => ⟨.error x, fs, extensionWarns c filename ++ ws⟩
    | ⟨.ok e, _, ws⟩ =>
      if b.length < 2 then ⟨.error .osError, fs, extensionWarns c filename ++ ws⟩ else
      match openFile env (Stream.ofBytes b) e with
      | ⟨.error x, _, ws'⟩ => ⟨.error x, fs, extensionWarns c filename ++ ws ++ ws'⟩
      | ⟨.ok (), e', ws'⟩ => ⟨.ok e', fs, extensionWarns c filename ++ ws ++ ws'⟩⟩

end Ent
end Verif
