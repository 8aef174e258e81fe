import Verif.Model.GdbDict

/-
Model of the constructor, the copies and the comparison of `TIGraphedEquation`
(`/repo/tivars/types/gdb.py:171-179, 352-356`, `/repo/tivars/var.py:343-427`).
-/

namespace Verif
namespace Ent
variable {V : Type} [LinearOrder V]

/-- A `TIGraphedEquation`: an entry with the two further sections of its `Raw` (gdb.py:161-169). -/
structure Graphed where
  ent : Ent
  style : Bytes
  color : Bytes
  deriving DecidableEq, Repr

/-- The sections that take part in a graph database. -/
def Graphed.geq (g : Graphed) : GEq := ⟨g.style, g.color, g.ent.body.bytes⟩

/-- An action on the sections of the entry. -/
def onEnt (f : PyM Ent Unit) : PyM Graphed Unit := ⟨fun g =>
  match f g.ent with
  | ⟨r, e, w⟩ => ⟨r, { g with ent := e }, w⟩⟩

/-- An action on the sections that take part in a graph database. -/
def onGEq (f : PyM GEq Unit) : PyM Graphed Unit := ⟨fun g =>
  match f g.geq with
  | ⟨r, q, w⟩ => ⟨r, ⟨{ g.ent with body := ⟨true, q.body⟩ }, q.style, q.color⟩, w⟩⟩

/-- `self.version = self.get_version()` (var.py:389-390). -/
def refreshVersion (env : Env V) : PyM Ent Unit := do
  let e ← PyM.get
  PyM.warnAll (getVersion env e []).1
  let v ← PyM.ofExcept (getVersion env e []).2
  setVersion v

/-- The rest of the constructor after the meta sections (var.py:377-390, gdb.py:171-179): `load` is
what `init` does, `pure ()` without it. -/
def graphedRest (env : Env V) (a : NewArgs) (load : PyM Graphed Unit) : PyM Graphed Unit := do
  onEnt (PyM.modify fun e => { e with body := ⟨true, clearFull e.cls⟩ })
  load
  if a.version = none then onEnt (refreshVersion env) else pure ()
  onGEq (putEqFlags (flagsInit [(0, true), (1, true)]))
  onGEq (putStyle 0x00)
  onGEq (putColor 0x00)

/-- `TIGraphedEquation(init, for_flash=, name=, version=, archived=)` (gdb.py:171-179). -/
def newGraphed (env : Env V) (a : NewArgs) (load : PyM Graphed Unit := pure ()) : PyM Unit Graphed :=
  ⟨fun s =>
  match newBase .graphedEquation a with
  | .error x => ⟨.error x, s, []⟩
  | .ok e =>
    match graphedRest env a load ⟨e, [], []⟩ with
    | ⟨.error x, _, ws⟩ => ⟨.error x, s, ws⟩
    | ⟨.ok (), g, ws⟩ => ⟨.ok g, s, ws⟩⟩

/-- `equation.load_string(string)` on another object than the one at hand. -/
def loadedString (env : Env V) (trie : Trie (Tok V)) (mode : EncMode) (expr : Str) (q : Ent) : PyM Unit Ent :=
  ⟨fun s => match loadString env trie mode expr q with
    | ⟨.error x, _, w⟩ => ⟨.error x, s, w⟩
    | ⟨.ok (), q', w⟩ => ⟨.ok q', s, w⟩⟩

/-- `init` is a text: `load_string` (gdb.py:352-356). -/
def graphedText (env : Env V) (trie : Trie (Tok V)) (mode : EncMode) (nm : Bytes) (expr : Str) :
    PyM Graphed Unit := do
  let q ← PyM.lift (new env .equation { name := nm } [])
  let q ← PyM.lift (loadedString env trie mode expr q)
  onGEq (PyM.modify fun g => loadEquation g q)

/-- `init` is a dictionary: `load_dict` (gdb.py:292-311). -/
def graphedDict (env : Env V) (trie : Trie (Tok V)) (mode : EncMode) (nm : Bytes) (d : EqDict) :
    PyM Graphed Unit := onGEq (loadEqDict (equationOf env trie mode nm) d)

/-- `init` is an entry: it has a method `bytes`, so its bytes are loaded (var.py:383-384). -/
def graphedBytes (env : Env V) (src : Ent) : PyM Graphed Unit := do
  let b ← PyM.ofExcept src.bytes
  onEnt (load env b)

/-- `copy.copy(graphed)` (var.py:406-413); the bytes do not include style and colour. -/
def copyGraphed (env : Env V) (a : NewArgs) (g : Graphed) : PyM Unit Graphed := do
  let n ← newGraphed env a
  let b ← PyM.ofExcept g.ent.bytes
  ⟨fun s => match onEnt (load env b) n with
    | ⟨.error x, _, ws⟩ => ⟨.error x, s, ws⟩
    | ⟨.ok (), g', ws⟩ => ⟨.ok g', s, ws⟩⟩

end Ent
end Verif
