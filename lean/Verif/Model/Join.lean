import Verif.Model.Files

/-
Model of copies and comparisons of headers and vars and of `header | entries` (`/repo/tivars/var.py:89-132, 1027-1049`).

Headers are objects that several vars can share: `TIVar.__init__` keeps the header it is given (var.py:1000) and
`TIVar.load_bytes` loads into it (var.py:1202). A `Store` has the contents of all header objects, and a `VarObj` refers to
its header by number. Entries are not loaded into once they belong to a var, and are kept as values.
-/

namespace Verif
variable {V : Type} [LinearOrder V]

namespace Hdr

/-- `copy.copy(header)` (var.py:89-96). -/
def copyHdr (h : Hdr) : PyM Unit Hdr := ⟨fun _ =>
  match (do init none; load h.bytes : PyM Hdr Unit) unset with
  | ⟨.error x, _, ws⟩ => ⟨.error x, (), ws⟩
  | ⟨.ok (), h', ws⟩ => ⟨.ok h', (), ws⟩⟩

/-- `header == other` for two headers (var.py:98-110). -/
def eqHdr (a b : Hdr) : Bool := a.bytes == b.bytes

end Hdr

/-- A var with its name. -/
structure NamedVar where
  name : Str
  var : Var
  deriving DecidableEq, Repr

namespace Var

/-- `copy.copy(var)` (var.py:1027-1034); `TIVar()` is named `UNNAMED` (var.py:990). -/
def copyVar (env : Env V) (me : ModelEnv) (v : NamedVar) : PyM Unit NamedVar := ⟨fun _ =>
  match (do
      init none none
      let b ← PyM.ofExcept v.var.bytes
      load env me b : PyM Var Unit) ⟨Hdr.unset, [], none⟩ with
  | ⟨.error x, _, ws⟩ => ⟨.error x, (), ws⟩
  | ⟨.ok (), v', ws⟩ => ⟨.ok ⟨"UNNAMED".toList, v'⟩, (), ws⟩⟩

/-- `all(entry == other_entry for …)` (var.py:1046): nothing is compared behind the first two that differ. -/
def eqEntries : List (Ent × Ent) → Except PyErr Bool
  | [] => .ok true
  | p :: ps =>
    match Ent.eqEnt p.1 p.2 with
    | .error x => .error x
    | .ok false => .ok false
    | .ok true => eqEntries ps

/-- `var == other` for two vars (var.py:1036-1049). -/
def eqVar (a b : NamedVar) : Except PyErr Bool :=
  if a.var.entries.length = b.var.entries.length then eqEntries (a.var.entries.zip b.var.entries) else .ok false

end Var

/-- The contents of the header objects. -/
abbrev Store := Nat → Hdr

/-- A header object gets new contents. -/
def Store.put (s : Store) (i : Nat) (h : Hdr) : Store := fun j => if j = i then h else s j

/-- A var that refers to its header. -/
structure VarObj where
  name : Str
  header : Nat
  entries : List Ent
  model : Option Model
  deriving DecidableEq, Repr

namespace VarObj

/-- The var with the contents of its header. -/
def toVar (v : VarObj) (s : Store) : Var := ⟨s v.header, v.entries, v.model⟩

/-- `for entry in entries: new.add_entry(entry)` (var.py:122-123). -/
def addAll (env : Env V) : List Ent → PyM Var Unit
  | [] => pure ()
  | e :: es => do
    Var.addEntry env (some e)
    addAll env es

/-- `header | entries` (var.py:112-125): `name` is the name of the first entry, and `pick` says which model `set.pop`
takes. -/
def join (env : Env V) (pick : List Model → Model) (name : Str) (h : Nat) (entries : List Ent) : PyM Store VarObj := ⟨fun s =>
  match entries with
  | [] => ⟨.error .indexError, s, []⟩
  | e :: es =>
    match (s h).targets with
    | .error x => ⟨.error x, s, []⟩
    | .ok ts =>
      match (do
          Ent.exportVar env e (some (s h)) (some (pick ts))
          addAll env es : PyM Var Unit) ⟨Hdr.unset, [], none⟩ with
      | ⟨.error x, _, ws⟩ => ⟨.error x, s, ws⟩
      | ⟨.ok (), v, ws⟩ => ⟨.ok ⟨name, h, v.entries, v.model⟩, s, ws⟩⟩

/-- `var.load_bytes(data)` (var.py:1188-1236) for a var that refers to its header: if it raises, what it did to header and
entries is done. -/
def loadInto (env : Env V) (me : Var.ModelEnv) (v : VarObj) (data : Bytes) : PyM Store VarObj := ⟨fun s =>
  match Var.load env me data (v.toVar s) with
  | ⟨.error x, v', ws⟩ => ⟨.error x, s.put v.header v'.hdr, ws⟩
  | ⟨.ok (), v', ws⟩ => ⟨.ok { v with entries := v'.entries, model := v'.model }, s.put v.header v'.hdr, ws⟩⟩

end VarObj
end Verif
