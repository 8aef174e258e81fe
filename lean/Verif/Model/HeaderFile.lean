import Verif.Model.Files

/-! Headers read from files on their own, the meta section of an entry, and vars without entries. -/

namespace Verif
variable {V : Type} [LinearOrder V]

namespace Hdr

/-- `TIHeader.open(filename)` (var.py:228-238): the whole file is handed to the constructor, whose `if data:` skips an
empty one (var.py:79-80). -/
def openHeader (filename : Str) : PyM Files Hdr := ⟨fun fs =>
  match fs filename with
  | none => ⟨.error .fileNotFoundError, fs, []⟩
  | some b =>
    match init none none [0x1a, 0x0a] none defaultComment b unset with
    | ⟨.error x, _, ws⟩ => ⟨.error x, fs, ws⟩
    | ⟨.ok (), h, ws⟩ => ⟨.ok h, fs, ws⟩⟩

/-- `header.load_from_file(file)` (var.py:219-226): the result is the file with its new position. -/
def loadFromFile (file : Stream) : PyM Hdr Stream := do
  let h ← PyM.get
  let (d, file) := file.read h.len
  load d
  pure file

end Hdr

namespace Ent

/-- `entry.raw.meta` (var.py:326-332): a slice of the bytes of the entry. -/
def rawMeta (e : Ent) : Except PyErr Bytes :=
  match e.bytes with
  | .error x => .error x
  | .ok b => .ok (getSlice b { start := some 2, stop := some ((e.metaLength : Int) + 2) })

/-- `entry.meta` (var.py:608-614). -/
def metaSection (e : Ent) : Except PyErr Bytes :=
  match e.lengthField with
  | .error x => .error x
  | .ok l => .ok (l ++ e.typeId ++ e.name ++ e.version ++ e.archived)

end Ent

namespace Var

/-- `var.is_empty` (var.py:1133-1139). -/
def isEmpty (v : Var) : Bool := v.entries.length == 0

/-- `bool(var)` (var.py:1013-1018). -/
def toBool (v : Var) : Bool := !v.isEmpty

/-- `var.clear()` (var.py:1166-1171). -/
def clear : PyM Var Unit := PyM.modify fun v => { v with entries := [] }

/-- `var.load_var_file(file)` (var.py:1252-1259): everything from the position on. -/
def loadVarFile (env : Env V) (me : ModelEnv) (file : Stream) : PyM Var Unit := load env me file.readAll.1

end Var
end Verif
