import Verif.Model.Entry

/-! Specifications for groups. -/

namespace Verif.Spec

/-- The bytes of a name up to the last one that is not null. -/
def nameText (d : Bytes) : Bytes := (d.reverse.dropWhile (· == 0x00)).reverse

/-- The type IDs of programs, appvars and groups, whose names are of any length in a group. -/
def longTypes : List UInt8 := [0x05, 0x06, 0x15, 0x17]

/-- The type IDs of equations, strings, pictures, graph databases, settings and images, whose names
have three bytes in a group, and which have a length field. -/
def sizedTypes : List UInt8 := [0x03, 0x04, 0x07, 0x08, 0x0B, 0x0F, 0x10, 0x11, 0x1A]

/-- The type IDs of real numbers: decimal, undefined, fraction, radical, multiple of pi and fraction of pi. -/
def realTypes : List UInt8 := [0x00, 0x0E, 0x18, 0x1C, 0x20, 0x21]

/-- How an entry is written into a group: type, version, page and name as in the variable allocation
table, then its data. -/
def groupBytes (e : Ent) : Bytes :=
  e.typeId ++ [0x00] ++ e.version ++ [0x00, 0x00, if e.archived = [0x00] then 0x00 else 0x01] ++
  (if e.typeId.headD 0xFF ∈ longTypes then UInt8.ofNat (nameText e.name).length :: nameText e.name
  else nameText e.name ++ List.replicate (3 - (nameText e.name).length) 0x00) ++ e.body.bytes

/-- A length field followed by that many bytes. -/
def Measured (d : Bytes) : Prop := ∃ t : Bytes, t.length < 65536 ∧ d = toLE 2 t.length ++ t

/-- The entries that can be put into a group and taken out again: programs, appvars, real numbers
and entries with a length field, with names that fit, and groups of such entries. -/
inductive Groupable : Ent → Prop
  | long (e : Ent) (t v a : UInt8) (ht : t ∈ longTypes) (hg : t ≠ 0x17) (h1 : e.typeId = [t]) (h2 : e.version = [v])
      (h3 : e.archived = [a]) (hn : e.name.length = 8) (hc : e.cls ≠ .graphedEquation)
      (hb : Measured e.body.bytes) : Groupable e
  | sized (e : Ent) (t v a : UInt8) (ht : t ∈ sizedTypes) (h1 : e.typeId = [t]) (h2 : e.version = [v])
      (h3 : e.archived = [a]) (hn : e.name.length = 8) (hl : (nameText e.name).length ≤ 3)
      (hc : e.cls ≠ .graphedEquation) (hb : Measured e.body.bytes) : Groupable e
  | real (e : Ent) (t v a : UInt8) (ht : t ∈ realTypes) (h1 : e.typeId = [t]) (h2 : e.version = [v])
      (h3 : e.archived = [a]) (hn : e.name.length = 8) (hl : (nameText e.name).length ≤ 3)
      (hc : e.cls ≠ .graphedEquation) (hb : e.body.bytes.length = 9) : Groupable e
  | group (e : Ent) (v a : UInt8) (es : List Ent) (h1 : e.typeId = [0x17]) (h2 : e.version = [v])
      (h3 : e.archived = [a]) (hn : e.name.length = 8) (hc : e.cls ≠ .graphedEquation)
      (hes : ∀ x ∈ es, Groupable x) (hs : (es.flatMap groupBytes).length < 65536)
      (hb : e.body.bytes = toLE 2 (es.flatMap groupBytes).length ++ es.flatMap groupBytes) : Groupable e

/-- The same type, name, version, archived flag and data. -/
def SameContent (x y : Ent) : Prop :=
  y.typeId = x.typeId ∧ y.name = x.name ∧ y.version = x.version ∧
  (y.archived = [0x00] ↔ x.archived = [0x00]) ∧ y.body.bytes = x.body.bytes

/-- The warnings due when an entry is taken out of a group: pictures, images and graph databases are
looked at before their data is there. -/
def ungroupWarnings (e : Ent) : List Warn :=
  if e.typeId = [0x07] ∨ e.typeId = [0x1A] then [.pictureLength]
  else if e.typeId = [0x08] then [.gdbMode] else []

end Verif.Spec
