import Verif.Model.GdbSchema

/-! Specification of what it means that a value of JSON conforms to a schema, for the keywords that the schema of graph databases has:
`type`, `enum`, `properties`, `additionalProperties`, `items`, `$ref` and `definitions`. (`default` says nothing about values.) Numbers in
`enum` are compared as they are written: `1.0` is not `1`, and is no integer. -/

namespace Verif.Spec
open Json

/-- The value is of a type. -/
def hasType (t : Str) : Json → Bool
  | .null => t == "null".toList
  | .bool _ => t == "boolean".toList
  | .int _ => t == "integer".toList || t == "number".toList
  | .float _ => t == "number".toList
  | .str _ => t == "string".toList
  | .arr _ => t == "array".toList
  | .obj _ => t == "object".toList

/-- `type`: a type or several of them. -/
def typeOk (v : Json) : Json → Bool
  | .str t => hasType t v
  | .arr ts => ts.any fun t => match t with
    | .str t => hasType t v
    | _ => false
  | _ => false

/-- The members of a dictionary; other values have none. -/
def members : Json → List (Str × Json)
  | .obj kvs => kvs
  | _ => []

/-- The items of a list; other values have none. -/
def elements : Json → List Json
  | .arr xs => xs
  | _ => []

/-- The keywords of a schema. -/
structure Sch where
  types : Option Json
  enum : Option Json
  props : List (Str × Json)
  extra : Option Json
  items : Option Json
  ref : Option Json

/-- The keywords of a dictionary. -/
def readSch (s : List (Str × Json)) : Sch :=
  ⟨s.lookup "type".toList, s.lookup "enum".toList, ((s.lookup "properties".toList).map members).getD [],
    s.lookup "additionalProperties".toList, s.lookup "items".toList, s.lookup "$ref".toList⟩

/-- What `#/definitions/name` refers to. -/
def refTarget (root : Json) : Json → Option Json
  | .str r =>
    if startsWith "#/definitions/".toList r then ((((members root).lookup "definitions".toList).map members).getD []).lookup (r.drop "#/definitions/".length)
    else none
  | _ => none

/-- The value conforms to a schema, which is a part of the schema `root`. -/
inductive Conforms (root : Json) : Json → Json → Prop
  | any (v : Json) : Conforms root (.bool true) v
  | mk (s : List (Str × Json)) (v : Json)
      (types : ∀ t, (readSch s).types = some t → typeOk v t = true)
      (enum : ∀ vs, (readSch s).enum = some vs → v ∈ elements vs)
      (props : ∀ k x p, (k, x) ∈ members v → (readSch s).props.lookup k = some p → Conforms root p x)
      (extra : ∀ k x a, (k, x) ∈ members v → (readSch s).props.lookup k = none → (readSch s).extra = some a → Conforms root a x)
      (items : ∀ x a, x ∈ elements v → (readSch s).items = some a → Conforms root a x)
      (target : ∀ r, (readSch s).ref = some r → refTarget root r ≠ none)
      (ref : ∀ r d, (readSch s).ref = some r → refTarget root r = some d → Conforms root d v) :
      Conforms root (.obj s) v

/-- The value conforms to the schema with this text. -/
def ConformsTo (text : Str) (v : Json) : Prop := ∃ root, loads text = .ok root ∧ Conforms root root v

end Verif.Spec
