import Verif.Proofs.Schema
import Verif.Spec.GdbDict

/-! The schema of graph databases as a value. -/

namespace Verif
open Spec Ent Json

/-! ### The schema -/

/-- A dictionary of JSON. -/
def jsonObj (l : List (String × Json)) : Json := .obj (l.map fun p => (p.1.toList, p.2))
def jsonStr (s : String) : Json := .str s.toList
def jsonStrs (l : List String) : Json := .arr (l.map jsonStr)

def schemaColors : List String :=
  ["Blue", "Red", "Black", "Magenta", "Green", "Orange", "Brown", "Navy", "LtBlue", "Yellow", "White", "LtGray", "MedGray", "Gray", "DarkGray"]
def schemaFormats : List String :=
  ["Dot", "Connected", "Simul", "Sequential", "GridOn", "GridOff", "GridLine", "GridDot", "PolarGC", "RectGC", "CoordOff", "CoordOn",
   "AxesOff", "AxesOn", "LabelOn", "LabelOff"]
def schemaModes : List String := ["Function", "Parametric", "Polar", "Sequence"]
def schemaSeqModes : List String := ["Time", "Web", "uv", "vw", "uw"]
def schemaLines' : List String := ["Thick", "Thin", "DotThick", "DotThin"]

/-- One of the names. -/
def oneOf (names : List String) : List (String × Json) := [("type", jsonStr "string"), ("enum", jsonStrs names)]
def oneOfDefault (names : List String) (d : String) : Json := jsonObj (oneOf names ++ [("default", jsonStr d)])
def boolDefault (d : Json) : Json := jsonObj [("type", jsonStr "boolean"), ("default", d)]
def schColors : Json := jsonObj [("enum", jsonStrs schemaColors)]
def colorRef (d : List (String × Json)) : Json := jsonObj ([("type", jsonStr "string"), ("$ref", jsonStr "#/definitions/colors")] ++ d)
def schMode : Json := oneOfDefault schemaModes "Function"
def schFormat : Json := jsonObj [("type", jsonStr "array"), ("items", jsonObj (oneOf schemaFormats)), ("default", .arr [])]
/-- A dictionary with these members only. -/
def closedObj (props : List (String × Json)) : Json :=
  jsonObj [("type", jsonStr "object"), ("properties", jsonObj props), ("additionalProperties", .bool false), ("default", .obj [])]
def schSeq : Json := closedObj [("mode", oneOfDefault schemaSeqModes "Time")]
def schExt : Json := closedObj [("showExpr", boolDefault (.bool true)), ("seqMode", oneOfDefault seqForms "SEQ(n)")]
def numberTypes : Json := jsonStrs ["string", "number"]
def schNum (d : Int) : Json := jsonObj [("type", numberTypes), ("default", .int d)]
def schWindow : Json := closedObj [("Xmin", schNum (-10)), ("Xmax", schNum 10), ("Xscl", schNum 1), ("Ymin", schNum (-10)), ("Ymax", schNum 10),
  ("Yscl", schNum 1)]
def schSettings : Json := jsonObj [("type", jsonStr "object"), ("additionalProperties", jsonObj [("type", numberTypes)]), ("default", .obj [])]
def schFlags : Json := jsonObj [("type", jsonStr "object"), ("properties", jsonObj [("selected", boolDefault (jsonStr "true")),
  ("wasUsedForGraph", boolDefault (jsonStr "false")), ("linkTransfer", boolDefault (jsonStr "false"))]), ("default", .obj [])]
def schExpr : Json := jsonObj [("type", jsonStr "string"), ("default", jsonStr "")]
def schEq : Json := jsonObj [("type", jsonStr "object"), ("properties", jsonObj [("style", jsonObj (oneOf graphStyles)), ("color", colorRef []),
  ("flags", schFlags), ("expr", schExpr)])]
def schEquations : Json := jsonObj [("type", jsonStr "object"), ("additionalProperties", schEq), ("default", .obj [])]
def schSpecific : Json := jsonObj [("type", jsonStr "object"), ("properties", jsonObj [("settings", schSettings), ("equations", schEquations)])]
def schBorder : Json := jsonObj [("type", jsonStr "integer"), ("enum", .arr [.int 1, .int 2, .int 3, .int 4]), ("default", .int 1)]
def schPaint : Json := closedObj [("grid", colorRef [("default", jsonStr "MedGray")]), ("axes", colorRef [("default", jsonStr "Black")]),
  ("border", schBorder)]
def schOther : Json := closedObj [("globalStyle", oneOfDefault schemaLines' "Thick"), ("detectAsymptotes", boolDefault (.bool true))]
def schGlobal : Json := jsonObj [("type", jsonStr "object"), ("properties", jsonObj [("colors", schPaint), ("other", schOther)]),
  ("default", .obj [])]

/-- The schema of graph databases. -/
def gdbSchema : Json := jsonObj [("type", jsonStr "object"), ("definitions", jsonObj [("colors", schColors)]),
  ("properties", jsonObj [("graphMode", schMode), ("formatSettings", schFormat), ("seqSettings", schSeq), ("extSettings", schExt),
    ("globalWindowSettings", schWindow), ("specificData", schSpecific), ("global84CSettings", schGlobal)])]

theorem schema_text : loads schemaText = .ok gdbSchema := loads_same (by decide +kernel)

theorem conformsTo_schema {v : Json} : ConformsTo schemaText v ↔ Conforms gdbSchema gdbSchema v := by
  constructor
  · rintro ⟨root, h, hv⟩
    rw [schema_text] at h
    obtain rfl := Except.ok.inj h
    exact hv
  · exact fun h => ⟨_, schema_text, h⟩

end Verif
