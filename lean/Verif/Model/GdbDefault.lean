import Verif.Model.Cls

/-
The default dictionaries of graph databases: the files `/repo/tivars/types/json/*.default.json`, which are opened in
`/repo/tivars/types/gdb.py:925-928, 1095-1098, 1241-1244, 1439-1442`. The texts are those of the files; they were copied by a program.
-/

namespace Verif
namespace Ent

/-- `json/func.default.json`. -/
def funcDefault : List String :=
  ["{\n\t\"graphMode\": \"Function\",\n\t\"formatSettings\": [],\n\t\"extSettings\": {\n\t\t\"showExpr\": true\n\t},\n",
   "\t\"globalWindowSettings\": {\n\t\t\"Xmin\": -10.0,\n\t\t\"Xmax\": 10.0,\n\t\t\"Xscl\": 1.0,\n\t\t\"Ymin\": -10.0,\n",
   "\t\t\"Ymax\": 10.0,\n\t\t\"Yscl\": 1.0\n\t},\n\t\"specificData\": {\n\t\t\"settings\": {\n\t\t\t\"Xres\": 1.0\n\t\t},\n",
   "\t\t\"equations\": {\n\t\t\t\"Y1\": {\n\t\t\t\t\"style\": \"ThickLine\",\n\t\t\t\t\"color\": \"Blue\",\n",
   "\t\t\t\t\"flags\": {\n\t\t\t\t\t\"selected\": false,\n\t\t\t\t\t\"wasUsedForGraph\": false,\n",
   "\t\t\t\t\t\"linkTransfer\": false\n\t\t\t\t},\n\t\t\t\t\"expr\": \"\"\n\t\t\t},\n\t\t\t\"Y2\": {\n",
   "\t\t\t\t\"style\": \"ThickLine\",\n\t\t\t\t\"color\": \"Red\",\n\t\t\t\t\"flags\": {\n\t\t\t\t\t\"selected\": false,\n",
   "\t\t\t\t\t\"wasUsedForGraph\": false,\n\t\t\t\t\t\"linkTransfer\": false\n\t\t\t\t},\n\t\t\t\t\"expr\": \"\"\n\t\t\t},\n",
   "\t\t\t\"Y3\": {\n\t\t\t\t\"style\": \"ThickLine\",\n\t\t\t\t\"color\": \"Black\",\n\t\t\t\t\"flags\": {\n",
   "\t\t\t\t\t\"selected\": false,\n\t\t\t\t\t\"wasUsedForGraph\": false,\n\t\t\t\t\t\"linkTransfer\": false\n\t\t\t\t},\n",
   "\t\t\t\t\"expr\": \"\"\n\t\t\t},\n\t\t\t\"Y4\": {\n\t\t\t\t\"style\": \"ThickLine\",\n\t\t\t\t\"color\": \"Magenta\",\n",
   "\t\t\t\t\"flags\": {\n\t\t\t\t\t\"selected\": false,\n\t\t\t\t\t\"wasUsedForGraph\": false,\n",
   "\t\t\t\t\t\"linkTransfer\": false\n\t\t\t\t},\n\t\t\t\t\"expr\": \"\"\n\t\t\t},\n\t\t\t\"Y5\": {\n",
   "\t\t\t\t\"style\": \"ThickLine\",\n\t\t\t\t\"color\": \"Green\",\n\t\t\t\t\"flags\": {\n\t\t\t\t\t\"selected\": false,\n",
   "\t\t\t\t\t\"wasUsedForGraph\": false,\n\t\t\t\t\t\"linkTransfer\": false\n\t\t\t\t},\n\t\t\t\t\"expr\": \"\"\n\t\t\t},\n",
   "\t\t\t\"Y6\": {\n\t\t\t\t\"style\": \"ThickLine\",\n\t\t\t\t\"color\": \"Orange\",\n\t\t\t\t\"flags\": {\n",
   "\t\t\t\t\t\"selected\": false,\n\t\t\t\t\t\"wasUsedForGraph\": false,\n\t\t\t\t\t\"linkTransfer\": false\n\t\t\t\t},\n",
   "\t\t\t\t\"expr\": \"\"\n\t\t\t},\n\t\t\t\"Y7\": {\n\t\t\t\t\"style\": \"ThickLine\",\n\t\t\t\t\"color\": \"Brown\",\n",
   "\t\t\t\t\"flags\": {\n\t\t\t\t\t\"selected\": false,\n\t\t\t\t\t\"wasUsedForGraph\": false,\n",
   "\t\t\t\t\t\"linkTransfer\": false\n\t\t\t\t},\n\t\t\t\t\"expr\": \"\"\n\t\t\t},\n\t\t\t\"Y8\": {\n",
   "\t\t\t\t\"style\": \"ThickLine\",\n\t\t\t\t\"color\": \"Blue\",\n\t\t\t\t\"flags\": {\n\t\t\t\t\t\"selected\": false,\n",
   "\t\t\t\t\t\"wasUsedForGraph\": false,\n\t\t\t\t\t\"linkTransfer\": false\n\t\t\t\t},\n\t\t\t\t\"expr\": \"\"\n\t\t\t},\n",
   "\t\t\t\"Y9\": {\n\t\t\t\t\"style\": \"ThickLine\",\n\t\t\t\t\"color\": \"Red\",\n\t\t\t\t\"flags\": {\n",
   "\t\t\t\t\t\"selected\": false,\n\t\t\t\t\t\"wasUsedForGraph\": false,\n\t\t\t\t\t\"linkTransfer\": false\n\t\t\t\t},\n",
   "\t\t\t\t\"expr\": \"\"\n\t\t\t},\n\t\t\t\"Y0\": {\n\t\t\t\t\"style\": \"ThickLine\",\n\t\t\t\t\"color\": \"Black\",\n",
   "\t\t\t\t\"flags\": {\n\t\t\t\t\t\"selected\": false,\n\t\t\t\t\t\"wasUsedForGraph\": false,\n",
   "\t\t\t\t\t\"linkTransfer\": false\n\t\t\t\t},\n\t\t\t\t\"expr\": \"\"\n\t\t\t}\n\t\t}\n\t},\n\t\"global84CSettings\": {\n",
   "\t\t\"colors\": {\n\t\t\t\"grid\": \"MedGray\",\n\t\t\t\"axes\": \"Black\",\n\t\t\t\"border\": 1\n\t\t},\n\t\t\"other\": {\n",
   "\t\t\t\"globalStyle\": \"Thick\",\n\t\t\t\"detectAsymptotes\": true\n\t\t}\n\t}\n}"]

/-- `json/param.default.json`. -/
def paramDefault : List String :=
  ["{\n\t\"graphMode\": \"Parametric\",\n\t\"formatSettings\": [],\n\t\"extSettings\": {\n\t\t\"showExpr\": true\n\t},\n",
   "\t\"globalWindowSettings\": {\n\t\t\"Xmin\": -10.0,\n\t\t\"Xmax\": 10.0,\n\t\t\"Xscl\": 1.0,\n\t\t\"Ymin\": -10.0,\n",
   "\t\t\"Ymax\": 10.0,\n\t\t\"Yscl\": 1.0\n\t},\n\t\"specificData\": {\n\t\t\"settings\": {\n\t\t\t\"Tmin\": 0.0,\n",
   "\t\t\t\"Tmax\": 6.283185307,\n\t\t\t\"Tstep\": 0.13089969389957\n\t\t},\n\t\t\"equations\": {\n\t\t\t\"X1T\": {\n",
   "\t\t\t\t\"style\": \"ThickLine\",\n\t\t\t\t\"color\": \"Blue\",\n\t\t\t\t\"flags\": {\n\t\t\t\t\t\"selected\": false,\n",
   "\t\t\t\t\t\"wasUsedForGraph\": false,\n\t\t\t\t\t\"linkTransfer\": false\n\t\t\t\t},\n\t\t\t\t\"expr\": \"\"\n\t\t\t},\n",
   "\t\t\t\"Y1T\": {\n\t\t\t\t\"style\": \"ThickLine\",\n\t\t\t\t\"color\": \"Blue\",\n\t\t\t\t\"flags\": {\n",
   "\t\t\t\t\t\"selected\": false,\n\t\t\t\t\t\"wasUsedForGraph\": false,\n\t\t\t\t\t\"linkTransfer\": false\n\t\t\t\t},\n",
   "\t\t\t\t\"expr\": \"\"\n\t\t\t},\n\t\t\t\"X2T\": {\n\t\t\t\t\"style\": \"ThickLine\",\n\t\t\t\t\"color\": \"Red\",\n",
   "\t\t\t\t\"flags\": {\n\t\t\t\t\t\"selected\": false,\n\t\t\t\t\t\"wasUsedForGraph\": false,\n",
   "\t\t\t\t\t\"linkTransfer\": false\n\t\t\t\t},\n\t\t\t\t\"expr\": \"\"\n\t\t\t},\n\t\t\t\"Y2T\": {\n",
   "\t\t\t\t\"style\": \"ThickLine\",\n\t\t\t\t\"color\": \"Red\",\n\t\t\t\t\"flags\": {\n\t\t\t\t\t\"selected\": false,\n",
   "\t\t\t\t\t\"wasUsedForGraph\": false,\n\t\t\t\t\t\"linkTransfer\": false\n\t\t\t\t},\n\t\t\t\t\"expr\": \"\"\n\t\t\t},\n",
   "\t\t\t\"X3T\": {\n\t\t\t\t\"style\": \"ThickLine\",\n\t\t\t\t\"color\": \"Black\",\n\t\t\t\t\"flags\": {\n",
   "\t\t\t\t\t\"selected\": false,\n\t\t\t\t\t\"wasUsedForGraph\": false,\n\t\t\t\t\t\"linkTransfer\": false\n\t\t\t\t},\n",
   "\t\t\t\t\"expr\": \"\"\n\t\t\t},\n\t\t\t\"Y3T\": {\n\t\t\t\t\"style\": \"ThickLine\",\n\t\t\t\t\"color\": \"Black\",\n",
   "\t\t\t\t\"flags\": {\n\t\t\t\t\t\"selected\": false,\n\t\t\t\t\t\"wasUsedForGraph\": false,\n",
   "\t\t\t\t\t\"linkTransfer\": false\n\t\t\t\t},\n\t\t\t\t\"expr\": \"\"\n\t\t\t},\n\t\t\t\"X4T\": {\n",
   "\t\t\t\t\"style\": \"ThickLine\",\n\t\t\t\t\"color\": \"Magenta\",\n\t\t\t\t\"flags\": {\n\t\t\t\t\t\"selected\": false,\n",
   "\t\t\t\t\t\"wasUsedForGraph\": false,\n\t\t\t\t\t\"linkTransfer\": false\n\t\t\t\t},\n\t\t\t\t\"expr\": \"\"\n\t\t\t},\n",
   "\t\t\t\"Y4T\": {\n\t\t\t\t\"style\": \"ThickLine\",\n\t\t\t\t\"color\": \"Magenta\",\n\t\t\t\t\"flags\": {\n",
   "\t\t\t\t\t\"selected\": false,\n\t\t\t\t\t\"wasUsedForGraph\": false,\n\t\t\t\t\t\"linkTransfer\": false\n\t\t\t\t},\n",
   "\t\t\t\t\"expr\": \"\"\n\t\t\t},\n\t\t\t\"X5T\": {\n\t\t\t\t\"style\": \"ThickLine\",\n\t\t\t\t\"color\": \"Green\",\n",
   "\t\t\t\t\"flags\": {\n\t\t\t\t\t\"selected\": false,\n\t\t\t\t\t\"wasUsedForGraph\": false,\n",
   "\t\t\t\t\t\"linkTransfer\": false\n\t\t\t\t},\n\t\t\t\t\"expr\": \"\"\n\t\t\t},\n\t\t\t\"Y5T\": {\n",
   "\t\t\t\t\"style\": \"ThickLine\",\n\t\t\t\t\"color\": \"Green\",\n\t\t\t\t\"flags\": {\n\t\t\t\t\t\"selected\": false,\n",
   "\t\t\t\t\t\"wasUsedForGraph\": false,\n\t\t\t\t\t\"linkTransfer\": false\n\t\t\t\t},\n\t\t\t\t\"expr\": \"\"\n\t\t\t},\n",
   "\t\t\t\"X6T\": {\n\t\t\t\t\"style\": \"ThickLine\",\n\t\t\t\t\"color\": \"Orange\",\n\t\t\t\t\"flags\": {\n",
   "\t\t\t\t\t\"selected\": false,\n\t\t\t\t\t\"wasUsedForGraph\": false,\n\t\t\t\t\t\"linkTransfer\": false\n\t\t\t\t},\n",
   "\t\t\t\t\"expr\": \"\"\n\t\t\t},\n\t\t\t\"Y6T\": {\n\t\t\t\t\"style\": \"ThickLine\",\n\t\t\t\t\"color\": \"Orange\",\n",
   "\t\t\t\t\"flags\": {\n\t\t\t\t\t\"selected\": false,\n\t\t\t\t\t\"wasUsedForGraph\": false,\n",
   "\t\t\t\t\t\"linkTransfer\": false\n\t\t\t\t},\n\t\t\t\t\"expr\": \"\"\n\t\t\t}\n\t\t}\n\t},\n\t\"global84CSettings\": {\n",
   "\t\t\"colors\": {\n\t\t\t\"grid\": \"MedGray\",\n\t\t\t\"axes\": \"Black\",\n\t\t\t\"border\": 1\n\t\t},\n\t\t\"other\": {\n",
   "\t\t\t\"globalStyle\": \"Thick\",\n\t\t\t\"detectAsymptotes\": true\n\t\t}\n\t}\n}"]

/-- `json/polar.default.json`. -/
def polarDefault : List String :=
  ["{\n\t\"graphMode\": \"Polar\",\n\t\"formatSettings\": [],\n\t\"extSettings\": {\n\t\t\"showExpr\": true\n\t},\n",
   "\t\"globalWindowSettings\": {\n\t\t\"Xmin\": -10.0,\n\t\t\"Xmax\": 10.0,\n\t\t\"Xscl\": 1.0,\n\t\t\"Ymin\": -10.0,\n",
   "\t\t\"Ymax\": 10.0,\n\t\t\"Yscl\": 1.0\n\t},\n\t\"specificData\": {\n\t\t\"settings\": {\n\t\t\t\"Thetamin\": 0.0,\n",
   "\t\t\t\"Thetamax\": 6.283185307,\n\t\t\t\"Thetastep\": 0.13089969389957\n\t\t},\n\t\t\"equations\": {\n\t\t\t\"r1\": {\n",
   "\t\t\t\t\"style\": \"ThickLine\",\n\t\t\t\t\"color\": \"Blue\",\n\t\t\t\t\"flags\": {\n\t\t\t\t\t\"selected\": false,\n",
   "\t\t\t\t\t\"wasUsedForGraph\": false,\n\t\t\t\t\t\"linkTransfer\": false\n\t\t\t\t},\n\t\t\t\t\"expr\": \"\"\n\t\t\t},\n",
   "\t\t\t\"r2\": {\n\t\t\t\t\"style\": \"ThickLine\",\n\t\t\t\t\"color\": \"Red\",\n\t\t\t\t\"flags\": {\n",
   "\t\t\t\t\t\"selected\": false,\n\t\t\t\t\t\"wasUsedForGraph\": false,\n\t\t\t\t\t\"linkTransfer\": false\n\t\t\t\t},\n",
   "\t\t\t\t\"expr\": \"\"\n\t\t\t},\n\t\t\t\"r3\": {\n\t\t\t\t\"style\": \"ThickLine\",\n\t\t\t\t\"color\": \"Black\",\n",
   "\t\t\t\t\"flags\": {\n\t\t\t\t\t\"selected\": false,\n\t\t\t\t\t\"wasUsedForGraph\": false,\n",
   "\t\t\t\t\t\"linkTransfer\": false\n\t\t\t\t},\n\t\t\t\t\"expr\": \"\"\n\t\t\t},\n\t\t\t\"r4\": {\n",
   "\t\t\t\t\"style\": \"ThickLine\",\n\t\t\t\t\"color\": \"Magenta\",\n\t\t\t\t\"flags\": {\n\t\t\t\t\t\"selected\": false,\n",
   "\t\t\t\t\t\"wasUsedForGraph\": false,\n\t\t\t\t\t\"linkTransfer\": false\n\t\t\t\t},\n\t\t\t\t\"expr\": \"\"\n\t\t\t},\n",
   "\t\t\t\"r5\": {\n\t\t\t\t\"style\": \"ThickLine\",\n\t\t\t\t\"color\": \"Green\",\n\t\t\t\t\"flags\": {\n",
   "\t\t\t\t\t\"selected\": false,\n\t\t\t\t\t\"wasUsedForGraph\": false,\n\t\t\t\t\t\"linkTransfer\": false\n\t\t\t\t},\n",
   "\t\t\t\t\"expr\": \"\"\n\t\t\t},\n\t\t\t\"r6\": {\n\t\t\t\t\"style\": \"ThickLine\",\n\t\t\t\t\"color\": \"Orange\",\n",
   "\t\t\t\t\"flags\": {\n\t\t\t\t\t\"selected\": false,\n\t\t\t\t\t\"wasUsedForGraph\": false,\n",
   "\t\t\t\t\t\"linkTransfer\": false\n\t\t\t\t},\n\t\t\t\t\"expr\": \"\"\n\t\t\t}\n\t\t}\n\t},\n\t\"global84CSettings\": {\n",
   "\t\t\"colors\": {\n\t\t\t\"grid\": \"MedGray\",\n\t\t\t\"axes\": \"Black\",\n\t\t\t\"border\": 1\n\t\t},\n\t\t\"other\": {\n",
   "\t\t\t\"globalStyle\": \"Thick\",\n\t\t\t\"detectAsymptotes\": true\n\t\t}\n\t}\n}"]

/-- `json/seq.default.json`. -/
def seqDefault : List String :=
  ["{\n\t\"graphMode\": \"Sequence\",\n\t\"formatSettings\": [],\n\t\"seqSettings\": {\n\t\t\"mode\": \"Time\"\n\t},\n",
   "\t\"extSettings\": {\n\t\t\"showExpr\": true\n\t},\n\t\"globalWindowSettings\": {\n\t\t\"Xmin\": -10.0,\n",
   "\t\t\"Xmax\": 10.0,\n\t\t\"Xscl\": 1.0,\n\t\t\"Ymin\": -10.0,\n\t\t\"Ymax\": 10.0,\n\t\t\"Yscl\": 1.0\n\t},\n",
   "\t\"specificData\": {\n\t\t\"settings\": {\n\t\t\t\"nMin\": 0,\n\t\t\t\"nMax\": 10,\n\t\t\t\"PlotStart\": 1,\n",
   "\t\t\t\"PlotStep\": 1,\n\t\t\t\"unMin\": \"\",\n\t\t\t\"unMinp1\": \"\",\n\t\t\t\"vnMin\": \"\",\n\t\t\t\"vnMinp1\": \"\",\n",
   "\t\t\t\"wnMin\": \"\",\n\t\t\t\"wnMinp1\": \"\"\n\t\t},\n\t\t\"equations\": {\n\t\t\t\"u\": {\n",
   "\t\t\t\t\"style\": \"ThickLine\",\n\t\t\t\t\"color\": \"Blue\",\n\t\t\t\t\"flags\": {\n\t\t\t\t\t\"selected\": false,\n",
   "\t\t\t\t\t\"wasUsedForGraph\": false,\n\t\t\t\t\t\"linkTransfer\": false\n\t\t\t\t},\n\t\t\t\t\"expr\": \"\"\n\t\t\t},\n",
   "\t\t\t\"v\": {\n\t\t\t\t\"style\": \"ThickLine\",\n\t\t\t\t\"color\": \"Red\",\n\t\t\t\t\"flags\": {\n",
   "\t\t\t\t\t\"selected\": false,\n\t\t\t\t\t\"wasUsedForGraph\": false,\n\t\t\t\t\t\"linkTransfer\": false\n\t\t\t\t},\n",
   "\t\t\t\t\"expr\": \"\"\n\t\t\t},\n\t\t\t\"w\": {\n\t\t\t\t\"style\": \"ThickLine\",\n\t\t\t\t\"color\": \"Black\",\n",
   "\t\t\t\t\"flags\": {\n\t\t\t\t\t\"selected\": false,\n\t\t\t\t\t\"wasUsedForGraph\": false,\n",
   "\t\t\t\t\t\"linkTransfer\": false\n\t\t\t\t},\n\t\t\t\t\"expr\": \"\"\n\t\t\t}\n\t\t}\n\t},\n\t\"global84CSettings\": {\n",
   "\t\t\"colors\": {\n\t\t\t\"grid\": \"MedGray\",\n\t\t\t\"axes\": \"Black\",\n\t\t\t\"border\": 1\n\t\t},\n\t\t\"other\": {\n",
   "\t\t\t\"globalStyle\": \"Thick\",\n\t\t\t\"detectAsymptotes\": true\n\t\t}\n\t}\n}"]

/-- The default dictionary of a class, if it has one. -/
def defaultText : Cls → Option Str
  | .monoFunc | .func => some (funcDefault.flatMap String.toList)
  | .monoParam | .param => some (paramDefault.flatMap String.toList)
  | .monoPolar | .polar => some (polarDefault.flatMap String.toList)
  | .monoSeq | .seq => some (seqDefault.flatMap String.toList)
  | _ => none

end Ent
end Verif
