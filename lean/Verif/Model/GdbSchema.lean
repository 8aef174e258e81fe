import Verif.Model.Json

/-
The schema of the dictionaries of graph databases: the file `/repo/tivars/types/gdb.schema.json`. The text is that of the file; it was
copied by a program. No code of the library reads the file.
-/

namespace Verif
namespace Ent

/-- `gdb.schema.json`. -/
def schemaLines : List String :=
  ["{\n\t\"type\": \"object\",\n\t\"definitions\": {\n\t\t\"colors\": {\n\t\t\t\"enum\": [\n\t\t\t\t\"Blue\",\n",
   "\t\t\t\t\"Red\",\n\t\t\t\t\"Black\",\n\t\t\t\t\"Magenta\",\n\t\t\t\t\"Green\",\n\t\t\t\t\"Orange\",\n\t\t\t\t\"Brown\",\n",
   "\t\t\t\t\"Navy\",\n\t\t\t\t\"LtBlue\",\n\t\t\t\t\"Yellow\",\n\t\t\t\t\"White\",\n\t\t\t\t\"LtGray\",\n\t\t\t\t\"MedGray\",\n",
   "\t\t\t\t\"Gray\",\n\t\t\t\t\"DarkGray\"\n\t\t\t]\n\t\t}\n\t},\n\t\"properties\": {\n\t\t\"graphMode\": {\n",
   "\t\t\t\"type\": \"string\",\n\t\t\t\"enum\": [\n\t\t\t\t\"Function\",\n\t\t\t\t\"Parametric\",\n\t\t\t\t\"Polar\",\n",
   "\t\t\t\t\"Sequence\"\n\t\t\t],\n\t\t\t\"default\": \"Function\"\n\t\t},\n\t\t\"formatSettings\": {\n",
   "\t\t\t\"type\": \"array\",\n\t\t\t\"items\": {\n\t\t\t\t\"type\": \"string\",\n\t\t\t\t\"enum\": [\n\t\t\t\t\t\"Dot\",\n",
   "\t\t\t\t\t\"Connected\",\n\t\t\t\t\t\"Simul\",\n\t\t\t\t\t\"Sequential\",\n\t\t\t\t\t\"GridOn\",\n\t\t\t\t\t\"GridOff\",\n",
   "\t\t\t\t\t\"GridLine\",\n\t\t\t\t\t\"GridDot\",\n\t\t\t\t\t\"PolarGC\",\n\t\t\t\t\t\"RectGC\",\n\t\t\t\t\t\"CoordOff\",\n",
   "\t\t\t\t\t\"CoordOn\",\n\t\t\t\t\t\"AxesOff\",\n\t\t\t\t\t\"AxesOn\",\n\t\t\t\t\t\"LabelOn\",\n\t\t\t\t\t\"LabelOff\"\n",
   "\t\t\t\t]\n\t\t\t},\n\t\t\t\"default\": []\n\t\t},\n\t\t\"seqSettings\": {\n\t\t\t\"type\": \"object\",\n",
   "\t\t\t\"properties\": {\n\t\t\t\t\"mode\": {\n\t\t\t\t\t\"type\": \"string\",\n\t\t\t\t\t\"enum\": [\n",
   "\t\t\t\t\t\t\"Time\",\n\t\t\t\t\t\t\"Web\",\n\t\t\t\t\t\t\"uv\",\n\t\t\t\t\t\t\"vw\",\n\t\t\t\t\t\t\"uw\"\n\t\t\t\t\t],\n",
   "\t\t\t\t\t\"default\": \"Time\"\n\t\t\t\t}\n\t\t\t},\n\t\t\t\"additionalProperties\": false,\n\t\t\t\"default\": {}\n",
   "\t\t},\n\t\t\"extSettings\": {\n\t\t\t\"type\": \"object\",\n\t\t\t\"properties\": {\n\t\t\t\t\"showExpr\": {\n",
   "\t\t\t\t\t\"type\": \"boolean\",\n\t\t\t\t\t\"default\": true\n\t\t\t\t},\n\t\t\t\t\"seqMode\": {\n",
   "\t\t\t\t\t\"type\": \"string\",\n\t\t\t\t\t\"enum\": [\n\t\t\t\t\t\t\"SEQ(n)\",\n\t\t\t\t\t\t\"SEQ(n+1)\",\n",
   "\t\t\t\t\t\t\"SEQ(n+2)\"\n\t\t\t\t\t],\n\t\t\t\t\t\"default\": \"SEQ(n)\"\n\t\t\t\t}\n\t\t\t},\n",
   "\t\t\t\"additionalProperties\": false,\n\t\t\t\"default\": {}\n\t\t},\n\t\t\"globalWindowSettings\": {\n",
   "\t\t\t\"type\": \"object\",\n\t\t\t\"properties\": {\n\t\t\t\t\"Xmin\": {\n\t\t\t\t\t\"type\": [\n\t\t\t\t\t\t\"string\",\n",
   "\t\t\t\t\t\t\"number\"\n\t\t\t\t\t],\n\t\t\t\t\t\"default\": -10\n\t\t\t\t},\n\t\t\t\t\"Xmax\": {\n\t\t\t\t\t\"type\": [\n",
   "\t\t\t\t\t\t\"string\",\n\t\t\t\t\t\t\"number\"\n\t\t\t\t\t],\n\t\t\t\t\t\"default\": 10\n\t\t\t\t},\n\t\t\t\t\"Xscl\": {\n",
   "\t\t\t\t\t\"type\": [\n\t\t\t\t\t\t\"string\",\n\t\t\t\t\t\t\"number\"\n\t\t\t\t\t],\n\t\t\t\t\t\"default\": 1\n\t\t\t\t},\n",
   "\t\t\t\t\"Ymin\": {\n\t\t\t\t\t\"type\": [\n\t\t\t\t\t\t\"string\",\n\t\t\t\t\t\t\"number\"\n\t\t\t\t\t],\n",
   "\t\t\t\t\t\"default\": -10\n\t\t\t\t},\n\t\t\t\t\"Ymax\": {\n\t\t\t\t\t\"type\": [\n\t\t\t\t\t\t\"string\",\n",
   "\t\t\t\t\t\t\"number\"\n\t\t\t\t\t],\n\t\t\t\t\t\"default\": 10\n\t\t\t\t},\n\t\t\t\t\"Yscl\": {\n\t\t\t\t\t\"type\": [\n",
   "\t\t\t\t\t\t\"string\",\n\t\t\t\t\t\t\"number\"\n\t\t\t\t\t],\n\t\t\t\t\t\"default\": 1\n\t\t\t\t}\n\t\t\t},\n",
   "\t\t\t\"additionalProperties\": false,\n\t\t\t\"default\": {}\n\t\t},\n\t\t\"specificData\": {\n",
   "\t\t\t\"type\": \"object\",\n\t\t\t\"properties\": {\n\t\t\t\t\"settings\": {\n\t\t\t\t\t\"type\": \"object\",\n",
   "\t\t\t\t\t\"additionalProperties\": {\n\t\t\t\t\t\t\"type\": [\n\t\t\t\t\t\t\t\"string\",\n\t\t\t\t\t\t\t\"number\"\n",
   "\t\t\t\t\t\t]\n\t\t\t\t\t},\n\t\t\t\t\t\"default\": {}\n\t\t\t\t},\n\t\t\t\t\"equations\": {\n",
   "\t\t\t\t\t\"type\": \"object\",\n\t\t\t\t\t\"additionalProperties\": {\n\t\t\t\t\t\t\"type\": \"object\",\n",
   "\t\t\t\t\t\t\"properties\": {\n\t\t\t\t\t\t\t\"style\": {\n\t\t\t\t\t\t\t\t\"type\": \"string\",\n",
   "\t\t\t\t\t\t\t\t\"enum\": [\n\t\t\t\t\t\t\t\t\t\"SolidLine\",\n\t\t\t\t\t\t\t\t\t\"ThickLine\",\n",
   "\t\t\t\t\t\t\t\t\t\"ShadeAbove\",\n\t\t\t\t\t\t\t\t\t\"ShadeBelow\",\n\t\t\t\t\t\t\t\t\t\"Trace\",\n",
   "\t\t\t\t\t\t\t\t\t\"Animate\",\n\t\t\t\t\t\t\t\t\t\"DottedLine\"\n\t\t\t\t\t\t\t\t]\n\t\t\t\t\t\t\t},\n",
   "\t\t\t\t\t\t\t\"color\": {\n\t\t\t\t\t\t\t\t\"type\": \"string\",\n\t\t\t\t\t\t\t\t\"$ref\": \"#/definitions/colors\"\n",
   "\t\t\t\t\t\t\t},\n\t\t\t\t\t\t\t\"flags\": {\n\t\t\t\t\t\t\t\t\"type\": \"object\",\n\t\t\t\t\t\t\t\t\"properties\": {\n",
   "\t\t\t\t\t\t\t\t\t\"selected\": {\n\t\t\t\t\t\t\t\t\t\t\"type\": \"boolean\",\n\t\t\t\t\t\t\t\t\t\t\"default\": \"true\"\n",
   "\t\t\t\t\t\t\t\t\t},\n\t\t\t\t\t\t\t\t\t\"wasUsedForGraph\": {\n\t\t\t\t\t\t\t\t\t\t\"type\": \"boolean\",\n",
   "\t\t\t\t\t\t\t\t\t\t\"default\": \"false\"\n\t\t\t\t\t\t\t\t\t},\n\t\t\t\t\t\t\t\t\t\"linkTransfer\": {\n",
   "\t\t\t\t\t\t\t\t\t\t\"type\": \"boolean\",\n\t\t\t\t\t\t\t\t\t\t\"default\": \"false\"\n\t\t\t\t\t\t\t\t\t}\n",
   "\t\t\t\t\t\t\t\t},\n\t\t\t\t\t\t\t\t\"default\": {}\n\t\t\t\t\t\t\t},\n\t\t\t\t\t\t\t\"expr\": {\n",
   "\t\t\t\t\t\t\t\t\"type\": \"string\",\n\t\t\t\t\t\t\t\t\"default\": \"\"\n\t\t\t\t\t\t\t}\n\t\t\t\t\t\t}\n\t\t\t\t\t},\n",
   "\t\t\t\t\t\"default\": {}\n\t\t\t\t}\n\t\t\t}\n\t\t},\n\t\t\"global84CSettings\": {\n\t\t\t\"type\": \"object\",\n",
   "\t\t\t\"properties\": {\n\t\t\t\t\"colors\": {\n\t\t\t\t\t\"type\": \"object\",\n\t\t\t\t\t\"properties\": {\n",
   "\t\t\t\t\t\t\"grid\": {\n\t\t\t\t\t\t\t\"type\": \"string\",\n\t\t\t\t\t\t\t\"$ref\": \"#/definitions/colors\",\n",
   "\t\t\t\t\t\t\t\"default\": \"MedGray\"\n\t\t\t\t\t\t},\n\t\t\t\t\t\t\"axes\": {\n\t\t\t\t\t\t\t\"type\": \"string\",\n",
   "\t\t\t\t\t\t\t\"$ref\": \"#/definitions/colors\",\n\t\t\t\t\t\t\t\"default\": \"Black\"\n\t\t\t\t\t\t},\n",
   "\t\t\t\t\t\t\"border\": {\n\t\t\t\t\t\t\t\"type\": \"integer\",\n\t\t\t\t\t\t\t\"enum\": [\n\t\t\t\t\t\t\t\t1,\n",
   "\t\t\t\t\t\t\t\t2,\n\t\t\t\t\t\t\t\t3,\n\t\t\t\t\t\t\t\t4\n\t\t\t\t\t\t\t],\n\t\t\t\t\t\t\t\"default\": 1\n\t\t\t\t\t\t}\n",
   "\t\t\t\t\t},\n\t\t\t\t\t\"additionalProperties\": false,\n\t\t\t\t\t\"default\": {}\n\t\t\t\t},\n\t\t\t\t\"other\": {\n",
   "\t\t\t\t\t\"type\": \"object\",\n\t\t\t\t\t\"properties\": {\n\t\t\t\t\t\t\"globalStyle\": {\n",
   "\t\t\t\t\t\t\t\"type\": \"string\",\n\t\t\t\t\t\t\t\"enum\": [\n\t\t\t\t\t\t\t\t\"Thick\",\n\t\t\t\t\t\t\t\t\"Thin\",\n",
   "\t\t\t\t\t\t\t\t\"DotThick\",\n\t\t\t\t\t\t\t\t\"DotThin\"\n\t\t\t\t\t\t\t],\n\t\t\t\t\t\t\t\"default\": \"Thick\"\n",
   "\t\t\t\t\t\t},\n\t\t\t\t\t\t\"detectAsymptotes\": {\n\t\t\t\t\t\t\t\"type\": \"boolean\",\n\t\t\t\t\t\t\t\"default\": true\n",
   "\t\t\t\t\t\t}\n\t\t\t\t\t},\n\t\t\t\t\t\"additionalProperties\": false,\n\t\t\t\t\t\"default\": {}\n\t\t\t\t}\n\t\t\t},\n",
   "\t\t\t\"default\": {}\n\t\t}\n\t}\n}"]

/-- The text of the file. -/
def schemaText : Str := schemaLines.flatMap String.toList

end Ent
end Verif
