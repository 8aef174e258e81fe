import Verif.Model.Cls

/-! Specifications for the numbers stored in settings and graph databases. -/

namespace Verif.Spec

/-- The numbers of window settings, in the order in which the calculator stores them. -/
def windowNames : List String :=
  ["Xmin", "Xmax", "Xscl", "Ymin", "Ymax", "Yscl", "Thetamin", "Thetamax", "Thetastep", "Tmin", "Tmax", "Tstep",
   "PlotStart", "nMax", "unMin0", "vnMin0", "nMin", "unMin1", "vnMin1", "wnMin0", "PlotStep", "Xres", "wnMin1"]

/-- The numbers of every graph database. -/
def plotNames : List String := ["Xmin", "Xmax", "Xscl", "Ymin", "Ymax", "Yscl"]

/-- The names of the numbers stored by each class, in order. -/
def fieldNames : Cls → List String
  | .window | .recallWindow => windowNames
  | .tableSettings => ["TblMin", "DeltaTbl"]
  | .monoGDB | .gdb => plotNames
  | .monoFunc | .func => plotNames ++ ["Xres"]
  | .monoParam | .param => plotNames ++ ["Tmin", "Tmax", "Tstep"]
  | .monoPolar | .polar => plotNames ++ ["Thetamin", "Thetamax", "Thetastep"]
  | .monoSeq | .seq => plotNames ++ ["PlotStart", "nMax", "unMin", "vnMin", "nMin", "unMinp1", "vnMinp1",
      "wnMin", "PlotStep", "wnMinp1"]
  | _ => []

/-- Where the first number starts: after the length, a byte of window status, or five bytes of modes. -/
def firstField : Cls → Nat
  | .window => 3
  | .recallWindow | .tableSettings => 2
  | _ => 7

/-- The classes of settings and of graph databases. -/
def settingsClasses : List Cls := [.window, .recallWindow, .tableSettings]
def gdbClasses : List Cls :=
  [.monoGDB, .gdb, .monoFunc, .monoParam, .monoPolar, .monoSeq, .func, .param, .polar, .seq]

/-- The numbers are stored one after the other, nine bytes each. -/
def fieldStart (c : Cls) (i : Nat) : Nat := firstField c + 9 * i

/-- The nine bytes of the `i`-th number. -/
def fieldBytes (c : Cls) (i : Nat) (d : Bytes) : Bytes := (d.drop (fieldStart c i)).take 9

/-- The numbers that must be integers. -/
def integerNames : List String := ["PlotStart", "nMax", "nMin", "PlotStep", "TblMin", "DeltaTbl"]

/-- The warnings due when a number is stored under a name: `int` is its integer part and `whole` says
whether it is an integer. -/
def valueWarnings (name : String) (int : Int) (whole : Bool) : List Warn :=
  if name ∈ integerNames then (if whole then [] else [.notInteger])
  else if name = "Xres" then (if whole ∧ 1 ≤ int ∧ int ≤ 8 then [] else [.notInteger])
  else []

/-- The warnings due to the class of the number. -/
def classWarnings (c : Cls) : List Warn :=
  if c ∈ [.real, .undefReal, .realFraction] then [] else [.notGraphable]

/-- The names whose numbers are checked before they are stored. -/
def checkedNames : List String := "Xres" :: integerNames

/-- What the `j`-th number holds after a history of accepted writes, each naming the position written and the
nine bytes stored. -/
def lastStored (j : Nat) : List (Nat × Bytes) → Bytes → Bytes
  | [], b => b
  | (i, x) :: ws, b => lastStored j ws (if i = j then x else b)

end Verif.Spec
