import Verif.Model.Support

/-! Specifications for the minimum OS of entries and for the support of models. -/

namespace Verif.Spec
variable {V : Type} [LinearOrder V]

/-- The greatest of a list of OS versions; the initial one if there are none. -/
def Greatest (initial os : V) (l : List V) : Prop :=
  (∀ x ∈ l, x ≤ os) ∧ (os ∈ l ∨ l = [] ∧ os = initial)

/-- The kind of a stored number: its first byte without sign and graph bit. -/
def kindByte (d : Bytes) : Nat := (d.getD 0 0).toNat % 64

/-- The first byte has neither sign nor graph bit. -/
def Unsigned (d : Bytes) : Prop := (d.getD 0 0).toNat < 64

instance (d : Bytes) : Decidable (Unsigned d) := by unfold Unsigned; infer_instance

/-- The OS a stored real number needs: fractions came with 2.53. -/
def realOs (env : OsEnv V) (d : Bytes) : V := if kindByte d ∈ [0x18, 0x19] then env.p253 else env.initial

/-- The OS a stored complex number without radicals and multiples of pi needs: fractions came with 2.55. -/
def complexOs (env : OsEnv V) (d : Bytes) : V :=
  if kindByte d = 0x1B ∨ kindByte (d.drop 9) = 0x1B then env.p255 else env.os83

/-- A stored complex number neither part of which has a sign or graph bit, both parts being decimals or
fractions. -/
def PlainComplex (d : Bytes) : Prop :=
  10 ≤ d.length ∧ Unsigned d ∧ Unsigned (d.drop 9) ∧ kindByte d ∈ [0x0C, 0x1B] ∧ kindByte (d.drop 9) ∈ [0x0C, 0x1B]

instance (d : Bytes) : Decidable (PlainComplex d) := by unfold PlainComplex; infer_instance

/-- The classes of real numbers. -/
def realEntries : List Cls :=
  [.realE, .graphRealE, .real, .undefReal, .realFraction, .realRadical, .realPi, .realPiFraction]

/-- The classes of complex numbers. -/
def complexEntries : List Cls :=
  [.complexE, .complex, .complexFraction, .complexRadical, .complexPi, .complexPiFraction]

/-- The classes of tokens; assembly programs are not looked into. -/
def tokenClasses : List Cls :=
  [.tokenizedE, .equation, .newEquation, .graphedEquation, .string, .program, .protProgram]

/-- The classes that contain numbers, tokens or entries. -/
def otherClasses : List Cls :=
  [.listE, .realList, .complexList, .matrix, .asmProgram, .protAsmProgram, .monoGDB, .gdb, .monoFunc, .monoParam,
   .monoPolar, .monoSeq, .func, .param, .polar, .seq, .group]

/-- The tokens that mark assembly programs, and the models they came with. -/
def asmMarks (env : OsEnv V) : List (Bytes × V) :=
  [([0xBB, 0x6D], env.osP), ([0xEF, 0x69], env.osCse), ([0xEF, 0x7B], env.osCe)]

/-- The OS of the classes whose content does not matter: pictures with colours and images came with the
TI-84+CSE, appvars and other pictures with the TI-83+. -/
def classOs (env : OsEnv V) : Cls → V
  | .picture | .image => env.osCse
  | .appVar | .monoPicture => env.osP
  | _ => env.initial

/-- The models having each feature: complex numbers, flash, apps, clock, colours, eZ80, exact math, Python. -/
def featureModels : List (List Model) :=
  let ce : List Model := [.ti84pce, .ti84pcet, .ti83pce, .ti83pceep, .ti84pcepy, .ti84pcetpe, .ti82aep]
  let color : List Model := .ti84pcse :: ce
  let clock : List Model := [.ti84p, .ti84pse, .ti83pFrUsb, .ti84pFr, .ti84ppse, .ti84pt] ++ color
  let flash : List Model := [.ti83p, .ti83pse, .ti83pFr, .ti82p, .ti82a] ++ clock
  [[.ti83, .ti82st, .ti82stFr, .ti76Fr] ++ flash, flash, flash.filter (· ∉ [Model.ti82a, .ti82aep]), clock, color, ce,
   [.ti83pce, .ti83pceep, .ti82aep], [.ti83pceep, .ti84pcepy, .ti84pcetpe, .ti82aep]]

/-- The models with exact math. -/
def exactModels : List Model := [.ti83pce, .ti83pceep, .ti82aep]

end Verif.Spec
