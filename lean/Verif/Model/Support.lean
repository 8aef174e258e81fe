import Verif.Model.Version
import Verif.Model.Var
import Verif.Model.Flags

/-
Model of `get_min_os` and `supported_by` of every entry class and of `TIVar`
(`/repo/tivars/var.py:675-683, 698-706, 1173-1186`, `/repo/tivars/types/real.py:142-153`,
`/repo/tivars/types/complex.py:260-269, 284-285`, `/repo/tivars/types/list.py:134-136, 151-152`,
`/repo/tivars/types/matrix.py:119-121, 136-137`, `/repo/tivars/types/tokenized.py:109-110, 453-455`,
`/repo/tivars/types/gdb.py:584-585`, `/repo/tivars/types/group.py:95-96`, `/repo/tivars/types/appvar.py:34-35`,
`/repo/tivars/types/picture.py:267-268, 320-321, 424-425`), and of the features of the models
(`/repo/tivars/models/model.py:61-125`).
-/

namespace Verif
variable {V : Type} [LinearOrder V]

/-- The OS versions used besides those of `Env`: `TI_83.OS()` (complex.py:263) and
`model.OS("latest")` (var.py:706, 1186, 1288). -/
structure OsEnv (V : Type) extends Env V where
  os83 : V
  latest : Model → V

/-! ### Features of models -/

/-- `TIFeature.Complex`, …, `TIFeature.Python` (model.py:87-122): the feature of bit `k`. -/
def feature (k : Nat) : FlagItems := [(k, true)]

/-- `features82` to `features82aep` (model.py:128-138) for each model (model.py:144-173). `|` makes an
updated copy of a dictionary. -/
def features82 : FlagItems := []
def features83 : FlagItems := flagsUpdate features82 (feature 0)
def features82a : FlagItems := flagsUpdate features83 (feature 1)
def features83p : FlagItems := flagsUpdate features82a (feature 2)
def features84p : FlagItems := flagsUpdate features83p (feature 3)
def features84pcse : FlagItems := flagsUpdate features84p (feature 4)
def features84pce : FlagItems := flagsUpdate features84pcse (feature 5)
def features83pce : FlagItems := flagsUpdate features84pce (feature 6)
def features83pceep : FlagItems := flagsUpdate features83pce (feature 7)
def features84pcepy : FlagItems := flagsUpdate features84pce (feature 7)
def features82aep : FlagItems := flagsUpdate features83pceep [(2, false)]

/-- The features each model is made with (model.py:144-173). -/
def Model.features : Model → FlagItems
  | .ti82 => features82
  | .ti83 | .ti82st | .ti82stFr | .ti76Fr => features83
  | .ti83p | .ti83pse | .ti83pFr | .ti82p => features83p
  | .ti84p | .ti84pse | .ti83pFrUsb | .ti84pFr | .ti84ppse => features84p
  | .ti82a => features82a
  | .ti84pt => features84p
  | .ti84pcse => features84pcse
  | .ti84pce | .ti84pcet => features84pce
  | .ti83pce => features83pce
  | .ti83pceep => features83pceep
  | .ti84pcepy | .ti84pcetpe => features84pcepy
  | .ti82aep => features82aep

/-- `model.has(feature)` (model.py:33, 61-69): `feature in TIFeature(features)`. -/
def Model.has (m : Model) (f : FlagItems) : Except PyErr Bool := flagsContains (flagsInit m.features) f

/-- `model.has(TIFeature.ExactMath)` -/
def Model.hasExact (m : Model) : Except PyErr Bool := m.has (feature 6)

namespace Ent

/-! ### The minimum OS -/

/-- `max(versions, default=OsVersions.INITIAL)`. -/
def maxOs (initial : V) : List V → V
  | [] => initial
  | v :: vs => vs.foldl max v

/-- `RealEntry.get_min_os` (real.py:142-150). -/
def realMinOs (env : OsEnv V) (d : Bytes) : Except PyErr V :=
  match d[0]? with
  | some a => if a.toNat = 0x18 ∨ a.toNat = 0x19 then .ok env.p253 else .ok env.initial
  | none => .error .indexError

/-- `ComplexEntry.get_min_os` (complex.py:260-269): `TI_83PCE()` calls a model, which is not callable. -/
def complexMinOs (env : OsEnv V) (d : Bytes) : Except PyErr V :=
  match complexVersion d with
  | .error x => .error x
  | .ok v => if v = 0x00 then .ok env.os83 else if v = 0x0B then .ok env.p255 else .error .typeError

/-- `TIList.get_min_os` and `TIMatrix.get_min_os` (list.py:134-136, matrix.py:119-121): the elements are
asked through a fresh `RealEntry()` or `ComplexEntry()`; those of the base class `TIList` have no
length, so that there are none. -/
def arrayMinOs (env : OsEnv V) (c : Cls) (d : Bytes) : Except PyErr V :=
  if c = .complexList then (mapE (complexMinOs env) (chunks 18 d)).map (maxOs env.initial)
  else if c = .listE then .ok (maxOs env.initial [])
  else (mapE (realMinOs env) (chunks 9 d)).map (maxOs env.initial)

/-- `TIMonoGDB.get_min_os` (gdb.py:584-585); the data of an equation starts at its third byte. -/
def gdbMinOs (env : OsEnv V) (e : Ent) (d : Bytes) : List Warn × V :=
  let src := if d.isEmpty then e.body.bytes.drop (gdbOffset e.cls) else d
  let rs := (gdbEquations e.cls src).map fun b => decode env.initial env.table (b.drop 2)
  (rs.flatMap fun r => r.warns, maxOs env.initial (rs.map fun r => r.since))

/-- `[call() for …]` where the calls warn and may raise; nothing is called after the first that raises. -/
def runAll {β : Type} : List (List Warn × Except PyErr β) → List Warn × Except PyErr (List β)
  | [] => ([], .ok [])
  | (ws, .error x) :: _ => (ws, .error x)
  | (ws, .ok b) :: rs => (ws ++ (runAll rs).1, (runAll rs).2.map (b :: ·))

/-- `entry.get_min_os(data)` for every class, with the warnings on the way; the empty `data` means that
of the entry. The first argument bounds the nesting of groups. -/
def getMinOsN (env : OsEnv V) : Nat → Ent → Bytes → List Warn × Except PyErr V
  | 0, _, _ => ([], .error .recursionError)
  | fuel + 1, e, d =>
    let src := if d.isEmpty then e.data else d
    match e.cls with
    | .realE | .graphRealE | .real | .undefReal | .realFraction | .realRadical | .realPi
    | .realPiFraction => ([], realMinOs env src)
    | .complexE | .complex | .complexFraction | .complexRadical | .complexPi
    | .complexPiFraction => ([], complexMinOs env src)
    | .listE | .realList | .complexList | .matrix => ([], arrayMinOs env e.cls src)
    | .tokenizedE | .equation | .newEquation | .graphedEquation | .string | .program | .protProgram =>
      ((decode env.initial env.table src).warns, .ok (decode env.initial env.table src).since)
    | .asmProgram | .protAsmProgram => ([], .ok (asmMinOs env.toEnv src))
    | .monoGDB | .gdb | .monoFunc | .monoParam | .monoPolar | .monoSeq | .func | .param | .polar
    | .seq => ((gdbMinOs env e d).1, .ok (gdbMinOs env e d).2)
    | .group =>
      match ungroup env.toEnv e d () with
      | ⟨.error x, _, ws⟩ => (ws, .error x)
      | ⟨.ok es, _, ws⟩ =>
        let r := runAll (es.map fun x => getMinOsN env fuel x [])
        (ws ++ r.1, r.2.map (maxOs env.initial))
    | .appVar | .monoPicture => ([], .ok env.osP)
    | .picture | .image => ([], .ok env.osCse)
    | _ => ([], .ok env.initial)

/-- `entry.get_min_os(data)`; a nested group is shorter than the group it is in. -/
def getMinOs (env : OsEnv V) (e : Ent) (d : Bytes) : List Warn × Except PyErr V :=
  getMinOsN env (e.body.bytes.length + d.length + 1) e d

/-! ### Support -/

/-- `TIEntry.supported_by(model)` (var.py:698-706). -/
def supportedBase (env : OsEnv V) (e : Ent) (m : Model) : List Warn × Except PyErr Bool :=
  ((getMinOs env e []).1, (getMinOs env e []).2.map fun os => decide (os < env.latest m))

/-- `number <= limit or model.has(TIFeature.ExactMath)`, where the number may be missing. -/
def orExact (n : Except PyErr Nat) (limit : Nat) (m : Model) : Except PyErr Bool :=
  match n with
  | .error x => .error x
  | .ok n => if n ≤ limit then .ok true else m.hasExact

/-- `entry.supported_by(model)` (var.py:698-706, real.py:152-153, complex.py:284-285, list.py:151-152,
matrix.py:136-137): the second operand of `and` is only looked at if the first is true. -/
def supportedBy (env : OsEnv V) (e : Ent) (m : Model) : List Warn × Except PyErr Bool :=
  match supportedBase env e m with
  | (ws, .ok true) =>
    match e.cls with
    | .realE | .graphRealE | .real | .undefReal | .realFraction | .realRadical | .realPi
    | .realPiFraction =>
      (ws, orExact (match e.body.bytes[0]? with
        | some a => .ok (a.toNat % 64)
        | none => .error .indexError) 0x19 m)
    | .complexE | .complex | .complexFraction | .complexRadical | .complexPi | .complexPiFraction
    | .listE | .realList | .complexList | .matrix =>
      (ws ++ (getVersion env.toEnv e []).1, orExact (getVersion env.toEnv e []).2 0x0B m)
    | _ => (ws, .ok true)
  | r => r

end Ent

/-- `all(entry.get_min_os() < latest for entry in entries)` (var.py:1186): stops at the first that is not. -/
def allBelow (env : OsEnv V) (m : Model) : List Ent → List Warn × Except PyErr Bool
  | [] => ([], .ok true)
  | e :: es =>
    match e.supportedBase env m with
    | (ws, .ok true) => (ws ++ (allBelow env m es).1, (allBelow env m es).2)
    | r => r

/-- `var.supported_by(model)` (var.py:1173-1186). -/
def Var.supportedBy (env : OsEnv V) (v : Var) (model : Option Model) : List Warn × Except PyErr Bool :=
  match model.or v.model with
  | none => ([], .error .valueError)
  | some m =>
    match v.hdr.targets with
    | .error x => ([], .error x)
    | .ok ts => if m ∈ ts then allBelow env m v.entries else ([], .ok false)

end Verif
