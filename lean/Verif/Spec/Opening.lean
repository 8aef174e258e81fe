import Verif.Spec.Construct

/-! Specification of the warnings due when an entry is loaded. -/

namespace Verif.Spec
variable {V : Type} [LinearOrder V]

/-- The classes of entries that begin with the length of the rest. -/
def measuredClasses : List Cls :=
  [.equation, .newEquation, .string, .program, .protProgram, .window, .recallWindow, .tableSettings, .appVar, .group,
   .monoPicture, .picture, .image, .monoFunc, .monoParam, .monoPolar, .monoSeq, .func, .param, .polar, .seq]

/-- The classes of entries whose data are tokens. -/
def plainTokenClasses : List Cls := [.equation, .newEquation, .string, .program, .protProgram]

/-- The warnings due for the data: for a length that is not that of the rest; for codes that are no tokens and a version that is
not the one the tokens need; for a number of elements that is not the number of elements that the entry has room for. -/
def dataWarnings (env : Env V) (e : Ent) : List Warn :=
  (if e.cls ∈ measuredClasses ∧ fromLE (e.body.bytes.take 2) ≠ e.body.bytes.length - 2 then [.sizedLength] else []) ++
  (if e.cls ∈ plainTokenClasses then
    (decode env.initial env.table (e.body.bytes.drop 2)).warns ++
    if fromLE e.version ≠
        Ent.tokenVersion env (decode env.initial env.table (e.body.bytes.drop 2)).since (e.body.bytes.drop 2) then [.tokenVersion] else []
  else []) ++
  (if e.cls = .realList ∧ fromLE (e.body.bytes.take 2) ≠ e.body.bytes.length / 9 then [.listLength] else []) ++
  (if e.cls = .complexList ∧ fromLE (e.body.bytes.take 2) ≠ e.body.bytes.length / 18 then [.listLength] else []) ++
  (if e.cls = .matrix ∧ fromLE (e.body.bytes.take 1) * fromLE ((e.body.bytes.drop 1).take 1) ≠ e.body.bytes.length / 9 then
    [.matrixSize] else [])

/-- The warnings due when an entry is loaded into one of its class. -/
def openingWarnings (env : Env V) (e : Ent) : List Warn :=
  loadWarnings e.cls e.metaLen e.version ++ dataWarnings env e

/-- Nothing is unusual about an entry: its version is one its class has, it has flash bytes if its class needs them, and its
length fields, tokens and version agree. -/
structure Usual (env : Env V) (e : Ent) : Prop where
  version : e.cls.versions = [0x00] ∨ fromLE e.version ∈ e.cls.versions
  flash : e.metaLen = [0x0B, 0x00] → e.cls.flashOnly = false
  length : e.cls ∈ measuredClasses → fromLE (e.body.bytes.take 2) = e.body.bytes.length - 2
  tokens : e.cls ∈ plainTokenClasses → (decode env.initial env.table (e.body.bytes.drop 2)).warns = [] ∧
    fromLE e.version = Ent.tokenVersion env (decode env.initial env.table (e.body.bytes.drop 2)).since (e.body.bytes.drop 2)
  reals : e.cls = .realList → fromLE (e.body.bytes.take 2) = e.body.bytes.length / 9
  complexes : e.cls = .complexList → fromLE (e.body.bytes.take 2) = e.body.bytes.length / 18
  sides : e.cls = .matrix → fromLE (e.body.bytes.take 1) * fromLE ((e.body.bytes.drop 1).take 1) = e.body.bytes.length / 9

end Verif.Spec
