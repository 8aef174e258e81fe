import Verif.Model.Entry

/-! Specifications for lists and matrices. -/

namespace Verif.Spec

/-- The classes of real and of complex numbers. -/
def realClasses : List Cls := [.real, .undefReal, .realFraction, .realRadical, .realPi, .realPiFraction]
def complexClasses : List Cls :=
  [.complex, .complexFraction, .complexRadical, .complexPi, .complexPiFraction]

/-- A real number: nine bytes whose type byte names its class in the low six bits. -/
def RealElem (x : Ent) : Prop :=
  x.cls ∈ realClasses ∧ x.body.bytes.length = 9 ∧
    x.cls.typeId = some ((x.body.bytes.getD 0 0).toNat % 64)

/-- A complex number: eighteen bytes whose imaginary type byte names its class, the real type byte
naming any of them. -/
def ComplexElem (x : Ent) : Prop :=
  x.cls ∈ complexClasses ∧ x.body.bytes.length = 18 ∧
    (x.body.bytes.getD 0 0).toNat % 64 ∈ [0x0C, 0x1B, 0x1D, 0x1E, 0x1F] ∧
    x.cls.typeId = some ((x.body.bytes.getD 9 0).toNat % 64)

/-- The elements that fit a kind of list. -/
def FitsList (c : Cls) (x : Ent) : Prop :=
  (c = .realList ∧ RealElem x) ∨ (c = .complexList ∧ ComplexElem x)

/-- The same kind of number with the same value: same class and same data. -/
def SameNumber (x y : Ent) : Prop := x.cls = y.cls ∧ x.body.bytes = y.body.bytes

/-- The version of a number according to its class: exact numbers need newer calculators. For complex
numbers the version depends on both parts. -/
def numberVersion (x : Ent) : Nat :=
  match x.cls with
  | .realFraction => 0x06
  | .realRadical | .realPi | .realPiFraction => 0x10
  | .complex | .complexFraction | .complexRadical | .complexPi | .complexPiFraction =>
    if (x.body.bytes.getD 0 0).toNat % 64 = 0x0C ∧ (x.body.bytes.getD 9 0).toNat % 64 = 0x0C then 0x00
    else if (x.body.bytes.getD 0 0).toNat % 64 ∈ [0x0C, 0x1B] ∧
        (x.body.bytes.getD 9 0).toNat % 64 ∈ [0x0C, 0x1B] then 0x0B
    else 0x10
  | _ => 0x00

end Verif.Spec
