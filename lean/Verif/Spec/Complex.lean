import Verif.Spec.RealValue
import Verif.Model.Cls

/-! Independent specification of complex numbers as text. -/

namespace Verif.Spec

/-- How the imaginary unit may be written. -/
inductive ImagUnit where
  | i | bracket | j
  deriving DecidableEq

def ImagUnit.str : ImagUnit → Str
  | .i => ['i']
  | .bracket => ['[', 'i', ']']
  | .j => ['j']

/-- The unit with an optional sign of multiplication in front. -/
def unitStr (star : Bool) (u : ImagUnit) : Str := (if star then ['*'] else []) ++ u.str

/-- The factor of the unit: a number, or just a sign. -/
inductive Factor where
  | number (l : Literal)
  | bare (s : Sign)

def Factor.render : Factor → Str
  | .number l => l.render
  | .bare s => s.str

def Factor.sign : Factor → Sign
  | .number l => l.sign
  | .bare s => s

def Factor.value : Factor → ℚ
  | .number l => l.value
  | .bare s => if s.isNeg then -1 else 1

/-- A number is written with at least one digit. -/
def Literal.Proper (l : Literal) : Prop := l.Valid ∧ l.int ++ l.fracDigits ≠ []

def Factor.Proper : Factor → Prop
  | .number l => l.Proper
  | .bare _ => True

/-- A complex number as text: a real part, an imaginary part, or both. -/
inductive ComplexText where
  | re (l : Literal)
  | im (f : Factor) (star : Bool) (u : ImagUnit)
  | both (l : Literal) (f : Factor) (star : Bool) (u : ImagUnit)

def ComplexText.render : ComplexText → Str
  | .re l => l.render
  | .im f star u => f.render ++ unitStr star u
  | .both l f star u => l.render ++ f.render ++ unitStr star u

/-- Two parts are joined by `+` or `-`. -/
def ComplexText.Valid : ComplexText → Prop
  | .re l => l.Proper
  | .im f _ _ => f.Proper
  | .both l f _ _ => l.Proper ∧ f.Proper ∧ (f.sign = .plus ∨ f.sign = .minus)

/-- The value of the real part. -/
def ComplexText.reValue : ComplexText → ℚ
  | .re l => l.value
  | .im _ _ _ => 0
  | .both l _ _ _ => l.value

/-- The value of the imaginary part. -/
def ComplexText.imValue : ComplexText → ℚ
  | .re _ => 0
  | .im f _ _ => f.value
  | .both _ f _ _ => f.value

/-- What the number literals have to satisfy so that the code reads them correctly: no redundant leading zeros (C16), in
range (C15), and no `+` or `-` in the exponent. -/
def Literal.Safe (l : Literal) : Prop :=
  l.NoLeadingZeros ∧ (l.magnitude = 0 ∨ InExponentRange l.magnitude) ∧
  ∀ m s x, l.exp = some (m, s, x) → s = .none ∨ s = .tilde

/-- A bare sign must not be negative. -/
def Factor.Safe : Factor → Prop
  | .number l => l.Safe
  | .bare s => s.isNeg = false

def ComplexText.Safe : ComplexText → Prop
  | .re l => l.Safe
  | .im f _ _ => f.Safe
  | .both l f _ _ => l.Safe ∧ f.Safe

/-- The subtype by which a part of each kind is marked. -/
def partCode : Cls → Option Nat
  | .real | .undefReal => some 0x0C
  | .realFraction => some 0x1B
  | .realRadical => some 0x1D
  | .realPi => some 0x1E
  | .realPiFraction => some 0x1F
  | _ => none

/-- The kind of number read from a part: undefined numbers become ordinary ones. -/
def partKind (c : Cls) : Cls := if c = .undefReal then .real else c

/-- The class of the complex numbers whose imaginary part is of the given kind. -/
def complexKind : Cls → Cls
  | .realFraction => .complexFraction
  | .realRadical => .complexRadical
  | .realPi => .complexPi
  | .realPiFraction => .complexPiFraction
  | _ => .complex

/-- The kinds of real numbers, in the order in which they are tried. -/
def numberKinds : List Cls := [.real, .undefReal, .realFraction, .realRadical, .realPi, .realPiFraction]

/-- The file version that introduced each kind of part. -/
def partVersion : Cls → Nat
  | .real | .undefReal => 0x00
  | .realFraction => 0x0B
  | _ => 0x10

/-- The same nine bytes up to the low six bits of the first. -/
def SameButSubtype (v v' : Bytes) : Prop :=
  v'.length = 9 ∧ v'.drop 1 = v.drop 1 ∧ (v'.headD 0).toNat / 64 = (v.headD 0).toNat / 64

/-- Text without the characters that have a meaning for complex numbers. -/
def PlainText (s : Str) : Prop := ∀ c ∈ s, c ≠ '+' ∧ c ≠ '-' ∧ c ≠ '*' ∧ c ≠ '[' ∧ c ≠ 'i' ∧ c ≠ 'j'

/-- How a sign in front of a part is written. -/
inductive Lead where
  | none | plus | minus
  deriving DecidableEq

def Lead.str : Lead → Str
  | .none => []
  | .plus => ['+']
  | .minus => ['-']

/-- What is left of it in the text of the part: `+` is dropped. -/
def Lead.keep : Lead → Str
  | .minus => ['-']
  | _ => []

end Verif.Spec
