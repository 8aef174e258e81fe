import Verif.Spec.ArrayReload
import Verif.Spec.ArrayText
import Verif.Spec.Complex

/-! How numbers are written with the keys of a calculator: `~` for the sign of negation, `n/d` for fractions, `sqrt(` for
roots and `[i]` for the imaginary unit. -/

namespace Verif.Spec

def Sign.calc : Sign → Str
  | .none => []
  | .plus => ['+']
  | .minus | .tilde => ['~']

def Literal.calc (l : Literal) : Str :=
  l.sign.calc ++ l.int ++ l.fracStr ++
    match l.exp with
    | none => []
    | some (m, s, x) => m.str ++ s.calc ++ x

def RadTerm.calc (t : RadTerm) : Str :=
  t.sign.calc ++ t.scalar ++
    match t.root with
    | none => []
    | some r => ['s', 'q', 'r', 't', '('] ++ r.digits ++ [')']

def RadText.calcSum (t : RadText) : Str :=
  t.first.calc ++
    match t.second with
    | none => []
    | some u => u.calc

def RadText.calcDen (t : RadText) : Str :=
  match t.den with
  | none => []
  | some (s, d) => ['n', '/', 'd'] ++ s.calc ++ d

def RadText.calc (t : RadText) : Str := (if t.paren then ['('] ++ t.calcSum ++ [')'] else t.calcSum) ++ t.calcDen

def NumText.calc : NumText → Str
  | .literal l => l.calc
  | .ratio g p q => g.calc ++ p ++ ['n', '/', 'd'] ++ q
  | .radical t => t.calc
  | .multiple l _ _ => l.calc ++ ['π']
  | .piRatio g p q => g.calc ++ p ++ ['π', 'n', '/', 'd'] ++ q

def Factor.calc : Factor → Str
  | .number l => l.calc
  | .bare s => s.calc

def ComplexText.calc : ComplexText → Str
  | .re l => l.calc
  | .im f _ _ => f.calc ++ ['[', 'i', ']']
  | .both l f _ _ => l.calc ++ f.calc ++ ['[', 'i', ']']

end Verif.Spec

namespace Verif
open Spec

/-- Numbers that are written without a denominator: decimals, multiples of π, and single roots. -/
def Undivided (x : Ent) : Prop :=
  match x.cls with
  | .real | .realPi => True
  | .realRadical => ∀ d a m b n, radFields ⟨true, x.body.bytes⟩ = .ok (d, a, m, b, n) → d = 1 ∧ (b = 0 ∨ n = 0)
  | _ => False

/-- The complex number `c * 10 ^ e + c' * 10 ^ e' i` with ordinary parts that print in full. -/
def OrdinaryComplex (x : Ent) (c e c' e' : Int) : Prop :=
  x.cls = .complex ∧ ∃ re im : Bytes, x.body.bytes = re ++ im ∧ re.length = 9 ∧ im.length = 9 ∧
    (re.headD 0).toNat % 64 = 0x0C ∧ (im.headD 0).toNat % 64 = 0x0C ∧ ShortDecimal re c e ∧ ShortDecimal im c' e'

end Verif
