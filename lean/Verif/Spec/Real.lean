import Verif.Py.Core

/-! Independent specification of decimal literals and their value. -/

namespace Verif.Spec

/-- A character is an ASCII digit. -/
def IsDigit (c : Char) : Prop := 48 ≤ c.toNat ∧ c.toNat ≤ 57

/-- A string of ASCII digits. -/
def Digits (s : Str) : Prop := ∀ c ∈ s, IsDigit c

/-- The number denoted by a string of digits. -/
def digitsValue : Str → Nat
  | [] => 0
  | c :: cs => (c.toNat - 48) * 10 ^ cs.length + digitsValue cs

/-- How a sign may be written in front of a number or an exponent. -/
inductive Sign where
  | none | plus | minus | tilde
  deriving DecidableEq

def Sign.str : Sign → Str
  | .none => []
  | .plus => ['+']
  | .minus => ['-']
  | .tilde => ['~']

/-- `-` and the calculator's `~` both mean negative. -/
def Sign.isNeg : Sign → Bool
  | .minus | .tilde => true
  | _ => false

/-- How the exponent may be introduced. -/
inductive Marker where
  | e | E | pe | pE
  deriving DecidableEq

def Marker.str : Marker → Str
  | .e => ['e']
  | .E => ['E']
  | .pe => ['|', 'e']
  | .pE => ['|', 'E']

/-- A decimal literal: sign, integer digits, optional fraction digits, optional exponent. -/
structure Literal where
  sign : Sign
  int : Str
  frac : Option Str
  exp : Option (Marker × Sign × Str)

def Literal.Valid (l : Literal) : Prop :=
  Digits l.int ∧ (∀ f, l.frac = some f → Digits f) ∧
  (∀ m s x, l.exp = some (m, s, x) → Digits x ∧ x ≠ [])

/-- How the fraction is written. -/
def Literal.fracStr (l : Literal) : Str :=
  match l.frac with
  | none => []
  | some f => '.' :: f

/-- How the exponent is written. -/
def Literal.expStr (l : Literal) : Str :=
  match l.exp with
  | none => []
  | some (m, s, x) => m.str ++ s.str ++ x

/-- How the literal is written. -/
def Literal.render (l : Literal) : Str := l.sign.str ++ l.int ++ l.fracStr ++ l.expStr

/-- The fraction digits, empty when there is no fraction. -/
def Literal.fracDigits (l : Literal) : Str := l.frac.getD []

/-- All digits of the literal read as one integer. -/
def Literal.coeff (l : Literal) : Nat := digitsValue (l.int ++ l.fracDigits)

/-- The written exponent. -/
def Literal.expValue (l : Literal) : Int :=
  match l.exp with
  | none => 0
  | some (_, s, x) => if s.isNeg then -(digitsValue x : Int) else digitsValue x

/-- The literal denotes `± coeff * 10 ^ scale`. -/
def Literal.scale (l : Literal) : Int := l.expValue - l.fracDigits.length

/-- `k` is the number of decimal digits of `n`. -/
def NumDigits (n k : Nat) : Prop := 0 < k ∧ 10 ^ (k - 1) ≤ n ∧ n < 10 ^ k

/-- `m` is the 14-digit number whose digits are the leading digits of `n` (which has `k` digits),
that is `n` truncated toward zero to 14 significant digits and scaled to exactly 14 digits. -/
def Trunc14 (n k m : Nat) : Prop :=
  10 ^ 13 ≤ m ∧ m < 10 ^ 14 ∧
  (k ≤ 14 → m = n * 10 ^ (14 - k)) ∧
  (14 < k → m * 10 ^ (k - 14) ≤ n ∧ n < (m + 1) * 10 ^ (k - 14))

/-- No redundant leading zeros in the integer part. -/
def Literal.NoLeadingZeros (l : Literal) : Prop :=
  digitsValue l.int = 0 ∨ l.int.head? ≠ some '0'

end Verif.Spec
