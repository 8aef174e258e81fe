import Mathlib.Analysis.Real.Sqrt
import Verif.Spec.Real

/-! Independent specification of the text and the value of sums of square roots. -/

namespace Verif.Spec

/-- A square root: written with the word `sqrt` or with the sign, possibly after an asterisk and possibly with the
radicand in parentheses. -/
structure Root where
  star : Bool
  word : Bool
  paren : Bool
  digits : Str

def Root.render (r : Root) : Str :=
  (if r.star then ['*'] else []) ++ (if r.word then ['s', 'q', 'r', 't'] else ['√']) ++
  (if r.paren then '(' :: r.digits ++ [')'] else r.digits)

/-- A summand: a sign, digits, and possibly a square root. -/
structure RadTerm where
  sign : Sign
  scalar : Str
  root : Option Root

def RadTerm.rootStr (t : RadTerm) : Str :=
  match t.root with
  | none => []
  | some r => r.render

def RadTerm.render (t : RadTerm) : Str := t.sign.str ++ t.scalar ++ t.rootStr

/-- There are digits, except perhaps before a root. -/
def RadTerm.Valid (t : RadTerm) : Prop :=
  Digits t.scalar ∧ (t.root = none → t.scalar ≠ []) ∧ ∀ r, t.root = some r → Digits r.digits ∧ r.digits ≠ []

/-- The factor of the root; missing digits mean one. -/
def RadTerm.factor (t : RadTerm) : Int :=
  (if t.sign.isNeg then -1 else 1) * (if t.scalar = [] then 1 else digitsValue t.scalar : Nat)

/-- The number under the root; without a root it is one. -/
def RadTerm.radicand (t : RadTerm) : Nat :=
  match t.root with
  | none => 1
  | some r => digitsValue r.digits

/-- A sum of one or two summands over a denominator, with the sum possibly in parentheses. -/
structure RadText where
  paren : Bool
  first : RadTerm
  second : Option RadTerm
  den : Option (Sign × Str)

def RadText.secondStr (t : RadText) : Str :=
  match t.second with
  | none => []
  | some u => u.render

def RadText.sum (t : RadText) : Str := t.first.render ++ t.secondStr

def RadText.denStr (t : RadText) : Str :=
  match t.den with
  | none => []
  | some (s, d) => '/' :: s.str ++ d

def RadText.render (t : RadText) : Str := (if t.paren then '(' :: t.sum ++ [')'] else t.sum) ++ t.denStr

/-- The second summand has a sign; the denominator has digits and is not zero. -/
def RadText.Valid (t : RadText) : Prop :=
  t.first.Valid ∧ (∀ u, t.second = some u → u.Valid ∧ u.sign ≠ .none) ∧
  ∀ s d, t.den = some (s, d) → Digits d ∧ digitsValue d ≠ 0

def RadText.denominator (t : RadText) : Int :=
  match t.den with
  | none => 1
  | some (s, d) => (if s.isNeg then -1 else 1) * (digitsValue d : Int)

/-- Factor and radicand of the second summand; a missing one is zero times the root of one. -/
def RadText.factor2 (t : RadText) : Int :=
  match t.second with
  | none => 0
  | some u => u.factor

def RadText.radicand2 (t : RadText) : Nat :=
  match t.second with
  | none => 1
  | some u => u.radicand

noncomputable def RadText.value (t : RadText) : ℝ :=
  (t.first.factor * Real.sqrt t.first.radicand + t.factor2 * Real.sqrt t.radicand2) / t.denominator

/-- The factor of the larger root, where equal roots are added up. -/
def RadText.lead (t : RadText) : Int :=
  if t.radicand2 < t.first.radicand then t.first.factor
  else if t.radicand2 = t.first.radicand then t.first.factor + t.factor2
  else t.factor2

/-- Numbers of three digits, also where equal roots are added up. -/
structure RadText.Small (t : RadText) : Prop where
  first : t.first.factor.natAbs < 1000 ∧ t.first.radicand < 1000
  second : ∀ u, t.second = some u → u.factor.natAbs < 1000 ∧ u.radicand < 1000
  den : t.denominator.natAbs < 1000
  lead : t.lead.natAbs < 1000

/-- Texts that can be loaded: the leading factor is not zero, two summands are not both without a root, and a single
summand with a root is not followed by a denominator with a sign. -/
structure RadText.Loads (t : RadText) : Prop where
  lead : t.lead ≠ 0
  roots : ∀ u, t.second = some u → t.first.root = none → u.root ≠ none
  denSign : ∀ s d, t.second = none → t.first.root ≠ none → t.den = some (s, d) → s = .none

/-- The factor of the larger of the two roots `x√m` and `y√n`, where equal roots are added up. -/
def leadFactor (x : Int) (m : Nat) (y : Int) (n : Nat) : Int := if n < m then x else if n = m then x + y else y

/-- The fields of radicals whose short text can be read: one of the summands is zero and the other is not, or neither is,
not both radicands are one and the factor of the larger root is not zero. -/
def ShortReads (x : Int) (m : Nat) (y : Int) (n : Nat) : Prop :=
  (¬ (x = 0 ∨ m = 0) ∧ (y = 0 ∨ n = 0)) ∨ ((x = 0 ∨ m = 0) ∧ ¬ (y = 0 ∨ n = 0)) ∨
  (¬ (x = 0 ∨ m = 0) ∧ ¬ (y = 0 ∨ n = 0) ∧ leadFactor x m y n ≠ 0 ∧ ¬ (m = 1 ∧ n = 1))

instance (x : Int) (m : Nat) (y : Int) (n : Nat) : Decidable (ShortReads x m y n) := by unfold ShortReads; infer_instance

end Verif.Spec
