import Verif.Spec.RadicalText
import Verif.Spec.Fraction
import Verif.Spec.Complex

/-! Independent specification of the text of the elements of lists and matrices. -/

namespace Verif.Spec

/-- A real number as text: a decimal, a ratio of integers, a sum of square roots, a decimal multiple of π with the
multiplication perhaps written out and π perhaps as a word, a fraction of π. -/
inductive NumText where
  | literal (l : Literal)
  | ratio (s : Sign) (p q : Str)
  | radical (t : RadText)
  | multiple (l : Literal) (star word : Bool)
  | piRatio (s : Sign) (p q : Str)

/-- `π` as it is written after a decimal. -/
def piStrOf (star word : Bool) : Str := (if star then ['*'] else []) ++ (if word then ['p', 'i'] else ['π'])

/-- How the text may be spaced: anywhere, except behind the sign of a decimal multiple of π. -/
def NumText.Writes (n : NumText) (s : Str) : Prop :=
  match n with
  | .literal l => squash s = l.render
  | .ratio g p q => squash s = g.str ++ (p ++ '/' :: q)
  | .radical t => squash s = t.render
  | .multiple l star word => ∃ a, squash a = l.render ∧ s = a ++ piStrOf star word
  | .piRatio g p q => squash s = g.str ++ (p ++ 'π' :: '/' :: q)

/-- A positive or negative ratio. -/
def ratioValue (g : Sign) (p q : Str) : ℚ := (if g.isNeg then -1 else 1) * ((digitsValue p : ℚ) / digitsValue q)

/-- The parts are digits; the denominator is not zero; there is a root. -/
def NumText.Valid : NumText → Prop
  | .literal l => l.Valid
  | .ratio _ p q => Digits p ∧ p ≠ [] ∧ Digits q ∧ digitsValue q ≠ 0
  | .radical t => t.Valid ∧ (t.first.root ≠ none ∨ ∃ u, t.second = some u ∧ u.root ≠ none)
  | .multiple l _ _ => l.Valid
  | .piRatio _ p q => Digits p ∧ p ≠ [] ∧ Digits q ∧ digitsValue q ≠ 0

/-- What the numbers have to satisfy so that they can be held by their class. -/
def NumText.Fits : NumText → Prop
  | .literal l => l.NoLeadingZeros ∧ (l.magnitude = 0 ∨ InExponentRange l.magnitude)
  | .ratio g p q => g ≠ .tilde ∧ (ratioValue g p q).den ≤ 10000 ∧ |ratioValue g p q| < 1000000
  | .radical t => t.Small ∧ t.Loads
  | .multiple l _ _ => l.exp = none ∧ l.NoLeadingZeros ∧ (l.magnitude = 0 ∨ InExponentRange l.magnitude)
  | .piRatio g p q => g ≠ .tilde ∧ (ratioValue g p q).den ≤ 10000 ∧ |ratioValue g p q| < 100000

/-- The class for each form of text. -/
def NumText.kind : NumText → Cls
  | .literal _ => .real
  | .ratio _ _ _ => .realFraction
  | .radical _ => .realRadical
  | .multiple _ _ _ => .realPi
  | .piRatio _ _ _ => .realPiFraction

/-- A character that separates or encloses elements. -/
def IsDelimiter (c : Char) : Prop := c = ',' ∨ c = '[' ∨ c = ']' ∨ c = '{' ∨ c = '}'

/-- A bracket or brace. -/
def IsBracket (c : Char) : Prop := c = '[' ∨ c = ']' ∨ c = '{' ∨ c = '}'

/-- Text of an element: free of delimiters. -/
def Undelimited (s : Str) : Prop := ∀ c ∈ s, ¬ IsDelimiter c

end Verif.Spec
