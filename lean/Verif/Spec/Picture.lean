import Verif.Model.Picture

/-! Specifications for pictures. Only the types of pixels, entries and exceptions are taken from
the model. -/

namespace Verif.Spec

/-- A two-dimensional array of `h` rows of `w` pixels. -/
structure Shape {α : Type} (w h : Nat) (arr : List (List α)) : Prop where
  rows : arr.length = h
  cols : ∀ row ∈ arr, row.length = w

/-- A pixel of a black-and-white picture. -/
def IsBW (p : Int) : Prop := p = 0 ∨ p = 255

/-- The fifteen colours of the calculator: blue, red, black, magenta, green, orange, brown, navy,
light blue, yellow, white and four greys. -/
def colours : List RGB :=
  [(0, 0, 255), (255, 0, 0), (0, 0, 0), (255, 0, 255), (0, 158, 0), (255, 142, 32), (182, 32, 0),
   (0, 0, 134), (0, 146, 255), (255, 255, 0), (255, 255, 255), (231, 227, 231), (199, 195, 199),
   (142, 138, 142), (81, 85, 81)]

/-- The colour with a number in the palette of the calculator: the colours above from 1 on, and white, standing for
no colour, for 0. -/
def colourOf (n : Nat) : RGB := if n = 0 then (255, 255, 255) else colours.getD (n - 1) (0, 0, 0)

/-- The square of the Euclidean distance. -/
def dist2 (p q : RGB) : Int :=
  (p.1 - q.1) * (p.1 - q.1) + (p.2.1 - q.2.1) * (p.2.1 - q.2.1) + (p.2.2 - q.2.2) * (p.2.2 - q.2.2)

/-- `c` is a colour of the calculator that no other one is closer to `p` than. -/
def IsNearest (p c : RGB) : Prop := c ∈ colours ∧ ∀ d ∈ colours, dist2 c p ≤ dist2 d p

/-- The colour with the given five, six and five bits, scaled to 0-255 and rounded down. -/
def scale565 (r g b : Nat) : RGB :=
  (((r * 255 / 31 : Nat) : Int), ((g * 255 / 63 : Nat) : Int), ((b * 255 / 31 : Nat) : Int))

/-- Colours that RGB565 can represent. -/
def Is565 (p : RGB) : Prop := ∃ r g b, r < 32 ∧ g < 64 ∧ b < 32 ∧ p = scale565 r g b

/-- A colour of components 0-255 and the one with only its top five, six and five bits. -/
def Trunc565 (p q : RGB) : Prop := ∃ r g b : Nat, r < 256 ∧ g < 256 ∧ b < 256 ∧
  p = ((r : Int), (g : Int), (b : Int)) ∧ q = scale565 (r / 8) (g / 4) (b / 8)

/-- A colour whose components are 0-255. -/
def IsByteColour (p : RGB) : Prop :=
  (0 ≤ p.1 ∧ p.1 ≤ 255) ∧ (0 ≤ p.2.1 ∧ p.2.1 ≤ 255) ∧ 0 ≤ p.2.2 ∧ p.2.2 ≤ 255

end Verif.Spec
