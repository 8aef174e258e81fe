import Verif.Spec.Picture

/-! Where calculators keep the pixels of pictures. `d` is the data of the picture, `x` counts columns from the left and `y` rows from
the top. -/

namespace Verif.Spec

/-- Black and white, 96 x 63: rows of 12 bytes from the top, the leftmost of eight pixels in the highest bit, which is set for black. -/
def monoPixel (d : Bytes) (x y : Nat) : Int :=
  if (d.getD (12 * y + x / 8) 0).toNat.testBit (7 - x % 8) then 0 else 255

/-- Colours by number, 266 x 165: rows of 133 bytes from the top, the left one of two pixels in the upper half of the byte. -/
def palettePixel (d : Bytes) (x y : Nat) : RGB :=
  colourOf (if x % 2 = 0 then (d.getD (133 * y + x / 2) 0).toNat / 16 else (d.getD (133 * y + x / 2) 0).toNat % 16)

/-- Images, 133 x 83: rows of 268 bytes from the bottom, the last two of each unused; red, green and blue in five, six and five bits of a
number with the lower byte first. -/
def imagePixel (d : Bytes) (x y : Nat) : RGB :=
  let n := (d.getD (268 * (82 - y) + 2 * x) 0).toNat + 256 * (d.getD (268 * (82 - y) + 2 * x + 1) 0).toNat
  scale565 (n / 2048) (n / 32 % 64) (n % 32)

/-- `arr` has the pixels `px` in `h` rows of `w`. -/
def Shows {α : Type} (w h : Nat) (px : Nat → Nat → α) (arr : List (List α)) : Prop :=
  Shape w h arr ∧ ∀ y < h, ∀ x < w, ∃ row, arr[y]? = some row ∧ row[x]? = some (px x y)

/-- `l` has the pixels `px` in reading order. -/
def ReadsOut {α : Type} (w h : Nat) (px : Nat → Nat → α) (l : List α) : Prop :=
  l.length = w * h ∧ ∀ y < h, ∀ x < w, l[w * y + x]? = some (px x y)

end Verif.Spec
