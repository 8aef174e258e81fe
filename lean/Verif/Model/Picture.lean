import Verif.Model.Array

/-
Model of pictures and images (`/repo/tivars/types/picture.py`). Saving to image files and the
PIL and NumPy attributes are not modelled.
-/

namespace Verif

/-- A pixel in colour (picture.py:17). -/
abbrev RGB := Int × Int × Int

/-- `bytes([n])`. -/
def oneByte (n : Nat) : Except PyErr Bytes :=
  if n ≤ 255 then .ok [UInt8.ofNat n] else .error .valueError

/-! ### Pixel converters -/

/-- The digits of `f"{n:08b}"` for a byte. -/
def binary8 (n : Nat) : List Nat :=
  [n / 128 % 2, n / 64 % 2, n / 32 % 2, n / 16 % 2, n / 8 % 2, n / 4 % 2, n / 2 % 2, n % 2]

/-- `L1.get(data)` (picture.py:27-36). -/
def l1Get (data : Bytes) : Except PyErr (List Int) :=
  match data with
  | [] => .error .indexError
  | b :: _ => .ok ((binary8 b.toNat).map fun bit : Nat => 255 * (1 - (bit : Int)))

/-- `L1.set(value)` (picture.py:38-47); `int("", 2)` raises `ValueError`. -/
def l1Set (value : List Int) : Except PyErr Bytes :=
  if value = [] then .error .valueError
  else oneByte (value.foldl (fun acc bit => 2 * acc + if bit ≠ 0 then 0 else 1) 0)

/-- `RGBPalette.palette` (picture.py:57-74). -/
def palette : List RGB :=
  [(255, 255, 255), (0, 0, 255), (255, 0, 0), (0, 0, 0), (255, 0, 255), (0, 158, 0), (255, 142, 32),
   (182, 32, 0), (0, 0, 134), (0, 146, 255), (255, 255, 0), (255, 255, 255), (231, 227, 231),
   (199, 195, 199), (142, 138, 142), (81, 85, 81)]

/-- `min(x :: xs, key=key)`: the first of the smallest. -/
def minBy {α : Type} (key : α → Int) : α → List α → α
  | best, [] => best
  | best, x :: xs => minBy key (if key x < key best then x else best) xs

/-- `RGBPalette.nearest(r, g, b)` (picture.py:76-92). -/
def nearest (p : RGB) : PyM Unit RGB := do
  let best := minBy (fun x : RGB => (x.1 - p.1) ^ 2 + (x.2.1 - p.2.1) ^ 2 + (x.2.2 - p.2.2) ^ 2)
    (palette.headD (0, 0, 0)) palette.tail
  if best ≠ p then PyM.warn .paletteApprox else pure ()
  pure best

/-- `RGBPalette.get(data)` (picture.py:94-103). -/
def paletteGet (data : Bytes) : Except PyErr (List RGB) :=
  match data with
  | [] => .error .indexError
  | b :: _ => .ok [palette.getD (b.toNat >>> 4) (0, 0, 0), palette.getD (b.toNat &&& 15) (0, 0, 0)]

/-- `RGBPalette.set(value)` (picture.py:105-114). -/
def paletteSet (value : RGB × RGB) : PyM Unit Bytes := do
  let a ← nearest value.1
  let b ← nearest value.2
  PyM.ofExcept (oneByte ((palette.idxOf a <<< 4) + palette.idxOf b))

/-- `RGB565.get(data)` (picture.py:124-136). -/
def rgb565Get (data : Bytes) : Except PyErr RGB :=
  match data with
  | lo :: hi :: _ =>
    .ok (((hi.toNat >>> 3) * 255 / 31 : Nat),
      ((((hi.toNat &&& 7) <<< 3) ||| (lo.toNat >>> 5)) * 255 / 63 : Nat),
      ((lo.toNat &&& 31) * 255 / 31 : Nat))
  | _ => .error .indexError

/-- `RGB565.set(value)` (picture.py:139-148): a negative component makes one of the two numbers
negative, which `bytes` rejects; `x & ~7` clears the last three bits. -/
def rgb565Set (value : RGB) : Except PyErr Bytes :=
  match value with
  | (.ofNat r, .ofNat g, .ofNat b) =>
    match oneByte (((g >>> 2 &&& 7) <<< 5) ||| b >>> 3) with
    | .error x => .error x
    | .ok lo =>
      match oneByte ((r >>> 3 <<< 3) ||| g >>> 5) with
      | .error x => .error x
      | .ok hi => .ok (lo ++ hi)
  | _ => .error .valueError

namespace Ent
variable {V : Type} [LinearOrder V]

/-! ### Pictures -/

/-- `zip(*[iter(row)] * n, strict=True)`. -/
def strictChunks {α : Type} (n : Nat) (row : List α) : Except PyErr (List (List α)) :=
  if row.length % n = 0 then .ok (chunks n row) else .error .valueError

/-- `b''.join(map(f, l))`. -/
def joinE {α : Type} (f : α → Except PyErr Bytes) (l : List α) : Except PyErr Bytes :=
  match mapE f l with
  | .error x => .error x
  | .ok bs => .ok bs.flatten

/-- `[x for l in ls for x in l]` once `ls` has been computed. -/
def flattenE {α : Type} (r : Except PyErr (List (List α))) : Except PyErr (List α) :=
  match r with
  | .error x => .error x
  | .ok ls => .ok ls.flatten

/-- One row of `TIMonoPicture.load_array`. -/
def monoRow (row : List Int) : Except PyErr Bytes :=
  match strictChunks 8 row with
  | .error x => .error x
  | .ok l => joinE l1Set l

/-- `TIMonoPicture.load_array(arr)` (picture.py:270-272). -/
def loadMono (env : Env V) (arr : List (List Int)) : PyM Ent Unit := do
  let d ← PyM.ofExcept (joinE monoRow arr)
  setData (getVersion env) d

/-- `TIMonoPicture.array()` (picture.py:274-277). -/
def monoArray (e : Ent) : Except PyErr (List (List Int)) :=
  mapE (fun row => flattenE
    (mapE (fun col => l1Get ((e.data.drop (12 * row + col)).take 1)) (List.range 12))) (List.range 63)

/-- `row[::2]`. -/
def every2 {α : Type} : List α → List α
  | [] => []
  | [a] => [a]
  | a :: _ :: l => a :: every2 l

/-- `TIPicture.load_array(arr)` (picture.py:323-325). -/
def loadPicture (env : Env V) (arr : List (List RGB)) : PyM Ent Unit := do
  let o := mapW paletteSet (arr.flatMap fun row => (every2 row).zip (every2 (row.drop 1))) ()
  PyM.warnAll o.warns
  let bs ← PyM.ofExcept o.res
  setData (getVersion env) bs.flatten

/-- `TIPicture.array()` (picture.py:327-330). -/
def pictureArray (e : Ent) : Except PyErr (List (List RGB)) :=
  mapE (fun row => flattenE
    (mapE (fun col => paletteGet ((e.data.drop (133 * row + col)).take 1)) (List.range 133))) (List.range 165)

/-- `TIImage.load_array(arr)` (picture.py:427-429). -/
def loadImage (env : Env V) (arr : List (List RGB)) : PyM Ent Unit := do
  let d ← PyM.ofExcept (joinE (fun row => joinE rgb565Set (row ++ [(0, 0, 0)])) arr.reverse)
  setData (getVersion env) d

/-- `TIImage.array()` (picture.py:431-434): `range(0, 266, 2)` are the even columns. -/
def imageArray (e : Ent) : Except PyErr (List (List RGB)) :=
  match mapE (fun row =>
    mapE (fun col => rgb565Get ((e.data.drop (268 * row + 2 * col)).take 2)) (List.range 133))
    (List.range 83) with
  | .error x => .error x
  | .ok rows => .ok rows.reverse

end Ent

/-! ### Image names -/

/-- `re.fullmatch(r"(Image)?\d", value)` for ASCII digits. -/
def isImageName (value : Str) : Bool :=
  match value with
  | [d] => isDig d
  | ['I', 'm', 'a', 'g', 'e', d] => isDig d
  | _ => false

/-- `ImageName` (picture.py:334-354): `get` is `f"Image{data[1] + 1}"`; in `set` the last character
is read as a number and one is subtracted, which gives -1 for `0`. -/
def imageName : Conv Str where
  get := fun data =>
    match data with
    | _ :: n :: _ => .ok ("Image".toList ++ natRepr (n.toNat + 1))
    | _ => .error .indexError
  set := fun value _ _ => do
    if isImageName value then pure () else PyM.warn .imageName
    let n := if isImageName value then digVal (value.getLastD '1') else 1
    if n = 0 then PyM.raise .valueError else pure [0x3C, UInt8.ofNat (n - 1)]

end Verif
