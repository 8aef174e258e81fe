import Verif.Spec.Entry
/-! What can go wrong when bytes are loaded into an entry, stated about the bytes alone. -/
namespace Verif.Spec

/-- The calculator data found in the bytes of an entry, as much as is there of what the length
field promises. -/
def dataIn (bytes : Bytes) : Bytes :=
  let d := ljust 17 bytes
  (d.drop (dataFrom d)).take (fromLE (lengthOf d))

/-- The type byte of an entry. -/
def typeIn (bytes : Bytes) : Nat := ((ljust 17 bytes).getD 4 0).toNat

/-- The types that need data: lists need a first element and complex numbers the first byte of the
imaginary part. -/
def typeFault (t : Nat) (d : Bytes) : Option PyErr :=
  if t = 0x01 ∨ t = 0x0D then if d.length < 3 then some .indexError else none
  else if t = 0x0C ∨ t = 0x1B ∨ t = 0x1D ∨ t = 0x1E ∨ t = 0x1F then
    if d.length < 10 then some .valueError else none
  else none

/-- The exception that loading these bytes raises, by the class of the entry loaded into. -/
def loadFault (c : Cls) (bytes : Bytes) : Option PyErr :=
  match c with
  | .entry => typeFault (typeIn bytes) (dataIn bytes)
  | .realE | .graphRealE =>
    match dataIn bytes with
    | [] => some .valueError
    | b :: l => typeFault (b.toNat % 64) (b :: l)
  | .complexE | .complex | .complexFraction | .complexRadical | .complexPi | .complexPiFraction =>
    if (dataIn bytes).length < 10 then some .valueError else none
  | .realList | .complexList => if (dataIn bytes).length < 3 then some .indexError else none
  | .asmProgram | .protAsmProgram => some .userWarningError
  | _ => none

/-- The classes that only serve as bases of others: entries of them are not loaded into. -/
def baseOnly : List Cls := [.sized, .tokenizedE, .settingsE, .pictureE, .listE]

/-- The exception that loading these bytes into a flash header raises: the length of the name and the
type have to be there. -/
def flashFault (d : Bytes) : Option PyErr :=
  if d.length < 17 then some .indexError
  else if d.length < 50 then some .valueError
  else none

/-- Where the look-ahead leaves the position: it reads four bytes, or what is left of them, and
steps back by four. -/
def aheadFrom (data : Bytes) (pos : Nat) : Nat := pos + min 4 (data.length - pos) - 4

/-- The length of the entry that starts at a position, from its two length fields. -/
def aheadLength (data : Bytes) (pos : Nat) : Nat :=
  4 + fromLE ((data.drop pos).take 2) + fromLE ((data.drop (pos + 2)).take 2)

/-- The bytes handed to the entries of a file one after the other, from a position on, as long as
something is left of the total length. -/
inductive Cut (data : Bytes) : Nat → Int → List Bytes → Prop
  | done {pos : Nat} {left : Int} (h : left ≤ 0) : Cut data pos left []
  | next {pos : Nat} {left : Int} {piece : Bytes} {more : List Bytes} (h : 0 < left)
      (hp : piece = (data.drop (aheadFrom data pos)).take (aheadLength data pos))
      (hm : Cut data (aheadFrom data pos + piece.length) (left - aheadLength data pos) more) :
      Cut data pos left (piece :: more)

/-- Where the first entry of a file is looked for: behind the header of 53 bytes, or what is there of
it, and two more. -/
def firstAt (file : Bytes) : Nat := min 53 file.length + 2

/-- The bytes that opening a file as an entry hands to the entry. -/
def firstPiece (file : Bytes) : Bytes :=
  (file.drop (aheadFrom file (firstAt file))).take (aheadLength file (firstAt file))

/-- The exception that opening an existing file as an entry of a class raises. -/
def openFault (c : Cls) (file : Bytes) : Option PyErr :=
  if file.length < 2 then some .osError else loadFault c (firstPiece file)

end Verif.Spec
