import Verif.Model.Data
import Verif.Py.Str

/-
Model of `/repo/tivars/numeric.py` (BCD converters) and the BCD-based converters of
`/repo/tivars/flash.py` (`BCDDate`, `BCDRevision`).
-/

namespace Verif

/-- `int(str(n), 16)` for `n ≥ 0`: reread the decimal digits of `n` in base 16. -/
def hexOfDec (n : Nat) : Nat := go n n
where
  /-- recursion on the digits; the first argument only bounds the depth -/
  go : Nat → Nat → Nat
  | 0, n => n
  | fuel + 1, n => if n < 10 then n else 16 * go fuel (n / 10) + n % 10

/-- `int(str(v), 16)` for any integer (`"-12"` parses to `-0x12`). -/
def hexOfDecInt (v : Int) : Int := if v < 0 then -(hexOfDec v.natAbs : Int) else hexOfDec v.natAbs

/-- `BCD.get` loop body (numeric.py:71-74). -/
def bcdStep (value : Nat) (b : UInt8) : Nat := value * 100 + (10 * (b.toNat / 16) + b.toNat % 16)

/-- `BCD.get` (numeric.py:61-76). -/
def bcdGet (d : Bytes) : Nat := d.foldl bcdStep 0

/-- `BCD.set` (numeric.py:78-88). -/
def bcdSet (v : Int) (len : Option Nat) : Except PyErr Bytes :=
  intToBytesBE (hexOfDecInt v) (len.getD 7)

/-- `BCD` (numeric.py:52-88). -/
def bcdConv : Conv Int where
  get d := .ok (bcdGet d)
  set v len _ := PyM.ofExcept (bcdSet v len)

/-- `data[i] += x` on a `bytearray`. -/
def bumpByte (d : Bytes) (i x : Nat) : Except PyErr Bytes :=
  match d[i]? with
  | none => .error .indexError
  | some b => if b.toNat + x < 256 then .ok (d.set i (UInt8.ofNat (b.toNat + x))) else .error .valueError

/-- `LeftNibbleBCD` (numeric.py:91-131). -/
def leftNibbleConv : Conv Int where
  get d :=
    match d with
    | [] => .error .indexError
    | b :: bs => .ok ((bs.foldl bcdStep (b.toNat % 16) : Nat) : Int)
  set v _ cur := PyM.ofExcept <|
    match intToBytesBE (hexOfDecInt v) 2 with
    | .error e => .error e
    | .ok data =>
      match byte0 cur with
      | .error e => .error e
      | .ok c => bumpByte data 0 (c.toNat &&& 240)

/-- `RightNibbleBCD` (numeric.py:134-174). -/
def rightNibbleConv : Conv Int where
  get d :=
    match d.getLast? with
    | none => .error .indexError
    | some b => .ok ((10 * d.dropLast.foldl bcdStep 0 + b.toNat / 16 : Nat) : Int)
  set v _ cur := PyM.ofExcept <|
    match intToBytesBE (hexOfDecInt (10 * v)) 2 with
    | .error e => .error e
    | .ok data =>
      match cur[1]? with
      | none => .error .indexError
      | some c => bumpByte data 1 (c.toNat % 16)

/-- `BCDDate` (flash.py:39-68): (day, month, year) over a section of the given length. -/
def bcdDateConv : Conv (Int × Int × Int) where
  get d := .ok (bcdGet (d.take 1), bcdGet ((d.drop 1).take 1), bcdGet ((d.drop 2).take 2))
  set v len cur := bcdConv.set (v.1 * 100 ^ 3 + v.2.1 * 100 ^ 2 + v.2.2) len cur

/-- `BCDRevision` (flash.py:71-101). -/
def bcdRevisionConv : Conv Str where
  get d := .ok (natRepr (bcdGet (d.take 1)) ++ '.' :: natRepr (bcdGet ((d.drop 1).take 1)))
  set v len cur :=
    match splitChar '.' v with
    | [major, minor] => do
      let a ← PyM.ofExcept (parseInt major)
      let b ← PyM.ofExcept (parseInt minor)
      bcdConv.set (100 * a + b) len cur
    | _ => PyM.raise .valueError

end Verif
