import Verif.Model.Hex

/-! Specifications for entries as hexadecimal text. -/

namespace Verif.Spec

/-- The two digits of a byte. -/
def hexPair (upper : Bool) (b : UInt8) : Str :=
  let digits := (if upper then "0123456789ABCDEF" else "0123456789abcdef").toList
  [digits.getD (b.toNat / 16) '?', digits.getD (b.toNat % 16) '?']

/-- The digits of bytes. -/
def hexText (upper : Bool) (d : Bytes) : Str := d.flatMap (hexPair upper)

/-- Texts with a separator between them. -/
def joinWith (sep : Char) : List Str → Str
  | [] => []
  | [s] => s
  | s :: t :: rest => s ++ sep :: joinWith sep (t :: rest)

/-- Bytes in groups: `n` bytes each counted from the end for positive, from the start for negative `n`, the remaining group
not being empty unless there are no bytes; all in one group for zero. -/
def Grouped (n : Int) (d : Bytes) (gs : List Bytes) : Prop :=
  gs.flatten = d ∧
  if n = 0 then gs = [d]
  else if 0 < n then ∃ g rest, gs = g :: rest ∧ (d ≠ [] → g ≠ []) ∧ g.length ≤ n.natAbs ∧ ∀ x ∈ rest, x.length = n.natAbs
  else ∃ g rest, gs = rest ++ [g] ∧ (d ≠ [] → g ≠ []) ∧ g.length ≤ n.natAbs ∧ ∀ x ∈ rest, x.length = n.natAbs

/-- What a width says: digits with or without a sign. -/
inductive WidthText : Str → Int → Prop
  | plain (s : Str) (h : s ≠ []) (hd : ∀ c ∈ s, isDig c = true) : WidthText s (natVal s)
  | plus (s : Str) (h : s ≠ []) (hd : ∀ c ∈ s, isDig c = true) : WidthText ('+' :: s) (natVal s)
  | minus (s : Str) (h : s ≠ []) (hd : ∀ c ∈ s, isDig c = true) : WidthText ('-' :: s) (-(natVal s : Int))

/-- An ASCII letter in the case asked for. -/
def casedChar (upper : Bool) (c : Char) : Char :=
  if upper then (if 'a' ≤ c ∧ c ≤ 'z' then Char.ofNat (c.toNat - 32) else c)
  else (if 'A' ≤ c ∧ c ≤ 'Z' then Char.ofNat (c.toNat + 32) else c)

/-- The letter of the format specification. -/
def hexLetter (upper : Bool) : Char := if upper then 'X' else 'x'

/-- A digit of either case. -/
def isHexDigit (c : Char) : Bool := c ∈ "0123456789abcdefABCDEF".toList

/-- The bytes pairs of digits stand for. -/
def unhex : Str → Option Bytes
  | [] => some []
  | [_] => none
  | a :: b :: rest =>
    match hexVal a, hexVal b, unhex rest with
    | some x, some y, some bs => some (UInt8.ofNat (16 * x + y) :: bs)
    | _, _, _ => none

end Verif.Spec
