import Verif.Py.Core

/-
Python `str` operations used by the library, over lists of characters.
`int(...)` is modelled for the plain decimal grammar `[+-]?[0-9]+`; Python additionally accepts
surrounding whitespace, single underscores between digits and non-ASCII decimal digits. Inputs
of that kind are outside the modelled domain.
-/

namespace Verif

/-- ASCII decimal digit. -/
def isDig (c : Char) : Bool := '0' ≤ c && c ≤ '9'

def digVal (c : Char) : Nat := c.toNat - 48

def digChar (n : Nat) : Char := Char.ofNat (48 + n)

/-- Value of a digit string, most significant first. -/
def natVal (s : Str) : Nat := s.foldl (fun acc c => 10 * acc + digVal c) 0

/-- `int(s)` restricted to unsigned digit strings. -/
def parseNat (s : Str) : Except PyErr Nat :=
  if s = [] ∨ s.all isDig = false then .error .valueError else .ok (natVal s)

/-- `int(s)` -/
def parseInt (s : Str) : Except PyErr Int :=
  match s with
  | '-' :: r => (parseNat r).map fun (n : Nat) => -(n : Int)
  | '+' :: r => (parseNat r).map fun (n : Nat) => (n : Int)
  | r => (parseNat r).map fun (n : Nat) => (n : Int)

/-- `str(n)` for `n ≥ 0` -/
def natRepr (n : Nat) : Str := go n n []
where
  /-- digits are produced from the right; the first argument only bounds the depth -/
  go : Nat → Nat → Str → Str
  | 0, n, acc => digChar n :: acc
  | fuel + 1, n, acc => if n < 10 then digChar n :: acc else go fuel (n / 10) (digChar (n % 10) :: acc)

/-- `str(v)` for an integer -/
def intRepr (v : Int) : Str := if v < 0 then '-' :: natRepr v.natAbs else natRepr v.natAbs

/-- `s.split(sep)` for a one-character separator. Never empty. -/
def splitChar (sep : Char) : Str → List Str
  | [] => [[]]
  | c :: cs =>
    if c = sep then [] :: splitChar sep cs
    else match splitChar sep cs with
      | [] => [[c]]
      | p :: ps => (c :: p) :: ps

/-- `s.startswith(p)` -/
def startsWith (p s : Str) : Bool := p.isPrefixOf s

/-- `s.lstrip(chars)` -/
def lstripChars (chars : List Char) (s : Str) : Str := s.dropWhile (chars.contains ·)

/-- `s.rstrip(chars)` -/
def rstripChars (chars : List Char) (s : Str) : Str := (s.reverse.dropWhile (chars.contains ·)).reverse

/-- `s.strip(chars)` -/
def stripChars (chars : List Char) (s : Str) : Str := rstripChars chars (lstripChars chars s)

/-- `s.replace(old, new)` for nonempty `old`: leftmost non-overlapping occurrences. -/
def replaceStr (old new : Str) (s : Str) : Str :=
  go s s.length
where
  go (s : Str) : Nat → Str
  | 0 => s
  | fuel + 1 =>
    match s with
    | [] => []
    | c :: cs => if old.isPrefixOf (c :: cs) then new ++ go ((c :: cs).drop old.length) fuel
        else c :: go cs fuel

/-- `str.isspace` characters that `str.split()` separates on (the ASCII ones, U+0085, U+00A0,
U+1680, U+2000-U+200A, U+2028, U+2029, U+202F, U+205F, U+3000). -/
def isSpaceChar (c : Char) : Bool :=
  let n := c.toNat
  (9 ≤ n && n ≤ 13) || (28 ≤ n && n ≤ 32) || n == 0x85 || n == 0xA0 || n == 0x1680 ||
  (0x2000 ≤ n && n ≤ 0x200A) || n == 0x2028 || n == 0x2029 || n == 0x202F || n == 0x205F || n == 0x3000

/-- `''.join(string.split())` (numeric.py:41-49 `squash`): removes all whitespace. -/
def squash (s : Str) : Str := s.filter fun c => !isSpaceChar c

/-- `s.lower()` restricted to ASCII letters (other cased letters are outside the domain). -/
def lowerAscii (s : Str) : Str := s.map fun c => if 'A' ≤ c ∧ c ≤ 'Z' then Char.ofNat (c.toNat + 32) else c

/-- `s.upper()` restricted to ASCII letters. -/
def upperAscii (s : Str) : Str := s.map fun c => if 'a' ≤ c ∧ c ≤ 'z' then Char.ofNat (c.toNat - 32) else c

/-- `s.ljust(n, c)` -/
def ljustStr (n : Nat) (c : Char) (s : Str) : Str := s ++ List.replicate (n - s.length) c

end Verif
