import Verif.Model.Data

/-
Model of `/repo/tivars/flags.py`.

A `Flags` object is a Python `dict` from bit index to 0/1; `Flags` here is its item list in
insertion order. Values are kept as `Bool` (`__init__` reduces them modulo 2; an update with a
value other than 0 or 1 is not modelled).
-/

namespace Verif

/-- `Enum` (flags.py:24-59), for an enum whose recognised values are `all`. -/
def enumConv (all : List Int) : Conv Int where
  get d := (byte0 d).map fun (b : UInt8) => (b.toNat : Int)
  set v _ _ := do
    if v ∉ all then PyM.warn .enumUnrecognized
    PyM.ofExcept (byteOf v)

abbrev FlagItems := List (Nat × Bool)

/-- `d[k] = v` on a dict: replace in place or append. -/
def dictSet (d : FlagItems) (k : Nat) (v : Bool) : FlagItems :=
  match d with
  | [] => [(k, v)]
  | (k', v') :: rest => if k' = k then (k, v) :: rest else (k', v') :: dictSet rest k v

/-- `d |= s` (`dict.__ior__`, inherited by `Flags`; used as `flags |= Flag`). -/
def flagsUpdate (d s : FlagItems) : FlagItems := s.foldl (fun d kv => dictSet d kv.1 kv.2) d

/-- `{bit: 0 for bit in range(n)}` -/
def zeroFlags (n : Nat) : FlagItems := (List.range n).map fun i => (i, false)

/-- `Flags.__init__` (flags.py:83-97) with `bitsets` given:
`range(ceil((max(keys, default=0) + 1) / 8) * 8)` zeroes, updated with `bitsets`. -/
def flagsInit (bitsets : FlagItems) : FlagItems :=
  let m := (bitsets.map Prod.fst).foldl max 0
  flagsUpdate (zeroFlags ((m + 1 + 7) / 8 * 8)) bitsets

/-- `Flags.__init__` with `bitsets = None` (flags.py:91-92). -/
def flagsInitWidth (width : Nat) : FlagItems := zeroFlags width

/-- `self[bit]` -/
def dictGet (d : FlagItems) (k : Nat) : Except PyErr Bool :=
  match d with
  | [] => .error .keyError
  | (k', v) :: rest => if k' = k then .ok v else dictGet rest k

/-- `Flags.__contains__` (flags.py:108-109); `all` stops at the first false. -/
def flagsContains (d : FlagItems) : FlagItems → Except PyErr Bool
  | [] => .ok true
  | (k, v) :: rest =>
    match dictGet d k with
    | .error e => .error e
    | .ok b => if b = v then flagsContains d rest else .ok false

/-- `Flags.__int__` (flags.py:102-106): the values in insertion order, least significant first. -/
def flagsInt (d : FlagItems) : Nat := ofBits (d.map Prod.snd)

/-- `f"{n:b}"[::-1]` as a list of bits. -/
def binDigits (n : Nat) : List Bool :=
  if n = 0 then [false] else (List.range (n.log2 + 1)).map n.testBit

/-- `enumerate` -/
def enumFrom {α : Type} : Nat → List α → List (Nat × α)
  | _, [] => []
  | i, x :: xs => (i, x) :: enumFrom (i + 1) xs

/-- `Flags.get` (flags.py:113-122). -/
def flagsGet (d : Bytes) : FlagItems := flagsInit (enumFrom 0 (binDigits (fromLE d)))

/-- `Flags.set` (flags.py:124-133). -/
def flagsSet (f : FlagItems) : Except PyErr Bytes := intToBytesLE (flagsInt f) (f.length / 8)

/-- `Flags` as a converter. -/
def flagsConv : Conv FlagItems where
  get d := .ok (flagsGet d)
  set v _ _ := PyM.ofExcept (flagsSet v)

end Verif
