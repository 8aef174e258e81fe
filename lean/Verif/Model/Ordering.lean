import Verif.Model.Cls
import Verif.Model.Flags
import Verif.Model.Fraction

/-
Flags with values that need not be bits, their text and number, and the comparisons of flags and models
(`/repo/tivars/flags.py:73-109`, `/repo/tivars/models/model.py:15-59`). Bits are not negative.
-/

namespace Verif

/-- The items of a `Flags` object in insertion order, with whatever numbers it holds. -/
abbrev RawFlags := List (Nat × Int)

/-- `d[k] = v` on a dict: replace in place or append. -/
def rawSet (d : RawFlags) (k : Nat) (v : Int) : RawFlags :=
  match d with
  | [] => [(k, v)]
  | (k', v') :: rest => if k' = k then (k, v) :: rest else (k', v') :: rawSet rest k v

/-- `d |= s` and `d | s` (`dict.__ior__` and `dict.__or__`, inherited by `Flags`). -/
def rawUpdate (d s : RawFlags) : RawFlags := s.foldl (fun d kv => rawSet d kv.1 kv.2) d

/-- `Flags.__init__` (flags.py:83-97) with `bitsets` given; the values are reduced to bits. -/
def rawInit (bitsets : RawFlags) : RawFlags :=
  let m := (bitsets.map Prod.fst).foldl max 0
  (rawUpdate ((List.range ((m + 1 + 7) / 8 * 8)).map fun i => (i, 0)) bitsets).map fun kv => (kv.1, kv.2 % 2)

/-- `self[bit]` -/
def rawGet (d : RawFlags) (k : Nat) : Except PyErr Int :=
  match d with
  | [] => .error .keyError
  | (k', v) :: rest => if k' = k then .ok v else rawGet rest k

/-- `Flags.__str__` (flags.py:105-106). -/
def rawText (d : RawFlags) : Str := ((d.map fun kv => intRepr kv.2).reverse).flatten

/-- The digits of `int(text, 2)`. -/
def binValue (acc : Nat) : Str → Except PyErr Nat
  | [] => .ok acc
  | c :: s =>
    if c = '0' then binValue (2 * acc) s else if c = '1' then binValue (2 * acc + 1) s else .error .valueError

/-- `int(text, 2)` for texts of digits and minus signs; others do not occur here. -/
def intBase2 (s : Str) : Except PyErr Int :=
  match s with
  | [] => .error .valueError
  | c :: t =>
    if c = '-' then
      if t = [] then .error .valueError else (binValue 0 t).map fun (n : Nat) => -(n : Int)
    else (binValue 0 s).map fun (n : Nat) => (n : Int)

/-- `Flags.__int__` (flags.py:102-103). -/
def rawInt (d : RawFlags) : Except PyErr Int := intBase2 (rawText d)

/-- The comparison operators. -/
inductive Cmp where
  | lt | le | gt | ge
  deriving DecidableEq, Repr

/-- The method the other operand is asked for. -/
def Cmp.reflect : Cmp → Cmp
  | .lt => .gt
  | .le => .ge
  | .gt => .lt
  | .ge => .le

/-- The comparison methods of a class: `none` is that of `object`, the result `none` is `NotImplemented`. -/
abbrev CmpOps (α : Type) := Cmp → Option (α → α → Except PyErr (Option Bool))

/-- The method that `functools.total_ordering` starts from: the first of `__lt__`, `__le__`, `__gt__`, `__ge__` that is
not that of `object`. Methods of other bases count. -/
def cmpRoot {α : Type} (ops : CmpOps α) : Option Cmp := [Cmp.lt, .le, .gt, .ge].find? fun c => (ops c).isSome

/-- The result of a filled-in method, from that of the root and of `==` (`_gt_from_lt` and the others in `functools`). -/
def cmpFrom : Cmp → Cmp → Bool → Bool → Bool
  | .lt, .gt, r, eq => !r && !eq
  | .lt, .le, r, eq => r || eq
  | .lt, .ge, r, _ => !r
  | .le, .ge, r, eq => !r || eq
  | .le, .lt, r, eq => r && !eq
  | .le, .gt, r, _ => !r
  | .gt, .lt, r, eq => !r && !eq
  | .gt, .ge, r, eq => r || eq
  | .gt, .le, r, _ => !r
  | .ge, .le, r, eq => !r || eq
  | .ge, .gt, r, eq => r && !eq
  | .ge, .lt, r, _ => !r
  | _, _, r, _ => r

/-- `functools.total_ordering`: methods that are there, in the class or a base other than `object`, are kept. -/
def totalOrdering {α : Type} (eq : α → α → Bool) (ops : CmpOps α) : CmpOps α := fun c =>
  match ops c with
  | some f => some f
  | none =>
    match cmpRoot ops with
    | none => none
    | some root =>
      match ops root with
      | none => none
      | some f => some fun a b =>
        match f a b with
        | .error x => .error x
        | .ok none => .ok none
        | .ok (some r) => .ok (some (cmpFrom root c r (eq a b)))

/-- A method of a class that is asked to compare. -/
def cmpCall {α : Type} (ops : CmpOps α) (c : Cmp) (a b : α) : Except PyErr (Option Bool) :=
  match ops c with
  | none => .ok none
  | some f => f a b

/-- `a < b` and the like for two objects of one class: the method of `a`, then the reflected one of `b`. -/
def richCompare {α : Type} (ops : CmpOps α) (c : Cmp) (a b : α) : Except PyErr Bool :=
  match cmpCall ops c a b with
  | .error x => .error x
  | .ok (some r) => .ok r
  | .ok none =>
    match cmpCall ops c.reflect b a with
    | .error x => .error x
    | .ok (some r) => .ok r
    | .ok none => .error .typeError

/-- `Flags.__gt__` (flags.py:99-100). -/
def flagsGt (a b : RawFlags) : Except PyErr (Option Bool) :=
  match rawInt a with
  | .error x => .error x
  | .ok m =>
    match rawInt b with
    | .error x => .error x
    | .ok n => .ok (some (n < m))

/-- The comparison methods of `Flags` before `total_ordering` (flags.py:73-100): `__gt__` is its own, and the others are
those of `dict`, which return `NotImplemented`. -/
def flagsMethods : CmpOps RawFlags
  | .gt => some flagsGt
  | _ => some fun _ _ => .ok none

/-- `==` of dicts: as many items, and the same value for each key. -/
def rawEq (a b : RawFlags) : Bool :=
  a.length == b.length && a.all fun kv => match rawGet b kv.1 with
    | .error _ => false
    | .ok v => v == kv.2

/-- Comparing flags. -/
def flagsCompare (c : Cmp) (a b : RawFlags) : Except PyErr Bool := richCompare (totalOrdering rawEq flagsMethods) c a b

/-- The comparison methods of `TIModel` before `total_ordering` (model.py:44-45). -/
def modelMethods (ord : Model → Nat) : CmpOps Model
  | .ge => some fun a b => .ok (some (Model.ge ord a b))
  | _ => none

/-- Comparing models; they are equal if their names are (model.py:41-42). -/
def modelCompare (ord : Model → Nat) (c : Cmp) (a b : Model) : Except PyErr Bool :=
  richCompare (totalOrdering (fun a b => a == b) (modelMethods ord)) c a b

end Verif
