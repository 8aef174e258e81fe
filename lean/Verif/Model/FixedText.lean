import Verif.Model.Typeable
import Verif.Model.Float

/-
Model of the format specifications `.Nf` and `.Nt` of numbers, lists and matrices, for all `N`
(`/repo/tivars/types/real.py:74-83, 350-351, 448-449, 632-633, 675-676`, `/repo/tivars/types/complex.py:160-169`,
`/repo/tivars/types/list.py:92-97`, `/repo/tivars/types/matrix.py:46-54`). Fill characters, signs, widths, grouping and
the other letters of specifications are not modelled.
-/

namespace Verif

/-- `format(d, ".Nf")` for a finite decimal (CPython `Decimal.__format__`): without decimals there is no point. -/
def decFormat (places : Nat) (d : PyDec) : Str :=
  if places = 0 then (if d.neg then ['-'] else []) ++ natRepr (decRescale 0 d) else decFixed places d

/-- `format(x, ".Nf")` for a float: its exact value is rounded, ties to even (CPython `PyOS_double_to_string`). -/
def floatFormat (places : Nat) (x : PyFloat) : Str := decFormat places (decOfFloat x.neg x.m x.q)

/-- The parts of `x + 1j * y` with the signs of zeros, as multiplied and added up to Python 3.13: a float is first made
a complex number with the imaginary part zero. -/
def zeroSigns (x y : PyFloat) : PyFloat × PyFloat :=
  (if x.m = 0 then { x with neg := x.neg && y.neg } else x, if y.m = 0 then { y with neg := false } else y)

/-- `format(x + 1j * y, ".Nf")` (CPython `format_complex_internal`): the imaginary part always has a sign. -/
def complexFormat (places : Nat) (x y : PyFloat) : Str :=
  let (re, im) := zeroSigns x y
  floatFormat places re ++ (if im.neg then [] else ['+']) ++ floatFormat places im ++ ['j']

namespace Ent
variable {V : Type} [LinearOrder V]

/-- `format(number, ".Nf")` (real.py:79-80, complex.py:165-166). Errors of `decimal` that are arithmetic or say that
something is not implemented are not caught. -/
def elemFixed (places : Nat) (e : Ent) : Except PyErr Str :=
  if e.cls.isSub .complexE then
    match complexParts' e with
    | .error x => .error x
    | .ok (x, y) => .ok (complexFormat places x y)
  else if e.cls = .realE then .error .notImplementedError
  else match realPartDecimal e.cls e.body with
    | .error x => .error x
    | .ok d => .ok (decFormat places d)

/-- `format(number, ".Nt")` (real.py:75-77, complex.py:161-163): the text of `.Nf` with some characters replaced. -/
def elemFixedTypeable (places : Nat) (e : Ent) : Except PyErr Str :=
  match elemFixed places e with
  | .error x => .error x
  | .ok t => .ok (if e.cls.isSub .complexE then typeableComplex t else typeableReal t)

/-- `format(list, ".Nf")` (list.py:96-97). -/
def listFixed (env : Env V) (name : Bytes) (places : Nat) (e : Ent) : PyM Unit Str := do
  let es ← list env name e
  let ts ← PyM.ofExcept (mapE (elemFixed places) es)
  pure (['['] ++ joinStr [',', ' '] ts ++ [']'])

/-- `format(list, ".Nt")` (list.py:93-94). -/
def listFixedTypeable (env : Env V) (name : Bytes) (places : Nat) (e : Ent) : PyM Unit Str := do
  let es ← list env name e
  let ts ← PyM.ofExcept (mapE (elemFixedTypeable places) es)
  pure (['{'] ++ joinStr [','] ts ++ ['}'])

/-- `format(matrix, ".Nf")` (matrix.py:50-54). -/
def matrixFixed (env : Env V) (name : Bytes) (places : Nat) (e : Ent) : PyM Unit Str := do
  let rows ← matrix env name e
  let ts ← PyM.ofExcept (mapE (mapE (elemFixed places)) rows)
  pure (['['] ++ joinStr [',', ' '] (ts.map fun r => ['['] ++ joinStr [',', ' '] r ++ [']']) ++ [']'])

/-- `format(matrix, ".Nt")` (matrix.py:47-48, 53-54). -/
def matrixFixedTypeable (env : Env V) (name : Bytes) (places : Nat) (e : Ent) : PyM Unit Str := do
  let rows ← matrix env name e
  let ts ← PyM.ofExcept (mapE (mapE (elemFixedTypeable places)) rows)
  pure (['['] ++ joinStr [] (ts.map fun r => ['['] ++ joinStr [','] r ++ [']']) ++ [']'])

end Ent
end Verif
