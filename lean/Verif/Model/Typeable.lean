import Verif.Model.ArrayText

/-
Model of the format specification `t` of numbers, lists and matrices: text that can be typed on a calculator
(`/repo/tivars/types/real.py:74-77`, `/repo/tivars/types/complex.py:160-163`, `/repo/tivars/types/list.py:92-97`,
`/repo/tivars/types/matrix.py:46-54`). Longer specifications that end with `t` are passed on to the formatting of
`Decimal` and are not modelled.
-/

namespace Verif

/-- `re.sub(r"√(\d*)", r"sqrt(\1)", s)` (real.py:77); the first argument bounds the length of the string. -/
def sqrtSubGo : Nat → Str → Str
  | 0, s => s
  | _ + 1, [] => []
  | n + 1, c :: s =>
    if c = '√' then ['s', 'q', 'r', 't', '('] ++ s.takeWhile isDig ++ [')'] ++ sqrtSubGo n (s.dropWhile isDig)
    else c :: sqrtSubGo n s

@[inherit_doc sqrtSubGo] def sqrtSub (s : Str) : Str := sqrtSubGo s.length s

/-- `format(number, "t")` for a real number whose text is given (real.py:74-77). -/
def typeableReal (text : Str) : Str :=
  squash (sqrtSub (replaceStr ['/'] ['n', '/', 'd'] (replaceStr ['-'] ['~'] text)))

/-- `format(number, "t")` for a complex number whose text is given (complex.py:160-163). -/
def typeableComplex (text : Str) : Str := squash (replaceStr ['-'] ['~'] (replaceStr ['i'] ['[', 'i', ']'] text))

namespace Ent
variable {V : Type} [LinearOrder V]

/-- `format(number, "t")` for an element of a list or matrix: the classes with formats of their own leave this
specification to `RealEntry` (real.py:350-351, 448-449, 632-633, 675-676). -/
def elemTypeable (e : Ent) : Except PyErr Str :=
  match elemStr e with
  | .error x => .error x
  | .ok t => .ok (if e.cls.isSub .complexE then typeableComplex t else typeableReal t)

/-- `format(list, "t")` (list.py:92-97). -/
def listTypeable (env : Env V) (name : Bytes) (e : Ent) : PyM Unit Str := do
  let es ← list env name e
  let ts ← PyM.ofExcept (mapE elemTypeable es)
  pure (['{'] ++ joinStr [','] ts ++ ['}'])

/-- `format(matrix, "t")` (matrix.py:46-54): there is nothing between the rows. -/
def matrixTypeable (env : Env V) (name : Bytes) (e : Ent) : PyM Unit Str := do
  let rows ← matrix env name e
  let ts ← PyM.ofExcept (mapE (mapE elemTypeable) rows)
  pure (['['] ++ joinStr [] (ts.map fun r => ['['] ++ joinStr [','] r ++ [']']) ++ [']'])

end Ent
end Verif
