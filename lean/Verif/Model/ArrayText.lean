import Verif.Model.Array
import Verif.Model.Complex

/-
Model of lists and matrices as text (`/repo/tivars/types/list.py:92-97, 182-184`,
`/repo/tivars/types/matrix.py:46-54, 177-180`) and of numbers whose class is chosen by their text
(`/repo/tivars/var.py:868-891`).
-/

namespace Verif

/-- `s.split(sep)` for a nonempty separator. -/
def splitStr (sep s : Str) : List Str := go s s.length
where
  go (s : Str) : Nat → List Str
  | 0 => [s]
  | fuel + 1 =>
    match s with
    | [] => [[]]
    | c :: cs => if sep.isPrefixOf (c :: cs) then [] :: go ((c :: cs).drop sep.length) fuel
        else match go cs fuel with
          | [] => [[c]]
          | p :: ps => (c :: p) :: ps

/-- `sep.join(l)` -/
def joinStr (sep : Str) : List Str → Str
  | [] => []
  | [a] => a
  | a :: b :: l => a ++ sep ++ joinStr sep (b :: l)

namespace Ent
variable {V : Type} [LinearOrder V]

/-- The loop of `TIEntry.load_string` (var.py:881-891) over the classes of real numbers: class and data of the first
that accepts the string. The number is then loaded from its own bytes, which keeps both (C23). -/
def firstReal (string : Str) : List (Int × Cls) → Except PyErr (Cls × Bytes)
  | [] => .error .valueError
  | (_, c) :: rest =>
    match loadRealString c string ⟨true, clearFull c⟩ with
    | ⟨.ok (), b, _⟩ => .ok (c, b.bytes)
    | _ => firstReal string rest

/-- An element of a list, with the parts of an entry that matter for storing it. -/
def elem (c : Cls) (data : Bytes) : Ent := ⟨c, [], [], [], [], [], ⟨true, data⟩⟩

/-- `RealEntry(string)` (var.py:377-390, 868-891). -/
def realOfString (string : Str) : PyM Unit Ent := PyM.ofExcept ((firstReal string realTypes).map fun (c, b) => elem c b)

/-- `ComplexEntry(string)` (complex.py:123-128, 304-344). -/
def complexOfString (string : Str) : PyM Unit Ent := ⟨fun _ =>
  match loadComplexString string (elem .complexE (clearFull .complexE)) with
  | ⟨.error x, _, w⟩ => ⟨.error x, (), w⟩
  | ⟨.ok (), e, w⟩ => ⟨.ok e, (), w⟩⟩

/-- `self._E(string)` for the elements of a list (list.py:184, 211, 228). For the base class of lists the elements would
be entries of any kind; this is not modelled. -/
def elemOfString (c : Cls) (string : Str) : PyM Unit Ent :=
  if c = .complexList then complexOfString string else realOfString string

/-- A computation that does not touch the entry. -/
def outside {α : Type} (x : PyM Unit α) : PyM Ent α := ⟨fun s => ⟨(x ()).res, s, (x ()).warns⟩⟩

/-- `TIList.load_string` (list.py:182-184). -/
def loadListString (string : Str) : PyM Ent Unit := do
  let e ← PyM.get
  let lst ← outside (mapW (elemOfString e.cls) (splitChar ',' (stripChars ['[', ']', '{', '}'] string)))
  loadList lst

/-- The text of an element: a number whose type is not known has no decimal value (real.py:165-170). -/
def elemStr (e : Ent) : Except PyErr Str :=
  if e.cls.isSub .complexE then complexStr e
  else if e.cls = .realE then .error .notImplementedError
  else realPartStr e.cls e.body

/-- `str(list)` (list.py:92-97). -/
def listStr (env : Env V) (name : Bytes) (e : Ent) : PyM Unit Str := do
  let es ← list env name e
  let ts ← PyM.ofExcept (mapE elemStr es)
  pure (['['] ++ joinStr [',', ' '] ts ++ [']'])

/-- The rows of the text of a matrix (matrix.py:179-180). -/
def matrixTexts (string : Str) : List (List Str) :=
  (splitStr [']', '['] (replaceStr [']', ',', '['] [']', '['] ((squash string).drop 1).dropLast)).map fun row =>
    splitChar ',' (replaceStr [']'] [] (replaceStr ['['] [] row))

/-- `TIMatrix.load_string` (matrix.py:177-180). -/
def loadMatrixString (string : Str) : PyM Ent Unit := do
  let rows ← outside (mapW (mapW realOfString) (matrixTexts string))
  loadMatrix rows

/-- `str(matrix)` (matrix.py:46-54). -/
def matrixStr (env : Env V) (name : Bytes) (e : Ent) : PyM Unit Str := do
  let rows ← matrix env name e
  let ts ← PyM.ofExcept (mapE (mapE elemStr) rows)
  pure (['['] ++ joinStr [',', ' '] (ts.map fun r => ['['] ++ joinStr [',', ' '] r ++ [']']) ++ [']'])

end Ent
end Verif
