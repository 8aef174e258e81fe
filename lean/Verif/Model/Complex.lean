import Verif.Model.Construct
import Verif.Model.RealText
import Verif.Model.Radical

/-
Model of complex numbers (`/repo/tivars/types/complex.py`): the parts as real numbers, loading from text and from
floats, and `format` with an empty specification. A real number used as a part is its class and its nine bytes.
-/

namespace Verif

/-- `real_analogue` (complex.py:118-121, 363, 387, 403, 423, 443). Other classes have no such attribute. -/
def Cls.realAnalogue : Cls → Except PyErr Cls
  | .complexE | .complex => .ok .real
  | .complexFraction => .ok .realFraction
  | .complexRadical => .ok .realRadical
  | .complexPi => .ok .realPi
  | .complexPiFraction => .ok .realPiFraction
  | _ => .error .attributeError

/-- `imag_subtype_id` (real.py:50, 238, 341, 389, 619, 666). Assigning `None` to a bit field raises `TypeError`. -/
def Cls.imagSubtype : Cls → Except PyErr Int
  | .real | .undefReal => .ok 0x0C
  | .realFraction => .ok 0x1B
  | .realRadical => .ok 0x1D
  | .realPi => .ok 0x1E
  | .realPiFraction => .ok 0x1F
  | _ => .error .typeError

/-- `number.load_string(string)` for the classes of real numbers. -/
def loadRealString (c : Cls) (string : Str) : PyM Buf Unit :=
  match c with
  | .realFraction => fractionLoadString string
  | .realRadical => radLoadString string
  | .realPi => piLoadString string
  | .realPiFraction => piFractionLoadString string
  | _ => realLoadString string

/-- `str(number)` for the classes of real numbers. -/
def realPartStr (c : Cls) (b : Buf) : Except PyErr Str :=
  match c with
  | .realFraction => fractionStr b
  | .realRadical => radStr b
  | .realPi => piStr b
  | .realPiFraction => piFractionStr b
  | _ => realStr b

/-- `cls(string)` for a class of real numbers, down to its data: the constructor clears the number and loads the
string (var.py:377-390). The name, version and flags of the part are not used. -/
def newReal {σ : Type} (c : Cls) (string : Str) : PyM σ Buf := ⟨fun s =>
  match loadRealString c string ⟨true, Ent.clearFull c⟩ with
  | ⟨.error e, _, w⟩ => ⟨.error e, s, w⟩
  | ⟨.ok (), b, w⟩ => ⟨.ok b, s, w⟩⟩

/-- `value.subtype_id = value.imag_subtype_id` (complex.py:45, 83): the data of the value afterwards. -/
def markPart {σ : Type} (c : Cls) (v : Buf) : PyM σ Buf := ⟨fun s =>
  match c.imagSubtype with
  | .error e => ⟨.error e, s, []⟩
  | .ok t =>
    match subtypeV.put t v with
    | ⟨.error e, _, w⟩ => ⟨.error e, s, w⟩
    | ⟨.ok (), b, w⟩ => ⟨.ok b, s, w⟩⟩

namespace Ent

/-- `View(calc_data, …)[a:b]` of a complex number, with the bytes of the part. -/
def partView (a b : Int) : View Bytes := View.mk' (some 18) bytesConv ⟨some a, some b, none⟩

/-- `real_subtype_id` (complex.py:191-195). -/
def realSubV : View Int := View.mk' (some 18) (bitsConv { start := some 0, stop := some 6 }) ⟨some 0, some 1, none⟩
/-- `imag_subtype_id` (complex.py:211-215). -/
def imagSubV : View Int := View.mk' (some 18) (bitsConv { start := some 0, stop := some 6 }) ⟨some 9, some 10, none⟩

/-- The class of a part with the given subtype (complex.py:231-245). -/
def partClass (t : Int) : Except PyErr Cls :=
  match Cls.getType t.toNat with
  | none => .error .attributeError
  | some c => c.realAnalogue

/-- `self.real_type` (complex.py:231-237) -/
def realClass (e : Ent) : Except PyErr Cls := do
  let t ← viewGet realSubV e
  partClass t

/-- `self.imag_type` (complex.py:239-245) -/
def imagClass (e : Ent) : Except PyErr Cls := do
  let t ← viewGet imagSubV e
  partClass t

/-- `self.real` (complex.py:24-34, 179-183): `cls(data=data)` keeps the nine bytes. -/
def getReal (e : Ent) : Except PyErr (Cls × Bytes) := do
  let c ← e.realClass
  let b ← viewGet (partView 0 9) e
  .ok (c, b)

/-- `self.imag` (complex.py:60-70, 185-189) -/
def getImag (e : Ent) : Except PyErr (Cls × Bytes) := do
  let c ← e.imagClass
  let b ← viewGet (partView 9 18) e
  .ok (c, b)

/-- `self.real = value` (complex.py:36-47, 179-183); the result is the data of `value` afterwards. -/
def putReal (c : Cls) (v : Buf) : PyM Ent Buf := do
  let v ← markPart c v
  viewPut (partView 0 9) v.bytes
  pure v

/-- `self.imag = value` (complex.py:72-86, 185-189); the result is the data of `value` afterwards. -/
def putImag (c : Cls) (v : Buf) : PyM Ent Buf := do
  let t ← PyM.ofExcept c.imagSubtype
  viewPut imagSubV t
  let v ← markPart c v
  coerceComplex
  viewPut (partView 9 18) v.bytes
  pure v

/-- The splitting of the string in `ComplexEntry.load_string` (complex.py:306-321): the texts of the parts. -/
def complexParts (string : Str) : Except PyErr (Str × Str) :=
  let string := replaceStr ['j'] ['i'] (replaceStr ['[', 'i', ']'] ['i'] (replaceStr ['-'] ['+', '-']
    (replaceStr ['*'] [] (squash string))))
  let parts := splitChar '+' (stripChars ['+'] string)
  let parts := if parts.head? = some [] then parts.drop 1 else parts
  match parts with
  | [] => .error .indexError
  | [p] => if 'i' ∈ p then .ok (['0'], orOne (p.filter (· ≠ 'i'))) else .ok (p, ['0'])
  | p :: q :: _ => .ok (p, orOne (q.filter (· ≠ 'i')))
where
  /-- `string or "1"` -/
  orOne (s : Str) : Str := if s = [] then ['1'] else s

/-- The registered classes of real numbers in the order of registration (real.py:227, 315, 325, 369, 602, 655). -/
def realTypes : List (Int × Cls) :=
  [(0x00, .real), (0x0E, .undefReal), (0x18, .realFraction), (0x1C, .realRadical), (0x20, .realPi), (0x21, .realPiFraction)]

/-- `TypeError` or `ValueError`, including the subclasses of the latter. -/
def retry : PyErr → Bool
  | .typeError | .valueError | .unicodeEncodeError => true
  | _ => false

/-- `self.real = cls(string)` -/
def newPutReal (c : Cls) (string : Str) : PyM Ent Unit := do
  let v ← newReal c string
  let _ ← putReal c v
  pure ()

/-- `try: x` followed by `h` when it raised `TypeError` or `ValueError`. -/
def orRetry (x h : PyM Ent Unit) : PyM Ent Unit := ⟨fun s =>
  match x s with
  | ⟨.ok (), s', w⟩ => ⟨.ok (), s', w⟩
  | ⟨.error e, s', w⟩ => if retry e then (match h s' with | ⟨r, s'', w'⟩ => ⟨r, s'', w ++ w'⟩) else ⟨.error e, s', w⟩⟩

/-- The loop over the other types (complex.py:327-341). -/
def otherTypes (string : Str) : List (Int × Cls) → PyM Ent Unit
  | [] => PyM.raise .valueError
  | (t, c) :: rest => do
    let e ← PyM.get
    let u ← PyM.ofExcept (viewGet realSubV e)
    if t = u then otherTypes string rest else orRetry (newPutReal c string) (otherTypes string rest)

/-- `self.real = self.real_type(string)`, falling back to the other types (complex.py:323-341). -/
def loadRealPart (string : Str) : PyM Ent Unit := orRetry
  (do
    let e ← PyM.get
    let c ← PyM.ofExcept e.realClass
    newPutReal c string)
  (otherTypes string realTypes)

/-- `self.imag = self.imag_type(string)` (complex.py:344). -/
def loadImagPart (string : Str) : PyM Ent Unit := do
  let e ← PyM.get
  let c ← PyM.ofExcept e.imagClass
  let v ← newReal c string
  let _ ← putImag c v
  pure ()

/-- `ComplexEntry.load_string` (complex.py:304-344). -/
def loadComplexString (string : Str) : PyM Ent Unit := do
  let (re, im) ← PyM.ofExcept (complexParts string)
  loadRealPart re
  loadImagPart im

/-- `make_imag` (complex.py:134-143) on the text of the imaginary part. -/
def makeImag (c : Cls) (text : Str) : Str :=
  match c with
  | .realFraction | .realPiFraction => replaceStr ['/'] ['i', '/'] text
  | .realRadical => text ++ [' ', '*', ' ', 'i']
  | _ => text ++ ['i']

/-- `str(number)` for a complex number (complex.py:145-158). -/
def complexStr (e : Ent) : Except PyErr Str := do
  let (c, b) ← e.getReal
  let re ← realPartStr c ⟨true, b⟩
  let (c', b') ← e.getImag
  let im ← realPartStr c' ⟨true, b'⟩
  if re = ['0'] ∧ im = ['0'] then .ok ['0']
  else if im = ['0'] then .ok re
  else if re = ['0'] then .ok (makeImag c' im)
  else .ok (replaceStr [' ', '1', 'i'] [' ', 'i'] (replaceStr ['+', ' ', '-'] ['-', ' '] (re ++ [' ', '+', ' '] ++ makeImag c' im)))

end Ent
end Verif
