import Verif.Model.Complex

/-
Model of `TIComplex.load_complex` (`/repo/tivars/types/complex.py:367-375`) and of loading floats into the kinds of
real numbers. Floats are finite.
-/

namespace Verif

/-- A finite float `± m * 2^q`. -/
structure PyFloat where
  neg : Bool
  m : Nat
  q : Int
  deriving DecidableEq, Repr

/-- `number.load_float(x)` for the classes of real numbers (real.py:172-180, 262-264, 514-516, 635-637). -/
def loadRealFloat (c : Cls) (x : PyFloat) : PyM Buf Unit :=
  match c with
  | .realFraction => fractionLoadFloat x.neg x.m x.q
  | .realRadical | .realPi | .realPiFraction => PyM.raise .notImplementedError
  | _ => realLoadFloat x.neg x.m x.q

/-- `number = cls(); number.load_float(x)`, down to the data of the number. -/
def newRealFloat {σ : Type} (c : Cls) (x : PyFloat) : PyM σ Buf := ⟨fun s =>
  match loadRealFloat c x ⟨true, Ent.clearFull c⟩ with
  | ⟨.error e, _, w⟩ => ⟨.error e, s, w⟩
  | ⟨.ok (), b, w⟩ => ⟨.ok b, s, w⟩⟩

namespace Ent

/-- `TIComplex.load_complex` (complex.py:367-375) on a complex number with the given parts. -/
def loadComplexBody (re im : PyFloat) : PyM Ent Unit := do
  let e ← PyM.get
  let c ← PyM.ofExcept e.realClass
  let c' ← PyM.ofExcept e.imagClass
  let r ← newRealFloat c re
  let i ← newRealFloat c' im
  let _ ← putReal c r
  let _ ← putImag c' i
  pure ()

/-- `entry.load_complex(comp)` for the classes of complex numbers (complex.py:287-295, 367-375, 407-409, 427-429); that of
`TIComplexPiFraction` is that of its first base. -/
def loadComplexNumber (re im : PyFloat) : PyM Ent Unit := do
  let e ← PyM.get
  match e.cls with
  | .complex | .complexFraction => loadComplexBody re im
  | _ => PyM.raise .notImplementedError

end Ent
end Verif
