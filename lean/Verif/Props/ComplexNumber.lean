import Verif.Proofs.ComplexNumber

/-!
C118: loading a complex number of Python stores both of its parts.
-/

namespace Verif
open Spec

/-- C118. If the parts of the entry are real numbers or fractions, loading a complex number keeps of each part what its
kind keeps, in a part of the same kind, and reports nothing; the class and the type of the entry are those of its imaginary part; nothing
else changes. If the exponent of a part does not fit, `OverflowError` is raised and nothing changes. Missing: parts of other
kinds, see `C118_other_parts` and `C118_exact_false`. -/
theorem C118_load_partial {e : Ent} {re im : Bytes} (hb : e.body = ⟨true, re ++ im⟩) (hr : re.length = 9) (hi : im.length = 9)
    (hcls : e.cls = .complex ∨ e.cls = .complexFraction) {c c' : Cls} (hc : c ∈ floatKinds) (hc' : c' ∈ floatKinds)
    (h1 : partCode c = some ((re.headD 0).toNat % 64)) (h2 : partCode c' = some ((im.headD 0).toNat % 64)) (x y : PyFloat) :
    ∃ a b, Kept c (floatValue x) a ∧ Kept c' (floatValue y) b ∧
      (HasExponent a → HasExponent b → ∃ r i e', Ent.loadComplexNumber x y e = ⟨.ok (), e', []⟩ ∧
        e' = { e with cls := complexKind c', typeId := [UInt8.ofNat ((im.headD 0).toNat % 64)], body := ⟨true, r ++ i⟩ } ∧
        e'.getReal = .ok (c, r) ∧ Reads r a ∧ e'.getImag = .ok (c', i) ∧ Reads i b) ∧
      (¬ (HasExponent a ∧ HasExponent b) →
        (Ent.loadComplexNumber x y e).res = .error .overflowError ∧ (Ent.loadComplexNumber x y e).st = e) := by
  obtain ⟨a, ka, sa, fa⟩ := newRealFloat_kept hc x
  obtain ⟨b, kb, sb, fb⟩ := newRealFloat_kept hc' y
  obtain ⟨-, -, pc⟩ := floatKinds_code hc
  obtain ⟨-, -, pc'⟩ := floatKinds_code hc'
  obtain ⟨g1, g2⟩ := partClasses hb hr hi h1 h2
  rw [pc] at g1
  rw [pc'] at g2
  have hrun : Ent.loadComplexNumber x y e = Ent.loadComplexBody x y e := by
    unfold Ent.loadComplexNumber
    rw [PyM.bind_ok (PyM.get_run e)]
    rcases hcls with h | h <;> simp [h]
  rw [hrun]
  refine ⟨a, b, ka, kb, fun ha hb' => ?_, fun h => ?_⟩
  · obtain ⟨v, v1, v2, v3⟩ := sa ha
    obtain ⟨w, w1, w2, w3⟩ := sb hb'
    obtain ⟨v', p1, p2, p3, p4, -⟩ := C89_set_real h1 v2 hb hr hi
    obtain ⟨w', q1, q2, q3, q4, q5⟩ := C89_set_imag (e := { e with body := ⟨true, v' ++ im⟩ }) h2 w2 rfl p2.1 hi
    refine ⟨v', w', _, ?_, rfl, ?_, reads_mark v2 p2 v3, ?_, reads_mark w2 q2 w3⟩
    · unfold Ent.loadComplexBody
      rw [PyM.bind_ok (PyM.get_run e), g1, g2, PyM.bind_ok (PyM.ofExcept_run _ _), PyM.bind_ok (PyM.ofExcept_run _ _),
        PyM.bind_ok (v1 e), PyM.bind_ok (w1 e), PyM.bind_ok p1, PyM.bind_ok q1]
      rfl
    · exact q5.trans (p4.trans (by rw [pc]))
    · exact q4.trans (by rw [pc'])
  · by_cases ha : HasExponent a
    · obtain ⟨w, w1⟩ := fb fun h' => h ⟨ha, h'⟩
      obtain ⟨v, v1, -⟩ := sa ha
      unfold Ent.loadComplexBody
      rw [PyM.bind_ok (PyM.get_run e), g1, g2, PyM.bind_ok (PyM.ofExcept_run _ _), PyM.bind_ok (PyM.ofExcept_run _ _),
        PyM.bind_ok (v1 e), PyM.bind_error (w1 e)]
      exact ⟨rfl, rfl⟩
    · obtain ⟨w, w1⟩ := fa ha
      unfold Ent.loadComplexBody
      rw [PyM.bind_ok (PyM.get_run e), g1, g2, PyM.bind_ok (PyM.ofExcept_run _ _), PyM.bind_ok (PyM.ofExcept_run _ _),
        PyM.bind_error (w1 e)]
      exact ⟨rfl, rfl⟩

/-- C118, entries with a radical or a multiple of pi as a part: nothing is loaded and nothing changes. If
it is the real part the exception is `NotImplementedError`, otherwise the real part may not fit. -/
theorem C118_other_parts {e : Ent} {re im : Bytes} (hb : e.body = ⟨true, re ++ im⟩) (hr : re.length = 9) (hi : im.length = 9)
    (hcls : e.cls = .complex ∨ e.cls = .complexFraction) {c c' : Cls} (h1 : partCode c = some ((re.headD 0).toNat % 64))
    (h2 : partCode c' = some ((im.headD 0).toNat % 64)) (hu : c ≠ .undefReal ∧ c' ≠ .undefReal) (x y : PyFloat) :
    (c ∉ floatKinds → Ent.loadComplexNumber x y e = ⟨.error .notImplementedError, e, []⟩) ∧
    (c' ∉ floatKinds → (Ent.loadComplexNumber x y e).st = e ∧
      ((Ent.loadComplexNumber x y e).res = .error .notImplementedError ∨
       (Ent.loadComplexNumber x y e).res = .error .overflowError)) := by
  obtain ⟨g1, g2⟩ := partClasses hb hr hi h1 h2
  have pc : partKind c = c := if_neg hu.1
  have pc' : partKind c' = c' := if_neg hu.2
  rw [pc] at g1
  rw [pc'] at g2
  have hrun : Ent.loadComplexNumber x y e = Ent.loadComplexBody x y e := by
    unfold Ent.loadComplexNumber
    rw [PyM.bind_ok (PyM.get_run e)]
    rcases hcls with h | h <;> simp [h]
  have raises : ∀ {d : Cls} {t : Nat}, partCode d = some t → d ≠ .undefReal → d ∉ floatKinds → ∀ z,
      newRealFloat d z e = ⟨.error .notImplementedError, e, []⟩ := by
    intro d t hd hn hf z
    unfold partCode at hd
    split at hd <;> first | exact absurd (by decide) hf | exact absurd rfl hn | rfl | cases hd
  rw [hrun]
  have start : Ent.loadComplexBody x y e = ((newRealFloat c x) >>= fun r => newRealFloat c' y >>= fun i =>
      Ent.putReal c r >>= fun _ => Ent.putImag c' i >>= fun _ => pure () : PyM Ent Unit) e := by
    unfold Ent.loadComplexBody
    rw [PyM.bind_ok (PyM.get_run e), g1, g2, PyM.bind_ok (PyM.ofExcept_run _ _), PyM.bind_ok (PyM.ofExcept_run _ _)]
    rfl
  rw [start]
  constructor
  · intro hf
    rw [PyM.bind_error (raises h1 hu.1 hf x)]
  · intro hf
    by_cases hcf : c ∈ floatKinds
    · obtain ⟨a, -, sa, fa⟩ := newRealFloat_kept hcf x
      by_cases ha : HasExponent a
      · obtain ⟨v, v1, -⟩ := sa ha
        rw [PyM.bind_ok (v1 e), PyM.bind_error (raises h2 hu.2 hf y)]
        exact ⟨rfl, Or.inl rfl⟩
      · obtain ⟨w, w1⟩ := fa ha
        rw [PyM.bind_error (w1 e)]
        exact ⟨rfl, Or.inr rfl⟩
    · rw [PyM.bind_error (raises h1 hu.1 hcf x)]
      exact ⟨rfl, Or.inl rfl⟩

/-- C118, the other classes of complex numbers refuse every complex number, and nothing changes. -/
theorem C118_refused {e : Ent} (hcls : e.cls ∈ [Cls.complexE, .complexRadical, .complexPi, .complexPiFraction])
    (x y : PyFloat) : Ent.loadComplexNumber x y e = ⟨.error .notImplementedError, e, []⟩ := by
  unfold Ent.loadComplexNumber
  rw [PyM.bind_ok (PyM.get_run e)]
  simp only [List.mem_cons, List.not_mem_nil, or_false] at hcls
  rcases hcls with h | h | h | h <;> simp [h]

/-- √2 + 3i, a `TIComplex`. -/
def radicalPlusThree : Ent :=
  { cls := .complex, metaLen := [13, 0], typeId := [0x0C], name := [], version := [], archived := [],
    body := ⟨true, [0x1D, 0x00, 0x02, 0x00, 0x01, 0x00, 0x01, 0x00, 0x01] ++ [0x0C, 0x80, 0x30, 0, 0, 0, 0, 0, 0]⟩ }

/-- C118 is false of `TIComplex` entries in general: an entry with a radical as its real part does not even load `1 + 2j`,
although it is an entry of a class that loads complex numbers "upcasting as necessary", and any other `TIComplex` does. -/
theorem C118_exact_false :
    radicalPlusThree.cls = .complex ∧
    Ent.loadComplexNumber ⟨false, 1, 0⟩ ⟨false, 1, 1⟩ radicalPlusThree = ⟨.error .notImplementedError, radicalPlusThree, []⟩ ∧
    Ent.loadComplexNumber ⟨false, 1, 0⟩ ⟨false, 1, 1⟩ { radicalPlusThree with body := sampleComplex.body } =
      ⟨.ok (), sampleComplex, []⟩ := by
  refine ⟨rfl, ?_, ?_⟩
  · decide +kernel
  · decide +kernel

/-- `-1.625 + 1.23j`: a real number cuts 1.23 off, a fraction rounds it. -/
example : (Ent.loadComplexNumber ⟨true, 13, -3⟩ ⟨false, 2769713770832855, -51⟩ sampleComplex).st.body.bytes =
      [0x8C, 0x80, 0x16, 0x25, 0, 0, 0, 0, 0] ++ [0x0C, 0x80, 0x12, 0x29, 0x99, 0x99, 0x99, 0x99, 0x99] ∧
    (Ent.loadComplexNumber ⟨true, 13, -3⟩ ⟨false, 2769713770832855, -51⟩
      { sampleComplex with
        cls := .complexFraction, typeId := [0x1B],
        body := ⟨true, [0x0C, 0x80, 0x10, 0, 0, 0, 0, 0, 0] ++ [0x1B, 0x80, 0x20, 0, 0, 0, 0, 0, 0]⟩ }).st.body.bytes =
      [0x8C, 0x80, 0x16, 0x25, 0, 0, 0, 0, 0] ++ [0x1B, 0x80, 0x12, 0x30, 0, 0, 0, 0, 0] := by
  constructor <;> decide +kernel

/-- `1 + 2^500 j` does not fit. -/
example : Ent.loadComplexNumber ⟨false, 1, 0⟩ ⟨false, 1, 500⟩ sampleComplex = ⟨.error .overflowError, sampleComplex, []⟩ := by
  decide +kernel

end Verif
