import Verif.Proofs.StoredNumber
import Verif.Proofs.Complex
import Verif.Proofs.ComplexNumber
import Verif.Props.Real
import Verif.Spec.Sample

/-
C119: the conversions of numbers to `float`, `int` and `complex`.
-/

namespace Verif
open Spec Ent

/-- C119: `float(number)` is the float nearest to the number, in case of a tie the one with an even mantissa; `int(number)` is the
whole part of that float, and so off by at most one part in 2^53 before the part behind the point is dropped. -/
theorem C119_float {c : Cls} (hc : c ∈ decimalKinds) (m : Bool) {b : Bytes} (hb : b.length = 9) (hd : AllDigits (b.drop 2)) :
    ∃ x, realFloat c ⟨m, b⟩ = .ok x ∧ NearestFloat (storedNumber b) (floatValue x) ∧
      |storedNumber b - floatValue x| ≤ |storedNumber b| / 2 ^ 53 ∧
      realInt c ⟨m, b⟩ = .ok (wholePart (floatValue x)) := by
  obtain ⟨d, h1, h2, -⟩ := stored_decimal hc hb hd
  have hf : realFloat c ⟨m, b⟩ = .ok (floatOfDec d) := by unfold realFloat; rw [h1]
  have hn : NearestFloat (storedNumber b) (floatValue (floatOfDec d)) := h2 ▸ floatOfDec_nearest d
  refine ⟨_, hf, hn, nearest_error hn, ?_⟩
  unfold realInt
  rw [hf, ← floatTrunc_value]

/-- C119 for all kinds of real numbers: the float is the one nearest to the decimal value. -/
theorem C119_float_decimal (c : Cls) (b : Buf) :
    (∀ d, realPartDecimal c b = .ok d →
      ∃ x, realFloat c b = .ok x ∧ NearestFloat d.value (floatValue x) ∧ realInt c b = .ok (wholePart (floatValue x))) ∧
    ∀ x, realPartDecimal c b = .error x → realFloat c b = .error x ∧ realInt c b = .error x := by
  constructor
  · intro d hd
    have hf : realFloat c b = .ok (floatOfDec d) := by unfold realFloat; rw [hd]
    refine ⟨_, hf, floatOfDec_nearest d, ?_⟩
    unfold realInt
    rw [hf, ← floatTrunc_value]
  · intro x hx
    have hf : realFloat c b = .error x := by unfold realFloat; rw [hx]
    exact ⟨hf, by unfold realInt; rw [hf]⟩

/-- C119, the part of the claim about `int` that holds: the whole part of every number below 2^53 is exact, and whether a number is
whole can be read off its float. Not covered: the larger numbers, for which it fails. -/
theorem C119_int_partial {c : Cls} (hc : c ∈ decimalKinds) (m : Bool) {b : Bytes} (hb : b.length = 9) (hd : AllDigits (b.drop 2))
    (hs : |storedNumber b| < 2 ^ 53) :
    realInt c ⟨m, b⟩ = .ok (wholePart (storedNumber b)) ∧
      ∃ x, realFloat c ⟨m, b⟩ = .ok x ∧ (floatWhole x = true ↔ ∃ n : Int, storedNumber b = n) := by
  obtain ⟨d, h1, h2, h3, -⟩ := stored_decimal hc hb hd
  have hf : realFloat c ⟨m, b⟩ = .ok (floatOfDec d) := by unfold realFloat; rw [h1]
  have hn : NearestFloat (storedNumber b) (floatValue (floatOfDec d)) := h2 ▸ floatOfDec_nearest d
  obtain ⟨w1, w2⟩ := nearest_whole hn (by rw [← h2]; exact abs_value d) h3 hs
  refine ⟨?_, _, hf, (floatWhole_value _).trans w2⟩
  unfold realInt
  rw [hf]
  show Except.ok (floatTrunc _) = _
  rw [floatTrunc_value, w1]

/-- C119 fails for large numbers: `int` of the whole number 12345678901234 · 10^10 is another. -/
theorem C119_int_false :
    ¬ ∀ b : Bytes, b.length = 9 → AllDigits (b.drop 2) → realInt .real ⟨true, b⟩ = .ok (wholePart (storedNumber b)) := by
  intro h
  have h' := h [0x00, 0x97, 0x12, 0x34, 0x56, 0x78, 0x90, 0x12, 0x34] rfl (by unfold AllDigits; decide +kernel)
  have hi : realInt .real ⟨true, [0x00, 0x97, 0x12, 0x34, 0x56, 0x78, 0x90, 0x12, 0x34]⟩ = .ok 123456789012339998326784 := by
    decide +kernel
  have hv : storedNumber [0x00, 0x97, 0x12, 0x34, 0x56, 0x78, 0x90, 0x12, 0x34] = ((123456789012340000000000 : Int) : ℚ) := by
    have : decimalValue (nibbles [0x12, 0x34, 0x56, 0x78, 0x90, 0x12, 0x34]) = 12345678901234 := by decide +kernel
    unfold storedNumber
    simp only [List.getD_cons_zero, List.getD_cons_succ, List.drop_succ_cons, List.drop_zero, this]
    rw [show (((0x97 : UInt8).toNat : Nat) : Int) - 128 - 13 = ((10 : Nat) : Int) by decide, zpow_natCast]
    norm_num
  rw [hi, hv] at h'
  unfold wholePart at h'
  rw [if_neg (by norm_num), Int.floor_intCast] at h'
  injection h' with h'
  revert h'
  decide

/-- C119: `complex(number)` has the floats nearest to its two parts. -/
theorem C119_complex {e : Ent} {re im : Bytes} (hb : e.body = ⟨true, re ++ im⟩) (hr : re.length = 9) (hi : im.length = 9)
    {c c' : Cls} (hc : c ∈ decimalKinds) (hc' : c' ∈ decimalKinds)
    (h1 : partCode c = some ((re.headD 0).toNat % 64)) (h2 : partCode c' = some ((im.headD 0).toNat % 64))
    (d1 : AllDigits (re.drop 2)) (d2 : AllDigits (im.drop 2)) :
    ∃ x y, e.complexParts' = .ok (x, y) ∧
      NearestFloat (storedNumber re) (floatValue x) ∧ NearestFloat (storedNumber im) (floatValue y) := by
  have hk : ∀ k ∈ decimalKinds, partKind k ∈ decimalKinds := by decide
  obtain ⟨x, x1, x2, -⟩ := C119_float (hk _ hc) true hr d1
  obtain ⟨y, y1, y2, -⟩ := C119_float (hk _ hc') true hi d2
  refine ⟨x, y, ?_, x2, y2⟩
  obtain ⟨p1, p2⟩ := partClasses hb hr hi h1 h2
  have g1 : e.getReal = .ok (partKind c, re) := by
    unfold getReal; rw [p1, partView_get_real hb hr hi]; rfl
  have g2 : e.getImag = .ok (partKind c', im) := by
    unfold getImag; rw [p2, partView_get_imag hb hr hi]; rfl
  unfold complexParts'
  rw [g1, g2]
  simp only [exceptOk_bind, x1, y1]

/-- The number −1234.5 as a float, and as an integer. -/
example : realFloat .real ⟨true, [0x80, 0x83, 0x12, 0x34, 0x50, 0, 0, 0, 0]⟩ = .ok ⟨true, 2469, -1⟩ ∧
    realInt .real ⟨true, [0x80, 0x83, 0x12, 0x34, 0x50, 0, 0, 0, 0]⟩ = .ok (-1234) := by decide +kernel

/-- 0.3 is not a float. -/
example : ∃ x, realFloat .real ⟨true, [0x00, 0x7F, 0x30, 0, 0, 0, 0, 0, 0]⟩ = .ok x ∧ x = ⟨false, 5404319552844595, -54⟩ ∧
    NearestFloat (storedNumber [0x00, 0x7F, 0x30, 0, 0, 0, 0, 0, 0]) (floatValue x) := by
  obtain ⟨x, h1, h2, -⟩ := C119_float (c := .real) (by decide) true (b := [0x00, 0x7F, 0x30, 0, 0, 0, 0, 0, 0]) rfl
    (by unfold AllDigits; decide +kernel)
  refine ⟨x, h1, ?_, h2⟩
  have : realFloat .real ⟨true, [0x00, 0x7F, 0x30, 0, 0, 0, 0, 0, 0]⟩ = .ok ⟨false, 5404319552844595, -54⟩ := by decide +kernel
  rw [this] at h1
  injection h1 with h1
  exact h1.symm

/-- Two and a half times π as a float. -/
example : realFloat .realPi ⟨true, [0x20, 0x80, 0x25, 0, 0, 0, 0, 0, 0]⟩ = .ok ⟨false, 8842797190035569, -50⟩ ∧
    realInt .realPi ⟨true, [0x20, 0x80, 0x25, 0, 0, 0, 0, 0, 0]⟩ = .ok 7 := by decide +kernel

end Verif
