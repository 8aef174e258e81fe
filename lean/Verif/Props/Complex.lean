import Verif.Proofs.ComplexPart
import Verif.Proofs.Array

/-! Property theorems about the parts of complex numbers (C89, C90). -/

namespace Verif
open Spec

/-- C89 for the real part: it becomes the assigned number, marked as a part, and reads back; nothing else changes. -/
theorem C89_set_real {c : Cls} {t : Nat} (hc : partCode c = some t) {v : Bytes} (hv : v.length = 9) {e : Ent} {re im : Bytes}
    (hb : e.body = ⟨true, re ++ im⟩) (hr : re.length = 9) (hi : im.length = 9) :
    ∃ v', Ent.putReal c ⟨true, v⟩ e = ⟨.ok ⟨true, v'⟩, { e with body := ⟨true, v' ++ im⟩ }, []⟩ ∧
      SameButSubtype v v' ∧ (v'.headD 0).toNat % 64 = t ∧
      Ent.getReal { e with body := ⟨true, v' ++ im⟩ } = .ok (partKind c, v') ∧
      Ent.getImag { e with body := ⟨true, v' ++ im⟩ } = e.getImag := by
  obtain ⟨h1, h2, h3, h4⟩ := partCode_imagSubtype hc
  match v, hv with
  | b :: r, hv =>
    have hl : r.length = 8 := by simpa using hv
    have hm := retag_mod h2 b
    refine ⟨retag t b :: r, Ent.putReal_run h1 hb hr hi b r hl, sameButSubtype_retag h2 b hl, hm,
      Ent.getReal_run rfl hl hi (by rw [hm]; exact h3) h4, ?_⟩
    match im, hi with
    | a :: im, hi =>
      have hi' : im.length = 8 := by simpa using hi
      unfold Ent.getImag Ent.imagClass
      rw [Ent.imagSub_get (re := retag t b :: r) rfl (by simp [hl]) hi', Ent.imagSub_get hb hr hi',
        Ent.partView_get_imag (re := retag t b :: r) rfl (by simp [hl]) hi, Ent.partView_get_imag hb hr hi]

/-- C89 for the imaginary part: also the class and the type of the entry follow it. -/
theorem C89_set_imag {c : Cls} {t : Nat} (hc : partCode c = some t) {v : Bytes} (hv : v.length = 9) {e : Ent} {re im : Bytes}
    (hb : e.body = ⟨true, re ++ im⟩) (hr : re.length = 9) (hi : im.length = 9) :
    ∃ v', Ent.putImag c ⟨true, v⟩ e = ⟨.ok ⟨true, v'⟩,
        { e with cls := complexKind c, typeId := [UInt8.ofNat t], body := ⟨true, re ++ v'⟩ }, []⟩ ∧
      SameButSubtype v v' ∧ (v'.headD 0).toNat % 64 = t ∧
      Ent.getImag { e with cls := complexKind c, typeId := [UInt8.ofNat t], body := ⟨true, re ++ v'⟩ } = .ok (partKind c, v') ∧
      Ent.getReal { e with cls := complexKind c, typeId := [UInt8.ofNat t], body := ⟨true, re ++ v'⟩ } = e.getReal := by
  obtain ⟨h1, h2, h3, h4⟩ := partCode_imagSubtype hc
  match v, hv with
  | b :: r, hv =>
    have hl : r.length = 8 := by simpa using hv
    have hm := retag_mod h2 b
    refine ⟨retag t b :: r, Ent.putImag_run h1 h3 hb hr hi b r hl, sameButSubtype_retag h2 b hl, hm,
      Ent.getImag_run rfl hr hl (by rw [hm]; exact h3) h4, ?_⟩
    match re, hr with
    | a :: re, hr =>
      have hr' : re.length = 8 := by simpa using hr
      unfold Ent.getReal Ent.realClass
      rw [Ent.realSub_get (im := retag t b :: r) rfl hr' (by simp [hl]), Ent.realSub_get hb hr' hi,
        Ent.partView_get_real (im := retag t b :: r) rfl hr (by simp [hl]), Ent.partView_get_real hb hr hi]

/-- C89, what the mark does not change: the decimal value, the fields of a radical, and the text. -/
theorem C89_value (c : Cls) (m : Bool) {v v' : Bytes} (hv : v.length = 9) (h : SameButSubtype v v') :
    realDecimal ⟨m, v'⟩ = realDecimal ⟨m, v⟩ ∧ radFields ⟨m, v'⟩ = radFields ⟨m, v⟩ ∧
    realPartStr c ⟨m, v'⟩ = realPartStr c ⟨m, v⟩ := by
  obtain ⟨x, y, r, rfl, rfl, hr, hxy⟩ := sameButSubtype_cons hv h
  exact ⟨realDecimal_head hxy hr, radFields_head hr, realPartStr_head c hxy hr⟩

/-- A classic complex number 1+2i. -/
def sampleComplex : Ent :=
  { cls := .complex, metaLen := [13, 0], typeId := [0x0C], name := [], version := [], archived := [],
    body := ⟨true, [0x0C, 0x80, 0x10, 0, 0, 0, 0, 0, 0] ++ [0x0C, 0x80, 0x20, 0, 0, 0, 0, 0, 0]⟩ }

/-- Setting the real part to −3. -/
example : (Ent.putReal .real ⟨true, [0x80, 0x80, 0x30, 0, 0, 0, 0, 0, 0]⟩ sampleComplex).st.body.bytes =
    [0x8C, 0x80, 0x30, 0, 0, 0, 0, 0, 0] ++ [0x0C, 0x80, 0x20, 0, 0, 0, 0, 0, 0] := by decide +kernel

/-- Setting the imaginary part to a fraction. -/
example : (Ent.putImag .realFraction ⟨true, [0x18, 0x7F, 0x50, 0, 0, 0, 0, 0, 0]⟩ sampleComplex).st =
    { sampleComplex with
      cls := .complexFraction, typeId := [0x1B],
      body := ⟨true, [0x0C, 0x80, 0x10, 0, 0, 0, 0, 0, 0] ++ [0x1B, 0x7F, 0x50, 0, 0, 0, 0, 0, 0]⟩ } := by decide +kernel

example : SameButSubtype [0x80, 0x80, 0x30, 0, 0, 0, 0, 0, 0] [0x8C, 0x80, 0x30, 0, 0, 0, 0, 0, 0] := by
  refine ⟨rfl, rfl, rfl⟩

/-- C90 is false: the number assigned as a part is itself changed. Here it is −3; a list of that one number was a real
list before and is recognised as a complex list afterwards. -/
theorem C90_assigned_number_false : ∃ (v v' : Bytes) (e' : Ent),
    Ent.putReal .real ⟨true, v⟩ sampleComplex = ⟨.ok ⟨true, v'⟩, e', []⟩ ∧ v' ≠ v ∧
    ((Ent.coerceList { sampleComplex with cls := .realList, body := ⟨true, [1, 0] ++ v⟩ }).st.cls = .realList) ∧
    ((Ent.coerceList { sampleComplex with cls := .realList, body := ⟨true, [1, 0] ++ v'⟩ }).st.cls = .complexList) := by
  refine ⟨[0x80, 0x80, 0x30, 0, 0, 0, 0, 0, 0], [0x8C, 0x80, 0x30, 0, 0, 0, 0, 0, 0], _, rfl, by decide, ?_, ?_⟩ <;>
    decide +kernel

/-- C90, what holds: only the low six bits of its first byte change, so its value and text do not; and a number that is
marked already does not change. -/
theorem C90_assigned_number_partial {c : Cls} {t : Nat} (hc : partCode c = some t) {v : Bytes} (hv : v.length = 9) {e : Ent}
    {re im : Bytes} (hb : e.body = ⟨true, re ++ im⟩) (hr : re.length = 9) (hi : im.length = 9) :
    (∃ v', (Ent.putReal c ⟨true, v⟩ e).res = .ok ⟨true, v'⟩ ∧ (Ent.putImag c ⟨true, v⟩ e).res = .ok ⟨true, v'⟩ ∧
      SameButSubtype v v' ∧ (v' = v ↔ (v.headD 0).toNat % 64 = t)) := by
  obtain ⟨h1, h2, h3, h4⟩ := partCode_imagSubtype hc
  match v, hv with
  | b :: r, hv =>
    have hl : r.length = 8 := by simpa using hv
    refine ⟨retag t b :: r, ?_, ?_, sameButSubtype_retag h2 b hl, ?_⟩
    · rw [Ent.putReal_run h1 hb hr hi b r hl]
    · rw [Ent.putImag_run h1 h3 hb hr hi b r hl]
    · have hm := retag_mod h2 b
      have hd := retag_div h2 b
      simp only [List.cons.injEq, and_true, List.headD_cons]
      constructor
      · intro h; rw [← h]; exact hm
      · intro h
        apply UInt8.toNat_inj.1
        omega

/-- A part copied from another complex number is not changed. -/
example : (Ent.putReal .real ⟨true, [0x8C, 0x80, 0x30, 0, 0, 0, 0, 0, 0]⟩ sampleComplex).res =
    .ok ⟨true, [0x8C, 0x80, 0x30, 0, 0, 0, 0, 0, 0]⟩ := by rfl

/-! ### C93 -/

/-- C93 is false: 1+2i has version 0, but −1+2i, with parts of the same kinds, has version 0x10. -/
theorem C93_version_false {V : Type} [LinearOrder V] (env : Env V) :
    Ent.getVersion env sampleComplex [] = ([], .ok 0) ∧
    Ent.getVersion env { sampleComplex with
      body := ⟨true, [0x8C, 0x80, 0x10, 0, 0, 0, 0, 0, 0] ++ [0x0C, 0x80, 0x20, 0, 0, 0, 0, 0, 0]⟩ } [] = ([], .ok 0x10) := by
  constructor <;> rfl

/-- C93, the part that holds: when no sign or graph bit is set, the version is the later of those of the kinds of the
parts. Missing: every number with such a bit (`C93_version_bit`). -/
theorem C93_version_partial {V : Type} [LinearOrder V] (env : Env V) {c c' : Cls} {t t' : Nat} (hc : partCode c = some t)
    (hc' : partCode c' = some t') {e : Ent} (he : e.cls ∈ complexClasses) {re im : Bytes} (hr : re.length = 9)
    (h1 : (re.headD 0).toNat = t) (h2 : (im.headD 0).toNat = t') (hi : im.length = 9) (hb : e.body = ⟨true, re ++ im⟩) :
    Ent.getVersion env e [] = ([], .ok (max (partVersion c) (partVersion c'))) := by
  rw [Ent.getVersion_complex env [] (Or.inl he)]
  have hd : e.data = re ++ im := by
    unfold Ent.data
    rw [hb]
    revert he
    unfold complexClasses
    intro he
    simp only [List.mem_cons, List.not_mem_nil, or_false] at he
    rcases he with he | he | he | he | he <;> rw [he] <;> rfl
  simp only [List.isEmpty_nil, if_true, hd]
  match re, hr, im, hi with
  | a :: re, hr, b :: im, hi =>
    simp only [List.headD_cons] at h1 h2
    unfold Ent.complexVersion
    have e1 : (a :: re ++ b :: im)[9]? = some b := by
      rw [List.getElem?_append_right (by omega), hr]; rfl
    rw [e1]
    simp only [List.cons_append, List.getElem?_cons_zero, h1, h2]
    unfold partCode at hc hc'
    split at hc <;> cases hc <;> split at hc' <;> cases hc' <;> rfl

/-- C93, what happens otherwise: a sign or graph bit in either part makes the version 0x10. -/
theorem C93_version_bit {V : Type} [LinearOrder V] (env : Env V) {e : Ent} (he : e.cls ∈ complexClasses) {re im : Bytes} (hr : re.length = 9)
    (hi : im.length = 9) (hb : e.body = ⟨true, re ++ im⟩) (h : 64 ≤ (re.headD 0).toNat ∨ 64 ≤ (im.headD 0).toNat) :
    Ent.getVersion env e [] = ([], .ok 0x10) := by
  rw [Ent.getVersion_complex env [] (Or.inl he)]
  have hd : e.data = re ++ im := by
    unfold Ent.data
    rw [hb]
    revert he
    unfold complexClasses
    intro he
    simp only [List.mem_cons, List.not_mem_nil, or_false] at he
    rcases he with he | he | he | he | he <;> rw [he] <;> rfl
  simp only [List.isEmpty_nil, if_true, hd]
  match re, hr, im, hi with
  | a :: re, hr, b :: im, hi =>
    simp only [List.headD_cons] at h
    unfold Ent.complexVersion
    have e1 : (a :: re ++ b :: im)[9]? = some b := by
      rw [List.getElem?_append_right (by omega), hr]; rfl
    rw [e1]
    simp only [List.cons_append, List.getElem?_cons_zero]
    have : 64 ≤ max a.toNat b.toNat := by omega
    rw [if_neg (by omega), if_neg (by omega)]

/-- A number with a fractional imaginary part. -/
example : (partVersion .real, partVersion .realFraction, partVersion .realPi) = (0, 0x0B, 0x10) ∧
    complexClasses.contains .complexFraction = true := by decide

end Verif
