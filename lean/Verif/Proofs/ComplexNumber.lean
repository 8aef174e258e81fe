import Verif.Spec.ComplexNumber
import Verif.Props.Complex
import Verif.Props.Fraction
import Verif.Proofs.ComplexHolds

/-
Lemmas about loading complex numbers of Python.
-/

namespace Verif
open Spec

theorem truncates14_self {v : ℚ} {m : Nat} {e : Int} (h : Truncates14 v m e) : Truncates14 ((m : ℚ) * 10 ^ e) m e := by
  refine ⟨h.1, h.2.1, le_refl _, ?_⟩
  have := ten_zpow_pos e
  nlinarith

/-- Loading a float into a real number. -/
theorem realFloat_kept (x : PyFloat) (b0 : UInt8) (rest : Bytes) (hl : rest.length = 8) :
    ∃ a, Kept .real (floatValue x) a ∧
      (HasExponent a → ∃ b', realLoadFloat x.neg x.m x.q ⟨true, b0 :: rest⟩ = ⟨.ok (), ⟨true, b'⟩, []⟩ ∧ b'.length = 9 ∧ Reads b' a) ∧
      (¬ HasExponent a → (realLoadFloat x.neg x.m x.q ⟨true, b0 :: rest⟩).res = .error .overflowError) := by
  have hval : (decLit (decOfFloat x.neg x.m x.q)).value = floatValue x := by rw [decLit_value, decOfFloat_value]; rfl
  have hv := decLit_valid (decOfFloat x.neg x.m x.q)
  have hz := decLit_noLeading (decOfFloat x.neg x.m x.q)
  have hs : squash (decStr (decOfFloat x.neg x.m x.q)) = (decLit (decOfFloat x.neg x.m x.q)).render := by
    rw [← decLit_render]; exact squash_render _ hv
  obtain ⟨h1, h2, h3⟩ := C15_load_decimal _ hv hz _ hs b0 rest hl
  change (_ → ∃ b', realLoadFloat x.neg x.m x.q _ = _ ∧ _) at h1
  change (_ → ∃ b' m e, realLoadFloat x.neg x.m x.q _ = _ ∧ _) at h2
  change (_ → _ → (realLoadFloat x.neg x.m x.q _).res = _) at h3
  by_cases hm : (decLit (decOfFloat x.neg x.m x.q)).magnitude = 0
  · have h0 : floatValue x = 0 := by rw [← hval, Literal.value, hm, mul_zero]
    refine ⟨0, Or.inl ⟨h0, rfl⟩, fun _ => ?_, fun h => absurd (Or.inl rfl) h⟩
    obtain ⟨b', g1, g2, g3, -⟩ := h1 hm
    exact ⟨b', g1, g2, 0, -13, g3, by simp⟩
  · obtain ⟨k1, k2, k3⟩ := literal_sign _ hm
    obtain ⟨m, e, ht, -⟩ := realParse_value _ hv _ hs hz hm
    rw [hval] at k1 k2 k3
    have hself := truncates14_self ht
    have hpos : 0 < (m : ℚ) * 10 ^ e := by
      have : 0 < m := lt_of_lt_of_le (by norm_num) ht.1
      exact mul_pos (by exact_mod_cast this) (ten_zpow_pos e)
    have habs : |(if floatValue x < 0 then (-1 : ℚ) else 1) * ((m : ℚ) * 10 ^ e)| = (m : ℚ) * 10 ^ e := by
      rw [abs_mul, abs_of_pos hpos]; split <;> simp
    have hrange : HasExponent ((if floatValue x < 0 then (-1 : ℚ) else 1) * ((m : ℚ) * 10 ^ e)) ↔
        InExponentRange (decLit (decOfFloat x.neg x.m x.q)).magnitude := by
      unfold HasExponent
      rw [habs, truncates14_range hself, truncates14_range ht, or_iff_right]
      intro h
      rw [h, abs_zero] at habs
      exact hpos.ne habs
    refine ⟨_, Or.inr ⟨m, e, k1 ▸ ht, rfl⟩, fun h => ?_, fun h => h3 hm (fun h' => h (hrange.2 h'))⟩
    obtain ⟨b', m', e', g1, g2, g3, g4, -⟩ := h2 (hrange.1 h)
    obtain ⟨rfl, rfl⟩ := truncates14_unique g3 ht
    refine ⟨b', g1, g2, _, _, g4, ?_⟩
    rw [← k3]
    push_cast
    split <;> ring

/-- Loading a float into a number of any kind that takes floats. -/
theorem loadRealFloat_kept {c : Cls} (hc : c ∈ floatKinds) (x : PyFloat) (b0 : UInt8) (rest : Bytes) (hl : rest.length = 8) :
    ∃ a, Kept c (floatValue x) a ∧
      (HasExponent a → ∃ b', loadRealFloat c x ⟨true, b0 :: rest⟩ = ⟨.ok (), ⟨true, b'⟩, []⟩ ∧ b'.length = 9 ∧ Reads b' a) ∧
      (¬ HasExponent a → (loadRealFloat c x ⟨true, b0 :: rest⟩).res = .error .overflowError) := by
  simp only [floatKinds, List.mem_cons, List.not_mem_nil, or_false] at hc
  rcases hc with rfl | rfl
  · exact realFloat_kept x b0 rest hl
  · obtain ⟨a, h1, h2, h3⟩ := C78_rounding (floatValue x) b0 rest hl
    have hf : ∀ b, loadRealFloat .realFraction x b = loadFraction (floatValue x) b := fun b => C79_float _ _ _ _
    refine ⟨a, h1, fun h => ?_, fun h => ?_⟩
    · obtain ⟨b', n, k, g1, g2, g3, g4, -⟩ := h2 h
      exact ⟨b', (hf _).trans g1, g2, n, k, g3, g4⟩
    · rw [hf]
      exact h3 (fun h' => h (Or.inl h')) (fun h' => h (Or.inr h'))

theorem newRealFloat_kept {c : Cls} (hc : c ∈ floatKinds) (x : PyFloat) :
    ∃ a, Kept c (floatValue x) a ∧
      (HasExponent a → ∃ v, (∀ e : Ent, newRealFloat c x e = ⟨.ok ⟨true, v⟩, e, []⟩) ∧ v.length = 9 ∧ Reads v a) ∧
      (¬ HasExponent a → ∃ w, ∀ e : Ent, newRealFloat c x e = ⟨.error .overflowError, e, w⟩) := by
  have hcl : ∃ b0 rest, Ent.clearFull c = b0 :: rest ∧ rest.length = 8 := by
    simp only [floatKinds, List.mem_cons, List.not_mem_nil, or_false] at hc
    rcases hc with rfl | rfl
    · exact ⟨0, List.replicate 8 0, rfl, rfl⟩
    · exact ⟨0x18, List.replicate 8 0, rfl, rfl⟩
  obtain ⟨b0, rest, hcl, hl⟩ := hcl
  obtain ⟨a, h1, h2, h3⟩ := loadRealFloat_kept hc x b0 rest hl
  refine ⟨a, h1, fun h => ?_, fun h => ?_⟩
  · obtain ⟨v, g1, g2, g3⟩ := h2 h
    refine ⟨v, fun e => ?_, g2, g3⟩
    unfold newRealFloat
    rw [hcl]
    simp only [g1]
  · have h3 := h3 h
    unfold newRealFloat
    rw [hcl]
    rcases hx : loadRealFloat c x ⟨true, b0 :: rest⟩ with ⟨r, b, w⟩
    rw [hx] at h3
    cases h3
    exact ⟨w, fun e => rfl⟩

theorem partClasses {e : Ent} {re im : Bytes} (hb : e.body = ⟨true, re ++ im⟩) (hr : re.length = 9) (hi : im.length = 9)
    {c c' : Cls} (h1 : partCode c = some ((re.headD 0).toNat % 64)) (h2 : partCode c' = some ((im.headD 0).toNat % 64)) :
    e.realClass = .ok (partKind c) ∧ e.imagClass = .ok (partKind c') := by
  match re, hr, im, hi with
  | a :: re, hr, b :: im, hi =>
    obtain ⟨-, -, h3, h4⟩ := partCode_imagSubtype h1
    obtain ⟨-, -, h5, h6⟩ := partCode_imagSubtype h2
    unfold Ent.realClass Ent.imagClass
    rw [Ent.realSub_get hb (by simpa using hr) hi, Ent.imagSub_get hb hr (by simpa using hi)]
    constructor
    · show Ent.partClass _ = _
      unfold Ent.partClass
      simp only [List.headD_cons] at h3
      rw [Int.toNat_natCast, h3]
      exact h4
    · show Ent.partClass _ = _
      unfold Ent.partClass
      simp only [List.headD_cons] at h5
      rw [Int.toNat_natCast, h5]
      exact h6

theorem floatKinds_code {c : Cls} (h : c ∈ floatKinds) : ∃ t, partCode c = some t ∧ partKind c = c := by
  simp only [floatKinds, List.mem_cons, List.not_mem_nil, or_false] at h
  rcases h with rfl | rfl <;> exact ⟨_, rfl, rfl⟩

theorem reads_mark {v v' : Bytes} {a : ℚ} (hv : v.length = 9) (h : SameButSubtype v v') (hr : Reads v a) : Reads v' a := by
  obtain ⟨n, k, h1, h2⟩ := hr
  exact ⟨n, k, ((C89_value .real true hv h).1).trans h1, h2⟩

end Verif
