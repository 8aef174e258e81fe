import Verif.Proofs.ComplexLoad
import Verif.Props.RealText

/-! Lemmas about complex numbers as text. -/

namespace Verif
open Spec

/-- The nine bytes are a number which reads as `q` truncated to 14 significant digits. -/
def Holds (q : ℚ) (v : Bytes) : Prop :=
  v.length = 9 ∧ (q = 0 → realDecimal ⟨true, v⟩ = .ok (0, -13)) ∧
  (q ≠ 0 → ∃ m e, Truncates14 |q| m e ∧ realDecimal ⟨true, v⟩ = .ok ((if q < 0 then -1 else 1) * (m : Int), e))

theorem Holds.to {q q' : ℚ} {v : Bytes} (h : Holds q v) (e : q = q') : Holds q' v := e ▸ h

theorem literal_sign (l : Literal) (h : l.magnitude ≠ 0) :
    |l.value| = l.magnitude ∧ l.value ≠ 0 ∧ (if l.value < 0 then (-1 : Int) else 1) = l.sgn := by
  have h0 : 0 ≤ l.magnitude := mul_nonneg (by positivity) (ten_zpow_pos _).le
  have hp : 0 < l.magnitude := lt_of_le_of_ne h0 (Ne.symm h)
  unfold Literal.value Literal.sgn
  by_cases hn : l.sign.isNeg = true
  · rw [if_pos hn]
    simp only [Int.cast_neg, Int.cast_one, neg_mul, one_mul, abs_neg, abs_of_pos hp, neg_ne_zero]
    exact ⟨trivial, h, by rw [if_pos (by linarith)]⟩
  · rw [if_neg hn]
    simp only [Int.cast_one, one_mul, abs_of_pos hp]
    exact ⟨trivial, h, by rw [if_neg (by linarith)]⟩

theorem loadLiteral {l : Literal} (hv : l.Valid) (hz : l.NoLeadingZeros) (hm : l.magnitude = 0 ∨ InExponentRange l.magnitude) {s : Str}
    (hs : squash s = l.render) : ∃ (b : UInt8) (v : Bytes), v.length = 8 ∧
      loadRealString .real s ⟨true, Ent.clearFull .real⟩ = ⟨.ok (), ⟨true, b :: v⟩, []⟩ ∧ Holds l.value (b :: v) := by
  have hc : Ent.clearFull .real = 0 :: List.replicate 8 0 := by decide
  obtain ⟨h1, h2, -⟩ := C15_load_decimal l hv hz s hs 0 (List.replicate 8 0) (by simp)
  show ∃ (b : UInt8) (v : Bytes), v.length = 8 ∧ realLoadString s _ = _ ∧ _
  rw [hc]
  rcases hm with hm | hm
  · obtain ⟨b', g1, g2, g3, -⟩ := h1 hm
    match b', g2 with
    | b :: v, g2 =>
      refine ⟨b, v, by simpa using g2, g1, g2, fun _ => g3, fun h => absurd ?_ h⟩
      simp [Literal.value, hm]
  · have h0 : l.magnitude ≠ 0 := (lt_of_lt_of_le (ten_zpow_pos _) hm.1).ne'
    obtain ⟨b', m, x, g1, g2, g3, g4, -⟩ := h2 hm
    obtain ⟨k1, k2, k3⟩ := literal_sign l h0
    match b', g2 with
    | b :: v, g2 =>
      refine ⟨b, v, by simpa using g2, g1, g2, fun h => absurd h k2, fun _ => ⟨m, x, ?_, ?_⟩⟩
      · rw [k1]; exact g3
      · rw [k3]; exact g4

theorem holds_retag {q : ℚ} {b : UInt8} {v : Bytes} (hv : v.length = 8) (h : Holds q (b :: v)) : Holds q (retag 0x0C b :: v) := by
  obtain ⟨h1, h2, h3⟩ := h
  unfold Holds
  rw [realDecimal_head (retag_div (by decide) b) hv]
  exact ⟨by simp [hv], h2, h3⟩

theorem class_of {e : Ent} {re im : Bytes} (hb : e.body = ⟨true, re ++ im⟩) (hr : re.length = 9) (hi : im.length = 9)
    (h1 : (re.headD 0).toNat % 64 = 0x0C) (h2 : (im.headD 0).toNat % 64 = 0x0C) : e.realClass = .ok .real ∧ e.imagClass = .ok .real := by
  match re, hr, im, hi with
  | a :: re, hr, b :: im, hi =>
    unfold Ent.realClass Ent.imagClass
    rw [Ent.realSub_get hb (by simpa using hr) hi, Ent.imagSub_get hb hr (by simpa using hi)]
    simp only [List.headD_cons] at h1 h2
    rw [h1, h2]
    exact ⟨rfl, rfl⟩

/-- Loading when both texts are literals. -/
theorem loadTwo {e : Ent} {re im : Bytes} (hb : e.body = ⟨true, re ++ im⟩) (hr : re.length = 9) (hi : im.length = 9)
    (h1 : (re.headD 0).toNat % 64 = 0x0C) (h2 : (im.headD 0).toNat % 64 = 0x0C) {l l' : Literal} (hv : l.Valid) (hv' : l'.Valid)
    (hz : l.NoLeadingZeros) (hz' : l'.NoLeadingZeros) (hm : l.magnitude = 0 ∨ InExponentRange l.magnitude)
    (hm' : l'.magnitude = 0 ∨ InExponentRange l'.magnitude) {s : Str} (hs : Ent.complexParts s = .ok (l.render, l'.render)) :
    ∃ re' im', Ent.loadComplexString s e = ⟨.ok (), { e with cls := .complex, typeId := [0x0C], body := ⟨true, re' ++ im'⟩ }, []⟩ ∧
      (re'.headD 0).toNat % 64 = 0x0C ∧ (im'.headD 0).toNat % 64 = 0x0C ∧ Holds l.value re' ∧ Holds l'.value im' := by
  obtain ⟨c1, c2⟩ := class_of hb hr hi h1 h2
  obtain ⟨b, v, g1, g2, g3⟩ := loadLiteral hv hz hm (squash_render l hv)
  obtain ⟨b', v', g1', g2', g3'⟩ := loadLiteral hv' hz' hm' (squash_render l' hv')
  exact ⟨_, _, Ent.loadComplex_run hb hr hi c1 c2 rfl rfl hs g1 g1' g2 g2', retag_mod (by decide) b, retag_mod (by decide) b',
    holds_retag g1 g3, holds_retag g1' g3'⟩

/-- The literal `1`. -/
def oneLit : Literal := ⟨.none, ['1'], none, none⟩

theorem oneLit_spec : oneLit.Valid ∧ oneLit.NoLeadingZeros ∧ InExponentRange oneLit.magnitude ∧ oneLit.value = 1 ∧ oneLit.render = ['1'] := by
  have hm : oneLit.magnitude = 1 := by
    unfold Literal.magnitude
    rw [show oneLit.coeff = 1 by decide, show oneLit.scale = 0 by decide]
    norm_num
  refine ⟨⟨?_, ?_, ?_⟩, Or.inr (by decide), ?_, ?_, rfl⟩
  · intro c hc
    rw [show oneLit.int = ['1'] from rfl, List.mem_singleton] at hc
    subst hc
    unfold IsDigit; decide
  · intro f h; cases h
  · intro m s x h; cases h
  · rw [hm]
    unfold InExponentRange
    constructor
    · exact zpow_le_one_of_nonpos₀ (by norm_num) (by norm_num)
    · exact one_lt_zpow₀ (by norm_num) (by norm_num)
  · unfold Literal.value; rw [hm]; decide +kernel

/-- The literal that is passed on for the factor of the unit. -/
def factorLit : Factor → Literal
  | .number l => Ent.unplus l
  | .bare _ => oneLit

theorem unplus_value (l : Literal) : (Ent.unplus l).value = l.value := by
  unfold Literal.value Literal.sgn
  rw [Ent.unplus_magnitude, Ent.unplus_neg]

theorem factorLit_spec {f : Factor} (hp : f.Proper) (hs : f.Safe) : (factorLit f).Valid ∧ (factorLit f).NoLeadingZeros ∧
    ((factorLit f).magnitude = 0 ∨ InExponentRange (factorLit f).magnitude) ∧ (factorLit f).value = f.value := by
  cases f with
  | number l =>
    refine ⟨Ent.unplus_valid hp.1, Ent.unplus_safe hs.1, ?_, unplus_value l⟩
    show (Ent.unplus l).magnitude = 0 ∨ _
    rw [factorLit, Ent.unplus_magnitude]
    exact hs.2.1
  | bare s =>
    obtain ⟨h1, h2, h3, h4, -⟩ := oneLit_spec
    refine ⟨h1, h2, Or.inr h3, ?_⟩
    show oneLit.value = _
    rw [h4]
    show (1 : ℚ) = if s.isNeg then -1 else 1
    rw [show s.isNeg = false from hs]; rfl

/-- The pieces of the factor. -/
theorem factor_pieces {f : Factor} (hp : f.Proper) (hs : f.Safe) : ∃ q, PlainText q ∧ f.render = (Ent.leadOf f.sign).str ++ q ∧
    Ent.complexParts.orOne ((Ent.leadOf f.sign).keep ++ q ++ []) = (factorLit f).render := by
  cases f with
  | number l =>
    refine ⟨Ent.bodyOf l, Ent.plain_body hp.1 hs, Ent.render_lead l, ?_⟩
    show Ent.complexParts.orOne ((Ent.leadOf l.sign).keep ++ Ent.bodyOf l ++ []) = (Ent.unplus l).render
    unfold Ent.complexParts.orOne
    rw [List.append_nil, if_neg (by simp [Ent.body_ne hp]), Ent.render_unplus]
  | bare s =>
    refine ⟨[], by intro c hc; (cases hc), ?_, ?_⟩
    · show s.str = (Ent.leadOf s).str ++ []
      have : s.isNeg = false := hs
      cases s <;> first | rfl | cases this
    · show Ent.complexParts.orOne ((Ent.leadOf s).keep ++ [] ++ []) = oneLit.render
      have : s.isNeg = false := hs
      cases s <;> first | rfl | cases this

end Verif
