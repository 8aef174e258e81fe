import Verif.Proofs.ComplexPart

/-! Lemmas about loading complex numbers from text. -/

namespace Verif
open Spec
namespace Ent

theorem newReal_run {σ : Type} {c : Cls} {p : Str} {v : Bytes} {w : List Warn}
    (h : loadRealString c p ⟨true, clearFull c⟩ = ⟨.ok (), ⟨true, v⟩, w⟩) (s : σ) : newReal c p s = ⟨.ok ⟨true, v⟩, s, w⟩ := by
  unfold newReal
  simp only [h]

/-- Both parts load. -/
theorem loadComplex_run {e : Ent} {re im : Bytes} {c c' : Cls} {t t' : Nat} (hb : e.body = ⟨true, re ++ im⟩)
    (hr : re.length = 9) (hi : im.length = 9) (hc : e.realClass = .ok c) (hc' : e.imagClass = .ok c')
    (ht : partCode c = some t) (ht' : partCode c' = some t') {s p q : Str} (hs : complexParts s = .ok (p, q))
    {b b' : UInt8} {v v' : Bytes} {w w' : List Warn} (hv : v.length = 8) (hv' : v'.length = 8)
    (h1 : loadRealString c p ⟨true, clearFull c⟩ = ⟨.ok (), ⟨true, b :: v⟩, w⟩)
    (h2 : loadRealString c' q ⟨true, clearFull c'⟩ = ⟨.ok (), ⟨true, b' :: v'⟩, w'⟩) :
    loadComplexString s e = ⟨.ok (), { e with
      cls := complexKind c', typeId := [UInt8.ofNat t'], body := ⟨true, (retag t b :: v) ++ retag t' b' :: v'⟩ }, w ++ w'⟩ := by
  obtain ⟨g1, g2, -, -⟩ := partCode_imagSubtype ht
  obtain ⟨g1', g2', g3', -⟩ := partCode_imagSubtype ht'
  have hre : loadRealPart p e = ⟨.ok (), { e with body := ⟨true, (retag t b :: v) ++ im⟩ }, w⟩ := by
    unfold loadRealPart orRetry
    have : (do let e ← PyM.get; let c ← PyM.ofExcept e.realClass; newPutReal c p : PyM Ent Unit) e =
        ⟨.ok (), { e with body := ⟨true, (retag t b :: v) ++ im⟩ }, w⟩ := by
      rw [PyM.bind_ok (PyM.get_run e), PyM.bind_ok ((PyM.ofExcept_run _ _).trans (by rw [hc]))]
      unfold newPutReal
      rw [PyM.bind_ok (newReal_run h1 e), PyM.bind_ok (putReal_run g1 hb hr hi b v hv)]
      simp
    simp only [this]
  have hcl : imagClass { e with body := ⟨true, (retag t b :: v) ++ im⟩ } = .ok c' := by
    match im, hi with
    | a :: im, hi =>
      have hi' : im.length = 8 := by simpa using hi
      rw [← hc']
      unfold imagClass
      rw [imagSub_get (re := retag t b :: v) rfl (by simp [hv]) hi', imagSub_get hb hr hi']
  have him : loadImagPart q { e with body := ⟨true, (retag t b :: v) ++ im⟩ } = ⟨.ok (), { e with
      cls := complexKind c', typeId := [UInt8.ofNat t'], body := ⟨true, (retag t b :: v) ++ retag t' b' :: v'⟩ }, w'⟩ := by
    unfold loadImagPart
    rw [PyM.bind_ok (PyM.get_run _), PyM.bind_ok ((PyM.ofExcept_run _ _).trans (by rw [hcl])),
      PyM.bind_ok (newReal_run h2 _), PyM.bind_ok (putImag_run (re := retag t b :: v) (im := im) g1' g3' rfl (by simp [hv]) hi b' v' hv')]
    simp
  unfold loadComplexString
  rw [PyM.bind_ok ((PyM.ofExcept_run _ _).trans (by rw [hs]))]
  show (loadRealPart p >>= fun _ => loadImagPart q) e = _
  rw [PyM.bind_ok hre, him]

/-! ### Literals as parts -/

/-- The literal without a leading `+`. -/
def unplus (l : Literal) : Literal := if l.sign = .plus then { l with sign := .none } else l

/-- The sign in front of a literal as it is treated by the splitting. -/
def leadOf : Sign → Lead
  | .plus => .plus
  | .minus => .minus
  | _ => .none

/-- The rest of a literal. -/
def bodyOf (l : Literal) : Str := (if l.sign = .tilde then ['~'] else []) ++ l.int ++ l.fracStr ++ l.expStr

theorem render_lead (l : Literal) : l.render = (leadOf l.sign).str ++ bodyOf l := by
  unfold Literal.render bodyOf
  cases h : l.sign <;> simp [leadOf, Sign.str, Lead.str]

theorem render_unplus (l : Literal) : (unplus l).render = (leadOf l.sign).keep ++ bodyOf l := by
  unfold Literal.render bodyOf unplus
  cases h : l.sign <;> simp [leadOf, Sign.str, Lead.keep, h, Literal.fracStr, Literal.expStr]

theorem plain_digits {d : Str} (h : Digits d) : PlainText d := by
  intro c hc
  have hd := h c hc
  refine ⟨?_, ?_, ?_, ?_, ?_, ?_⟩ <;> rintro rfl <;> exact absurd hd (notDigit (by decide))

theorem plain_frac {l : Literal} (hv : l.Valid) : PlainText l.fracStr := by
  unfold Literal.fracStr
  cases h : l.frac with
  | none => intro c hc; cases hc
  | some f =>
    have := plain_digits (hv.2.1 f h)
    intro c hc
    rcases List.mem_cons.1 hc with rfl | hc
    · decide
    · exact this c hc

theorem plain_exp {l : Literal} (hv : l.Valid) (hs : ∀ m s x, l.exp = some (m, s, x) → s = .none ∨ s = .tilde) : PlainText l.expStr := by
  unfold Literal.expStr
  cases h : l.exp with
  | none => intro c hc; cases hc
  | some t =>
    obtain ⟨m, s, x⟩ := t
    refine plain_append (plain_append ?_ ?_) (plain_digits (hv.2.2 m s x h).1)
    · cases m <;> (intro c hc; revert c; decide)
    · rcases hs m s x h with rfl | rfl <;> (intro c hc; revert c; decide)

theorem plain_body {l : Literal} (hv : l.Valid) (hs : l.Safe) : PlainText (bodyOf l) := by
  refine plain_append (plain_append (plain_append ?_ (plain_digits hv.1)) (plain_frac hv)) (plain_exp hv hs.2.2)
  split
  · intro c hc; revert c; decide
  · intro c hc; cases hc

theorem body_ne {l : Literal} (hp : l.Proper) : bodyOf l ≠ [] := by
  intro h
  unfold bodyOf at h
  simp only [List.append_eq_nil_iff] at h
  obtain ⟨⟨⟨-, h1⟩, h2⟩, -⟩ := h
  apply hp.2
  rw [h1]
  unfold Literal.fracStr at h2
  unfold Literal.fracDigits
  split at h2
  · next hf => rw [hf]; rfl
  · cases h2

theorem unplus_valid {l : Literal} (h : l.Valid) : (unplus l).Valid := by
  unfold unplus; split <;> exact h

theorem unplus_safe {l : Literal} (h : l.NoLeadingZeros) : (unplus l).NoLeadingZeros := by
  unfold unplus; split <;> exact h

theorem unplus_magnitude (l : Literal) : (unplus l).magnitude = l.magnitude := by
  unfold unplus; split <;> rfl

theorem unplus_neg (l : Literal) : (unplus l).sign.isNeg = l.sign.isNeg := by
  unfold unplus; split
  · next h => rw [h]; rfl
  · rfl

end Ent
end Verif
