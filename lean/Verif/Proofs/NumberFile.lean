import Verif.Proofs.AnyText
import Verif.Proofs.ComplexOther
import Verif.Proofs.ComplexNumber
import Verif.Proofs.OpenAny

/-! Helper lemmas for numbers of all kinds in files. -/

namespace Verif
open Spec

/-- An action in two steps that succeeded. -/
theorem bind_split {σ α β : Type} {x : PyM σ α} {f : α → PyM σ β} {s s' : σ} {b : β} {w : List Warn} (h : (x >>= f) s = ⟨.ok b, s', w⟩) :
    ∃ a s1 w1 w2, x s = ⟨.ok a, s1, w1⟩ ∧ f a s1 = ⟨.ok b, s', w2⟩ := by
  rw [PyM.bind_run] at h
  rcases hx : x s with ⟨_ | a, s1, w1⟩
  · rw [hx] at h
    cases congrArg Out.res h
  · rw [hx] at h
    refine ⟨a, s1, w1, (f a s1).warns, rfl, ?_⟩
    have h1 := congrArg Out.res h
    have h2 := congrArg Out.st h
    simp only at h1 h2
    rw [← h1, ← h2]

theorem ofExcept_split {σ α : Type} {x : Except PyErr α} {s s' : σ} {a : α} {w : List Warn} (h : (PyM.ofExcept x : PyM σ α) s = ⟨.ok a, s', w⟩) :
    x = .ok a ∧ s' = s := by
  rw [PyM.ofExcept_run] at h
  exact ⟨congrArg Out.res h, (congrArg Out.st h).symm⟩

namespace Ent

theorem realAnalogue_real {k c : Cls} (h : k.realAnalogue = .ok c) : c ∈ realClasses := by
  unfold Cls.realAnalogue at h
  split at h <;> cases h <;> decide

theorem partClass_real {t : Int} {c : Cls} (h : partClass t = .ok c) : c ∈ realClasses := by
  unfold partClass at h
  split at h
  · cases h
  · exact realAnalogue_real h

theorem realClass_real {e : Ent} {c : Cls} (h : e.realClass = .ok c) : c ∈ realClasses := by
  unfold realClass at h
  rcases hv : viewGet realSubV e with x | t
  · rw [hv] at h; cases h
  · rw [hv] at h; exact partClass_real h

theorem imagClass_real {e : Ent} {c : Cls} (h : e.imagClass = .ok c) : c ∈ realClasses := by
  unfold imagClass at h
  rcases hv : viewGet imagSubV e with x | t
  · rw [hv] at h; cases h
  · rw [hv] at h; exact partClass_real h

theorem realClasses_code {c : Cls} (h : c ∈ realClasses) : ∃ t, partCode c = some t := by
  simp only [realClasses, List.mem_cons, List.not_mem_nil, or_false] at h
  rcases h with rfl | rfl | rfl | rfl | rfl | rfl <;> exact ⟨_, rfl⟩

theorem keepsNine_float (c : Cls) (x : PyFloat) : KeepsNine (loadRealFloat c x) := by
  unfold loadRealFloat
  split
  · exact keepsNine_fraction _
  · exact keepsNine_raise _
  · exact keepsNine_raise _
  · exact keepsNine_raise _
  · exact keepsNine_real _

/-- A number made by a loader that keeps nine bytes. -/
theorem made_nine {c : Cls} (hc : c ∈ realClasses) {x : PyM Buf Unit} (hx : KeepsNine x) {v : Buf} {w : List Warn}
    (h : x ⟨true, clearFull c⟩ = ⟨.ok (), v, w⟩) : ∃ b l, v = ⟨true, b :: l⟩ ∧ l.length = 8 := by
  obtain ⟨b, l, hcl, hl, -⟩ := clearFull_real hc
  obtain ⟨b', l', h1, h2, -⟩ := hx b l hl
  rw [← hcl, h] at h1
  exact ⟨b', l', h1, h2⟩

theorem newReal_nine {σ : Type} {c : Cls} (hc : c ∈ realClasses) {s : Str} {st : σ} :
    (newReal c s st).st = st ∧ ∀ v, (newReal c s st).res = .ok v → ∃ b l, v = ⟨true, b :: l⟩ ∧ l.length = 8 := by
  unfold newReal
  show Out.st (match loadRealString c s ⟨true, clearFull c⟩ with | ⟨.error e, _, w⟩ => _ | ⟨.ok (), b, w⟩ => _) = st ∧
    ∀ v, Out.res (match loadRealString c s ⟨true, clearFull c⟩ with | ⟨.error e, _, w⟩ => _ | ⟨.ok (), b, w⟩ => _) = .ok v → _
  rcases h : loadRealString c s ⟨true, clearFull c⟩ with ⟨x | ⟨⟩, b, w⟩
  · exact ⟨rfl, fun v hv => by cases hv⟩
  · exact ⟨rfl, fun v hv => by cases hv; exact made_nine hc (keepsNine_string c s) h⟩

theorem newRealFloat_nine {σ : Type} {c : Cls} (hc : c ∈ realClasses) {x : PyFloat} {st : σ} :
    (newRealFloat c x st).st = st ∧ ∀ v, (newRealFloat c x st).res = .ok v → ∃ b l, v = ⟨true, b :: l⟩ ∧ l.length = 8 := by
  unfold newRealFloat
  show Out.st (match loadRealFloat c x ⟨true, clearFull c⟩ with | ⟨.error e, _, w⟩ => _ | ⟨.ok (), b, w⟩ => _) = st ∧
    ∀ v, Out.res (match loadRealFloat c x ⟨true, clearFull c⟩ with | ⟨.error e, _, w⟩ => _ | ⟨.ok (), b, w⟩ => _) = .ok v → _
  rcases h : loadRealFloat c x ⟨true, clearFull c⟩ with ⟨x | ⟨⟩, b, w⟩
  · exact ⟨rfl, fun v hv => by cases hv⟩
  · exact ⟨rfl, fun v hv => by cases hv; exact made_nine hc (keepsNine_float c _) h⟩

/-- An action that changes nothing but the real part of a complex number. -/
def KeepsImag (x : PyM Ent Unit) : Prop :=
  ∀ (e : Ent) (re im : Bytes), e.body = ⟨true, re ++ im⟩ → re.length = 9 → im.length = 9 →
    ∃ re', re'.length = 9 ∧ (x e).st = { e with body := ⟨true, re' ++ im⟩ }

theorem keepsImag_self {e : Ent} {re im : Bytes} (hb : e.body = ⟨true, re ++ im⟩) : e = { e with body := ⟨true, re ++ im⟩ } := by
  rw [← hb]

theorem keepsImag_newPut {c : Cls} (hc : c ∈ realClasses) (s : Str) : KeepsImag (newPutReal c s) := by
  intro e re im hb hr hi
  obtain ⟨t, ht⟩ := realClasses_code hc
  obtain ⟨g1, -, -, -⟩ := partCode_imagSubtype ht
  obtain ⟨h1, h2⟩ := newReal_nine hc (s := s) (st := e)
  unfold newPutReal
  rw [PyM.bind_run]
  revert h1 h2
  rcases newReal c s e with ⟨r, st, w⟩
  intro h1 h2
  cases (show st = e from h1)
  cases r with
  | error x => exact ⟨re, hr, keepsImag_self hb⟩
  | ok v =>
    obtain ⟨b, l, rfl, hl⟩ := h2 v rfl
    simp only [PyM.bind_run, putReal_run g1 hb hr hi b l hl]
    exact ⟨retag t b :: l, by simp [hl], rfl⟩

theorem keepsImag_orRetry {x h : PyM Ent Unit} (hx : KeepsImag x) (hh : KeepsImag h) : KeepsImag (orRetry x h) := by
  intro e re im hb hr hi
  obtain ⟨re', hr', h1⟩ := hx e re im hb hr hi
  have hrun : orRetry x h e = match x e with
    | ⟨.ok (), s', w⟩ => ⟨.ok (), s', w⟩
    | ⟨.error e, s', w⟩ => if retry e then (match h s' with | ⟨r, s'', w'⟩ => ⟨r, s'', w ++ w'⟩) else ⟨.error e, s', w⟩ := rfl
  rw [hrun]
  revert h1
  rcases x e with ⟨r, st, w⟩
  intro h1
  cases (show st = _ from h1)
  cases r with
  | ok u => exact ⟨re', hr', rfl⟩
  | error y =>
    obtain ⟨re'', hr'', h2⟩ := hh { e with body := ⟨true, re' ++ im⟩ } re' im rfl hr' hi
    by_cases hy : retry y = true
    · exact ⟨re'', hr'', by simp only [hy, if_true]; exact h2⟩
    · exact ⟨re', hr', by simp [hy]⟩

theorem keepsImag_other (s : Str) : ∀ l : List (Int × Cls), (∀ p ∈ l, p.2 ∈ realClasses) → KeepsImag (otherTypes s l) := by
  intro l
  induction l with
  | nil => intro _ e re im hb hr _; exact ⟨re, hr, keepsImag_self hb⟩
  | cons p l ih =>
    intro hl e re im hb hr hi
    obtain ⟨t, c⟩ := p
    have ih := ih fun q hq => hl q (List.mem_cons_of_mem _ hq)
    unfold otherTypes
    rw [PyM.bind_ok (PyM.get_run e), PyM.bind_run, PyM.ofExcept_run]
    rcases viewGet realSubV e with x | u
    · exact ⟨re, hr, keepsImag_self hb⟩
    · dsimp only
      split
      · exact ih e re im hb hr hi
      · exact keepsImag_orRetry (keepsImag_newPut (hl (t, c) (by simp)) s) ih e re im hb hr hi

theorem keepsImag_loadReal (s : Str) : KeepsImag (loadRealPart s) := by
  refine keepsImag_orRetry ?_ (keepsImag_other s realTypes (by decide))
  intro e re im hb hr hi
  rw [PyM.bind_ok (PyM.get_run e), PyM.bind_run, PyM.ofExcept_run]
  rcases hc : e.realClass with x | c
  · exact ⟨re, hr, keepsImag_self hb⟩
  · exact keepsImag_newPut (realClass_real hc) s e re im hb hr hi

/-- A complex number the class and type of which are those of its imaginary part. -/
structure Agrees (e : Ent) : Prop where
  complex : e.cls ∈ complexClasses
  type : e.cls.typeId = some (imagType e.body.bytes)
  section' : e.typeId = [UInt8.ofNat (imagType e.body.bytes)]
  writable : e.body.mutable = true
  length : e.body.bytes.length = 18

theorem agrees_put {e : Ent} {re : Bytes} (hr : re.length = 9) {c : Cls} {t : Nat} (ht : partCode c = some t) (b : UInt8) {l : Bytes}
    (hl : l.length = 8) :
    Agrees { e with cls := complexKind c, typeId := [UInt8.ofNat t], body := ⟨true, re ++ retag t b :: l⟩ } := by
  obtain ⟨-, h2, h3, -⟩ := partCode_imagSubtype ht
  have hg : (re ++ retag t b :: l).getD 9 0 = retag t b := by
    simp [List.getD, hr]
  have hi : imagType (re ++ retag t b :: l) = t := by
    unfold imagType
    rw [hg, retag_mod h2]
  refine ⟨?_, ?_, ?_, rfl, by simp [hr, hl]⟩
  · show complexKind c ∈ complexClasses
    cases c <;> decide
  · show (complexKind c).typeId = some (imagType (re ++ retag t b :: l))
    rw [hi]
    revert ht
    cases c <;> intro ht <;> cases ht <;> rfl
  · show [UInt8.ofNat t] = [UInt8.ofNat (imagType (re ++ retag t b :: l))]
    rw [hi]

/-- Nothing but class, type and content differs. -/
structure SameFrame (e e' : Ent) : Prop where
  metaLen : e'.metaLen = e.metaLen
  name : e'.name = e.name
  version : e'.version = e.version
  archived : e'.archived = e.archived

theorem putImag_agrees {e : Ent} {re im : Bytes} (hb : e.body = ⟨true, re ++ im⟩) (hr : re.length = 9) (hi : im.length = 9) {c : Cls}
    (hc : c ∈ realClasses) {v : Buf} (hv : ∃ b l, v = ⟨true, b :: l⟩ ∧ l.length = 8) :
    ∃ v' e', putImag c v e = ⟨.ok v', e', []⟩ ∧ Agrees e' ∧ SameFrame e e' := by
  obtain ⟨t, ht⟩ := realClasses_code hc
  obtain ⟨g1, -, g3, -⟩ := partCode_imagSubtype ht
  obtain ⟨b, l, rfl, hl⟩ := hv
  exact ⟨_, _, putImag_run g1 g3 hb hr hi b l hl, agrees_put hr ht b hl, ⟨rfl, rfl, rfl, rfl⟩⟩

theorem two_parts {e : Ent} (hm : e.body.mutable = true) (hb : e.body.bytes.length = 18) :
    ∃ re im, e.body = ⟨true, re ++ im⟩ ∧ re.length = 9 ∧ im.length = 9 := by
  refine ⟨e.body.bytes.take 9, e.body.bytes.drop 9, ?_, by simp [hb], by simp [hb]⟩
  rw [List.take_append_drop, ← hm]

theorem loadComplex_agrees {e e' : Ent} (hm : e.body.mutable = true) (hb : e.body.bytes.length = 18) {s : Str} {w : List Warn}
    (h : loadComplexString s e = ⟨.ok (), e', w⟩) : Agrees e' ∧ SameFrame e e' := by
  obtain ⟨re, im, hbody, hr, hi⟩ := two_parts hm hb
  unfold loadComplexString at h
  obtain ⟨⟨p, q⟩, s0, w0, w1, h0, ha⟩ := bind_split h
  clear h
  obtain ⟨-, rfl⟩ := ofExcept_split h0
  obtain ⟨u, s1, w2, w3, h1, h⟩ := bind_split (show (loadRealPart p >>= fun _ => loadImagPart q) s0 = _ from ha)
  obtain ⟨re', hr', k⟩ := keepsImag_loadReal p s0 re im hbody hr hi
  rw [h1] at k
  cases (show s1 = _ from k)
  unfold loadImagPart at h
  rw [PyM.bind_ok (PyM.get_run _)] at h
  simp only [List.nil_append] at h
  obtain ⟨c, s2, w4, w5, h2, hd⟩ := bind_split h
  clear h
  obtain ⟨hc, rfl⟩ := ofExcept_split h2
  obtain ⟨v, s3, w6, w7, h3, h⟩ := bind_split hd
  obtain ⟨g1, g2⟩ := newReal_nine (imagClass_real hc) (s := q) (st := ({ s0 with body := ⟨true, re' ++ im⟩ } : Ent))
  rw [h3] at g1 g2
  cases (show s3 = _ from g1)
  obtain ⟨v', e'', k1, k2, k3⟩ := putImag_agrees (e := { s0 with body := ⟨true, re' ++ im⟩ }) rfl hr' hi (imagClass_real hc) (g2 v rfl)
  rw [PyM.bind_ok k1] at h
  have : e'' = e' := congrArg Out.st h
  subst this
  exact ⟨k2, ⟨k3.metaLen, k3.name, k3.version, k3.archived⟩⟩

theorem loadComplexBody_agrees {e e' : Ent} (hm : e.body.mutable = true) (hb : e.body.bytes.length = 18) {x y : PyFloat} {w : List Warn}
    (h : loadComplexBody x y e = ⟨.ok (), e', w⟩) : Agrees e' ∧ SameFrame e e' := by
  obtain ⟨re, im, hbody, hr, hi⟩ := two_parts hm hb
  unfold loadComplexBody at h
  rw [PyM.bind_ok (PyM.get_run _)] at h
  simp only [List.nil_append] at h
  obtain ⟨c, s1, w0, w1, h1, ha⟩ := bind_split h
  clear h
  obtain ⟨hc, rfl⟩ := ofExcept_split h1
  obtain ⟨c', s2, w2, w3, h2, hd⟩ := bind_split ha
  clear ha
  obtain ⟨hc', rfl⟩ := ofExcept_split h2
  obtain ⟨v, s3, w4, w5, h3, h⟩ := bind_split hd
  obtain ⟨f1, f2⟩ := newRealFloat_nine (realClass_real hc) (x := x) (st := s2)
  rw [h3] at f1 f2
  cases (show s3 = _ from f1)
  obtain ⟨v', s4, w6, w7, h4, hf⟩ := bind_split h
  clear h
  obtain ⟨g1, g2⟩ := newRealFloat_nine (imagClass_real hc') (x := y) (st := s2)
  rw [h4] at g1 g2
  cases (show s4 = _ from g1)
  obtain ⟨b, l, rfl, hl⟩ := f2 v rfl
  obtain ⟨t, ht⟩ := realClasses_code (realClass_real hc)
  obtain ⟨k0, -, -, -⟩ := partCode_imagSubtype ht
  have h := hf
  rw [PyM.bind_ok (putReal_run k0 hbody hr hi b l hl)] at h
  obtain ⟨v'', e'', k1, k2, k3⟩ := putImag_agrees (e := { s2 with body := ⟨true, (retag t b :: l) ++ im⟩ }) rfl (by simp [hl]) hi
    (imagClass_real hc') (g2 v' rfl)
  rw [PyM.bind_ok k1] at h
  have : e'' = e' := congrArg Out.st h
  subst this
  exact ⟨k2, ⟨k3.metaLen, k3.name, k3.version, k3.archived⟩⟩

end Ent
end Verif
