import Verif.Proofs.ComplexLoad

/-! Lemmas about the kinds of numbers tried when the kind of the real part refuses its text. -/

namespace Verif
open Spec
namespace Ent

/-- The text is refused as a number of the kind, with an exception that makes the others be tried. -/
def Refuses (p : Str) (c : Cls) (w : List Warn) : Prop :=
  ∃ er b, (er = .typeError ∨ er = .valueError ∨ er = .unicodeEncodeError) ∧ loadRealString c p ⟨true, clearFull c⟩ = ⟨.error er, b, w⟩

theorem newPutReal_refuses {p : Str} {c : Cls} {w : List Warn} (h : Refuses p c w) (e : Ent) :
    ∃ er, retry er = true ∧ newPutReal c p e = ⟨.error er, e, w⟩ := by
  obtain ⟨er, b, h1, h2⟩ := h
  refine ⟨er, by rcases h1 with rfl | rfl | rfl <;> rfl, ?_⟩
  unfold newPutReal
  have : newReal c p e = ⟨.error er, e, w⟩ := by unfold newReal; simp only [h2]
  exact PyM.bind_error this

theorem orRetry_error {x h : PyM Ent Unit} {e : Ent} {er : PyErr} {w : List Warn} (hx : x e = ⟨.error er, e, w⟩) (hr : retry er = true) :
    orRetry x h e = ⟨(h e).res, (h e).st, w ++ (h e).warns⟩ := by
  unfold orRetry
  simp only [hx, hr, if_true]

theorem orRetry_ok {x h : PyM Ent Unit} {e e' : Ent} {w : List Warn} (hx : x e = ⟨.ok (), e', w⟩) :
    orRetry x h e = ⟨.ok (), e', w⟩ := by
  unfold orRetry
  simp only [hx]

/-- The kinds that refuse the text are passed over. -/
theorem otherTypes_skip {e : Ent} {u : Int} (hu : viewGet realSubV e = .ok u) {p : Str} {rest : List (Int × Cls)} :
    ∀ (pre : List (Int × Cls)) (ws : List (List Warn)), (∀ x ∈ pre, x.1 ≠ u) →
      List.Forall₂ (fun x w => Refuses p x.2 w) pre ws →
      otherTypes p (pre ++ rest) e =
        ⟨(otherTypes p rest e).res, (otherTypes p rest e).st, ws.flatten ++ (otherTypes p rest e).warns⟩ := by
  intro pre ws hne h
  induction h with
  | nil => simp
  | @cons x w pre ws hx h ih =>
    obtain ⟨er, h1, h2⟩ := newPutReal_refuses hx e
    rw [List.cons_append, otherTypes.eq_2]
    rw [PyM.bind_ok (PyM.get_run e), PyM.bind_ok ((PyM.ofExcept_run _ _).trans (by rw [hu]))]
    simp only [if_neg (hne x (by simp))]
    rw [orRetry_error h2 h1, ih (fun y hy => hne y (by simp [hy]))]
    simp

theorem otherTypes_take {e e' : Ent} {u : Int} (hu : viewGet realSubV e = .ok u) {p : Str} {rest : List (Int × Cls)} {t : Int} {k : Cls}
    (hne : t ≠ u) {w : List Warn} (h : newPutReal k p e = ⟨.ok (), e', w⟩) : otherTypes p ((t, k) :: rest) e = ⟨.ok (), e', w⟩ := by
  unfold otherTypes
  rw [PyM.bind_ok (PyM.get_run e), PyM.bind_ok ((PyM.ofExcept_run _ _).trans (by rw [hu]))]
  simp only [if_neg hne]
  rw [orRetry_ok h]
  simp

/-- The subtype of a part is none of the type numbers of real numbers. -/
theorem realTypes_ne {e : Ent} {c : Cls} (hc : e.realClass = .ok c) :
    ∃ u, viewGet realSubV e = .ok u ∧ ∀ x ∈ realTypes, x.1 ≠ u := by
  unfold realClass at hc
  cases hu : viewGet realSubV e with
  | error er => rw [hu] at hc; cases hc
  | ok u =>
    rw [hu] at hc
    refine ⟨u, rfl, ?_⟩
    have hc : partClass u = .ok c := hc
    intro x hx he
    subst he
    unfold realTypes at hx
    simp only [List.mem_cons, List.not_mem_nil, or_false] at hx
    rcases hx with rfl | rfl | rfl | rfl | rfl | rfl <;> cases hc

/-- Both parts load, the real part as a number of another kind. -/
theorem loadComplex_other {e : Ent} {re im : Bytes} {c c' k : Cls} {t t' : Nat} (hb : e.body = ⟨true, re ++ im⟩)
    (hr : re.length = 9) (hi : im.length = 9) (hc : e.realClass = .ok c) (hc' : e.imagClass = .ok c')
    {s p q : Str} (hs : complexParts s = .ok (p, q)) {w0 : List Warn} (h0 : Refuses p c w0)
    {pre post : List Cls} (hk : numberKinds = pre ++ k :: post) {ws : List (List Warn)} (hpre : List.Forall₂ (Refuses p) pre ws)
    (ht : partCode k = some t) (ht' : partCode c' = some t')
    {b b' : UInt8} {v v' : Bytes} {w w' : List Warn} (hv : v.length = 8) (hv' : v'.length = 8)
    (h1 : loadRealString k p ⟨true, clearFull k⟩ = ⟨.ok (), ⟨true, b :: v⟩, w⟩)
    (h2 : loadRealString c' q ⟨true, clearFull c'⟩ = ⟨.ok (), ⟨true, b' :: v'⟩, w'⟩) :
    loadComplexString s e = ⟨.ok (), { e with
      cls := complexKind c', typeId := [UInt8.ofNat t'], body := ⟨true, (retag t b :: v) ++ retag t' b' :: v'⟩ },
      w0 ++ (ws.flatten ++ w) ++ w'⟩ := by
  obtain ⟨g1, g2, -, -⟩ := partCode_imagSubtype ht
  obtain ⟨g1', g2', g3', -⟩ := partCode_imagSubtype ht'
  obtain ⟨u, hu, hne⟩ := realTypes_ne hc
  have hput : newPutReal k p e = ⟨.ok (), { e with body := ⟨true, (retag t b :: v) ++ im⟩ }, w⟩ := by
    unfold newPutReal
    rw [PyM.bind_ok (newReal_run h1 e), PyM.bind_ok (putReal_run g1 hb hr hi b v hv)]
    simp
  have hoth : otherTypes p realTypes e = ⟨.ok (), { e with body := ⟨true, (retag t b :: v) ++ im⟩ }, ws.flatten ++ w⟩ := by
    have hmap : realTypes.map Prod.snd = pre ++ k :: post := by rw [← hk]; rfl
    obtain ⟨A, B, hAB, hA, hB⟩ := List.map_eq_append_iff.1 hmap
    obtain ⟨x, B', rfl, rfl, hB'⟩ := List.map_eq_cons_iff.1 hB
    rw [hAB] at hne ⊢
    have hf : List.Forall₂ (fun x w => Refuses p x.2 w) A ws := by
      rw [← hA, List.forall₂_map_left_iff] at hpre
      exact hpre
    rw [otherTypes_skip hu A ws (fun y hy => hne y (by simp [hy])) hf,
      otherTypes_take hu (hne x (by simp)) (t := x.1) (k := x.2) hput]
  have hre : loadRealPart p e = ⟨.ok (), { e with body := ⟨true, (retag t b :: v) ++ im⟩ }, w0 ++ (ws.flatten ++ w)⟩ := by
    obtain ⟨er, k1, k2⟩ := newPutReal_refuses h0 e
    have : (do let e ← PyM.get; let c ← PyM.ofExcept e.realClass; newPutReal c p : PyM Ent Unit) e = ⟨.error er, e, w0⟩ := by
      rw [PyM.bind_ok (PyM.get_run e), PyM.bind_ok ((PyM.ofExcept_run _ _).trans (by rw [hc])), k2]
      simp
    unfold loadRealPart
    rw [orRetry_error this k1, hoth]
  have hcl : imagClass { e with body := ⟨true, (retag t b :: v) ++ im⟩ } = .ok c' := by
    match im, hi with
    | a :: im, hi =>
      have hi' : im.length = 8 := by simpa using hi
      rw [← hc']
      unfold imagClass
      rw [imagSub_get (re := retag t b :: v) rfl (by simp [hv]) hi', imagSub_get hb hr hi']
  have him : loadImagPart q { e with body := ⟨true, (retag t b :: v) ++ im⟩ } = ⟨.ok (), { e with
      cls := complexKind c', typeId := [UInt8.ofNat t'], body := ⟨true, (retag t b :: v) ++ retag t' b' :: v'⟩ }, w'⟩ := by
    unfold loadImagPart
    rw [PyM.bind_ok (PyM.get_run _), PyM.bind_ok ((PyM.ofExcept_run _ _).trans (by rw [hcl])),
      PyM.bind_ok (newReal_run h2 _), PyM.bind_ok (putImag_run (re := retag t b :: v) (im := im) g1' g3' rfl (by simp [hv]) hi b' v' hv')]
    simp
  unfold loadComplexString
  rw [PyM.bind_ok ((PyM.ofExcept_run _ _).trans (by rw [hs]))]
  show (loadRealPart p >>= fun _ => loadImagPart q) e = _
  rw [PyM.bind_ok hre, him]

/-- No kind reads the text of the real part. -/
theorem loadComplex_none {e : Ent} {c : Cls} (hc : e.realClass = .ok c) {s p q : Str} (hs : complexParts s = .ok (p, q))
    {w0 : List Warn} (h0 : Refuses p c w0) {ws : List (List Warn)} (hall : List.Forall₂ (Refuses p) numberKinds ws) :
    loadComplexString s e = ⟨.error .valueError, e, w0 ++ ws.flatten⟩ := by
  obtain ⟨u, hu, hne⟩ := realTypes_ne hc
  have hoth : otherTypes p realTypes e = ⟨.error .valueError, e, ws.flatten⟩ := by
    have hf : List.Forall₂ (fun x w => Refuses p x.2 w) realTypes ws := by
      have : numberKinds = realTypes.map Prod.snd := rfl
      rw [this, List.forall₂_map_left_iff] at hall
      exact hall
    have := otherTypes_skip hu (rest := []) realTypes ws hne hf
    rw [List.append_nil] at this
    rw [this]
    simp [otherTypes, PyM.raise]
  obtain ⟨er, k1, k2⟩ := newPutReal_refuses h0 e
  have : (do let e ← PyM.get; let c ← PyM.ofExcept e.realClass; newPutReal c p : PyM Ent Unit) e = ⟨.error er, e, w0⟩ := by
    rw [PyM.bind_ok (PyM.get_run e), PyM.bind_ok ((PyM.ofExcept_run _ _).trans (by rw [hc])), k2]
    simp
  have hre : loadRealPart p e = ⟨.error .valueError, e, w0 ++ ws.flatten⟩ := by
    unfold loadRealPart
    rw [orRetry_error this k1, hoth]
  unfold loadComplexString
  rw [PyM.bind_ok ((PyM.ofExcept_run _ _).trans (by rw [hs]))]
  show (loadRealPart p >>= fun _ => loadImagPart q) e = _
  rw [PyM.bind_error hre]

end Ent
end Verif
