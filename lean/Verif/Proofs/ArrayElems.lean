import Verif.Proofs.MatrixText
import Verif.Props.RealText
import Verif.Props.ComplexText

/-! Reading the elements of lists and matrices. -/

namespace Verif
open Spec Ent

/-- The number denoted by the text is the one that is stored: decimals truncated to 14 digits, the others exactly. -/
def Stored (n : NumText) (x : Ent) : Prop :=
  match n with
  | .literal l => Holds l.value x.body.bytes
  | .ratio g p q => realFraction ⟨true, x.body.bytes⟩ = .ok (ratioValue g p q)
  | .radical t => ∃ (a b : Int) (m n : Nat), radFields ⟨true, x.body.bytes⟩ =
        .ok ((t.denominator.natAbs : Int), a, (m : Int), b, (n : Int)) ∧
      ((a : ℝ) * Real.sqrt m + b * Real.sqrt n) / (t.denominator.natAbs : ℝ) = t.value
  | .multiple l _ _ => Holds l.value x.body.bytes
  | .piRatio g p q => piFraction ⟨true, x.body.bytes⟩ = .ok (ratioValue g p q)

theorem element_read (n : NumText) (hv : n.Valid) (hf : n.Fits) (s : Str) (hw : n.Writes s) :
    ∃ x, realOfString s () = ⟨.ok x, (), []⟩ ∧ RealElem x ∧ x.cls = n.kind ∧ Stored n x := by
  cases n with
  | literal l =>
    obtain ⟨b, g1, g2, g3⟩ := loadDecimal hv hf.1 hf.2 hw (UInt8.ofNat 0x00)
    exact ⟨_, realOfString_ok (firstReal_hit (w := []) g1), realElem_of (t := 0x00) (by simp) g2.1 g3, rfl, g2⟩
  | ratio g p q =>
    obtain ⟨b, g1, g2, g3, g4⟩ := elem_ratio hv hf hw
    exact ⟨_, realOfString_ok g1, realElem_of (t := 0x18) (by simp) g2 g3, rfl, g4⟩
  | radical t =>
    obtain ⟨b, g1, g2, g3, g4⟩ := elem_radical hv hf hw
    refine ⟨_, realOfString_ok g1, realElem_of (t := 0x1C) (by simp) g2 ?_, rfl, g4⟩
    match b, g3 with
    | x :: b, g3 =>
      simp only [List.getElem?_cons_zero, Option.some.injEq] at g3
      rw [List.headD_cons, g3]
  | multiple l star word =>
    obtain ⟨b, g1, g2, g3⟩ := elem_multiple hv hf hw
    exact ⟨_, realOfString_ok g1, realElem_of (t := 0x20) (by simp) g2.1 g3, rfl, g2⟩
  | piRatio g p q =>
    obtain ⟨b, g1, g2, g3, g4⟩ := elem_piRatio hv hf hw
    exact ⟨_, realOfString_ok g1, realElem_of (t := 0x21) (by simp) g2 g3, rfl, g4⟩

theorem element_refused (s : Str) (h : ∀ c ∈ realClasses, ∃ x, (loadRealString c s ⟨true, clearFull c⟩).res = .error x) :
    realOfString s () = ⟨.error .valueError, (), []⟩ := by
  have key : ∀ l : List (Int × Cls), (∀ p ∈ l, p.2 ∈ realClasses) → firstReal s l = .error .valueError := by
    intro l
    induction l with
    | nil => intro _; rfl
    | cons p l ih =>
      intro hl
      obtain ⟨x, hx⟩ := h p.2 (hl p (by simp))
      obtain ⟨t, c⟩ := p
      rw [firstReal_miss (b := (loadRealString c s ⟨true, clearFull c⟩).st) (w := (loadRealString c s ⟨true, clearFull c⟩).warns)
        (x := x) (by rw [← hx])]
      exact ih fun p hp => hl p (List.mem_cons_of_mem _ hp)
  unfold realOfString
  rw [key realTypes (by decide)]
  rfl

/-- The element texts of a real list, read one by one. -/
theorem elems_read {ns : List NumText} {ts : List Str} (h : List.Forall₂ (fun n t => n.Valid ∧ n.Fits ∧ n.Writes t) ns ts) :
    ∃ xs, List.Forall₂ (fun t x => realOfString t () = ⟨.ok x, (), []⟩) ts xs ∧
      List.Forall₂ (fun n x => RealElem x ∧ x.cls = n.kind ∧ Stored n x) ns xs := by
  induction h with
  | nil => exact ⟨[], .nil, .nil⟩
  | cons h _ ih =>
    obtain ⟨xs, h1, h2⟩ := ih
    obtain ⟨x, g1, g2⟩ := element_read _ h.1 h.2.1 _ h.2.2
    exact ⟨x :: xs, .cons g1 h1, .cons g2 h2⟩

theorem forall₂_undelimited {ns : List NumText} {ts : List Str} (h : List.Forall₂ (fun n t => n.Valid ∧ n.Fits ∧ n.Writes t) ns ts) :
    ∀ t ∈ ts, Undelimited t := by
  induction h with
  | nil => intro t ht; cases ht
  | cons h _ ih =>
    intro t ht
    rcases List.mem_cons.1 ht with rfl | ht
    · exact undelimited h.1 h.2.2
    · exact ih t ht

theorem rows_read {nss : List (List NumText)} {tss : List (List Str)}
    (h : List.Forall₂ (List.Forall₂ fun n t => n.Valid ∧ n.Fits ∧ n.Writes t) nss tss) :
    ∃ xss, List.Forall₂ (List.Forall₂ fun t x => realOfString t () = ⟨.ok x, (), []⟩) tss xss ∧
      List.Forall₂ (List.Forall₂ fun n x => RealElem x ∧ x.cls = n.kind ∧ Stored n x) nss xss := by
  induction h with
  | nil => exact ⟨[], .nil, .nil⟩
  | cons h _ ih =>
    obtain ⟨xss, h1, h2⟩ := ih
    obtain ⟨xs, g1, g2⟩ := elems_read h
    exact ⟨xs :: xss, .cons g1 h1, .cons g2 h2⟩

theorem forall₂_rows {nss : List (List NumText)} {tss : List (List Str)}
    (h : List.Forall₂ (List.Forall₂ fun n t => n.Valid ∧ n.Fits ∧ n.Writes t) nss tss) :
    ∀ r ∈ tss, ∀ t ∈ r, Undelimited t := by
  induction h with
  | nil => intro t ht; cases ht
  | cons h _ ih =>
    intro t ht
    rcases List.mem_cons.1 ht with rfl | ht
    · exact forall₂_undelimited h
    · exact ih t ht

theorem forall₂_lengths {α β : Type} {R : α → β → Prop} {ass : List (List α)} {bss : List (List β)}
    (h : List.Forall₂ (List.Forall₂ R) ass bss) : ass.map List.length = bss.map List.length := by
  induction h with
  | nil => rfl
  | cons h _ ih => rw [List.map_cons, List.map_cons, h.length_eq, ih]

theorem mapW_rows_refused {tss : List (List Str)} {r : List Str} {s : Str} (hr : r ∈ tss) (hs : s ∈ r)
    (h : realOfString s () = ⟨.error .valueError, (), []⟩) : mapW (mapW realOfString) tss () = ⟨.error .valueError, (), []⟩ := by
  have hrow : ∀ l : List Str, (∃ xs, mapW realOfString l () = ⟨.ok xs, (), []⟩) ∨ mapW realOfString l () = ⟨.error .valueError, (), []⟩ := by
    intro l
    induction l with
    | nil => exact Or.inl ⟨[], rfl⟩
    | cons t l ih =>
      rcases realOfString_cases t with ⟨x, hx⟩ | hx
      · rcases ih with ⟨xs, hxs⟩ | hxs
        · exact Or.inl ⟨x :: xs, by simp [mapW, PyM.bind_run, hx, hxs]⟩
        · exact Or.inr (by simp [mapW, PyM.bind_run, hx, hxs])
      · exact Or.inr (by simp [mapW, PyM.bind_run, hx])
  induction tss with
  | nil => cases hr
  | cons t l ih =>
    rcases hrow t with ⟨x, hx⟩ | hx
    · rcases List.mem_cons.1 hr with rfl | hr
      · rw [mapW_refused hs h] at hx; cases hx
      · have := ih hr
        rw [mapW]
        simp [PyM.bind_run, hx, this]
    · rw [mapW]
      simp [PyM.bind_run, hx]

/-- A complex number with both parts decimal. -/
def StoredComplex (d : ComplexText) (x : Ent) : Prop :=
  ∃ re im, x.body.bytes = re ++ im ∧ Holds d.reValue re ∧ Holds d.imValue im

theorem complex_read (d : ComplexText) (hd : d.Valid) (hs : d.Safe) (s : Str) (hw : squash s = d.render) :
    ∃ x, complexOfString s () = ⟨.ok x, (), []⟩ ∧ ComplexElem x ∧ x.cls = .complex ∧ StoredComplex d x := by
  obtain ⟨re, im, h1, h2, h3, h4, h5⟩ := C91_load_partial d hd hs s hw (elem .complexE (clearFull .complexE))
    ((clearFull .complexE).take 9) ((clearFull .complexE).drop 9) (by rw [List.take_append_drop]; rfl) (by decide) (by decide)
    (by decide) (by decide)
  refine ⟨{ elem .complexE (clearFull .complexE) with cls := .complex, typeId := [0x0C], body := ⟨true, re ++ im⟩ }, ?_, ⟨by simp [complexClasses], ?_, ?_, ?_⟩, rfl,
    re, im, rfl, h4, h5⟩
  · unfold complexOfString
    show (match loadComplexString s (elem .complexE (clearFull .complexE)) with
      | ⟨.error x, _, w⟩ => (⟨.error x, (), w⟩ : Out Unit Ent)
      | ⟨.ok (), e, w⟩ => ⟨.ok e, (), w⟩) = _
    rw [h1]
  · show (re ++ im).length = 18
    rw [List.length_append, h4.1, h5.1]
  · show ((re ++ im).getD 0 0).toNat % 64 ∈ _
    rw [show (re ++ im).getD 0 0 = re.headD 0 by
      match re, h4.1 with
      | x :: re, _ => rfl, h2]
    simp
  · show Cls.typeId .complex = some (((re ++ im).getD 9 0).toNat % 64)
    rw [show (re ++ im).getD 9 0 = im.headD 0 by
      match im, h5.1 with
      | x :: im, _ => rw [List.getD_eq_getElem?_getD, List.getElem?_append_right (by rw [h4.1]), h4.1]; rfl, h3]
    rfl

theorem complexes_read {ds : List ComplexText} {ts : List Str}
    (h : List.Forall₂ (fun d t => d.Valid ∧ d.Safe ∧ squash t = d.render) ds ts) :
    ∃ xs, List.Forall₂ (fun t x => complexOfString t () = ⟨.ok x, (), []⟩) ts xs ∧
      List.Forall₂ (fun d x => ComplexElem x ∧ x.cls = .complex ∧ StoredComplex d x) ds xs := by
  induction h with
  | nil => exact ⟨[], .nil, .nil⟩
  | cons h _ ih =>
    obtain ⟨xs, h1, h2⟩ := ih
    obtain ⟨x, g1, g2⟩ := complex_read _ h.1 h.2.1 _ h.2.2
    exact ⟨x :: xs, .cons g1 h1, .cons g2 h2⟩

end Verif
