import Verif.Proofs.ArrayElems
import Verif.Proofs.ComplexReload
import Verif.Spec.ArrayReload
import Verif.Spec.Typeable
import Verif.Props.Fraction
import Verif.Props.RadicalText
import Verif.Props.Array

/-! Printing the elements of lists and matrices, and reading the text again. -/

namespace Verif
open Spec Ent

theorem intRepr_sign (v : Int) : ∃ s : Sign, s ≠ .tilde ∧ intRepr v = s.str ++ natRepr v.natAbs ∧
    ((if s.isNeg then -1 else 1 : ℚ) * (v.natAbs : ℚ)) = v := by
  unfold intRepr
  by_cases h : v < 0
  · refine ⟨.minus, by simp, by simp [h, Sign.str], ?_⟩
    rw [show (v.natAbs : ℚ) = ((v.natAbs : Int) : ℚ) from (Int.cast_natCast _).symm, Int.ofNat_natAbs_of_nonpos h.le]
    simp [Sign.isNeg]
  · refine ⟨.none, by simp, by simp [h, Sign.str], ?_⟩
    rw [show (v.natAbs : ℚ) = ((v.natAbs : Int) : ℚ) from (Int.cast_natCast _).symm, Int.natAbs_of_nonneg (by omega)]
    simp [Sign.isNeg]

/-- A fraction that is not whole as text. -/
theorem fracStr_ratio {f : ℚ} (h : f.den ≠ 1) : ∃ s : Sign, s ≠ .tilde ∧
    fracStr f = s.str ++ (natRepr f.num.natAbs ++ '/' :: natRepr f.den) ∧ ratioValue s (natRepr f.num.natAbs) (natRepr f.den) = f := by
  obtain ⟨s, h1, h2, h3⟩ := intRepr_sign f.num
  refine ⟨s, h1, ?_, ?_⟩
  · unfold fracStr
    rw [if_neg h, h2, List.append_assoc]
  · unfold ratioValue
    rw [natRepr_value, natRepr_value, ← mul_div_assoc, h3, Rat.num_div_den]

theorem ratio_squash (s : Sign) (p q : Nat) (w : Str) (hw : squash w = w) :
    squash (s.str ++ (natRepr p ++ (w ++ natRepr q))) = s.str ++ (natRepr p ++ (w ++ natRepr q)) := by
  have h1 : squash s.str = s.str := by cases s <;> decide
  rw [squash_append, squash_append, squash_append, h1, hw, squash_digits (natRepr_spec _).1, squash_digits (natRepr_spec _).1]

theorem piStr_text {b : Buf} {c e : Int} (hr : realDecimal b = .ok (c, e)) (hc0 : c ≠ 0) :
    piStr b = .ok ((printLit c e).render ++ ['π']) := by
  unfold piStr printLit
  rw [hr, if_neg hc0]
  simp only
  rw [if_neg, plainLit_render]
  intro h
  have h1 := (decMul_spec (show 0 < 14 by omega) ⟨decide (c < 0), c.natAbs, e⟩ pyPi).1
  have h2 := (roundsHalfEven_bounds h1).2.2.mpr (by unfold PyDec.mag; rw [h]; simp)
  unfold PyDec.mag at h2
  rw [mul_eq_zero, mul_eq_zero, mul_eq_zero] at h2
  have hp1 := (ten_zpow_pos e).ne'
  have hp2 := (ten_zpow_pos pyPi.exp).ne'
  rcases h2 with (h2 | h2) | (h2 | h2)
  · have : c.natAbs = 0 := by exact_mod_cast h2
    omega
  · exact hp1 h2
  · revert h2; simp [pyPi]
  · exact hp2 h2

theorem textOf_fits {d m n : Nat} {x y : Int} (hd : d ≠ 0) (hd' : d < 1000) (hx : x ≠ 0) (hx' : x.natAbs < 1000)
    (hy : y.natAbs < 1000) (hmn : n < m) (hm1 : 1 < m) (hm : m < 1000) :
    (NumText.radical (textOf d x m y n)).Valid ∧ (NumText.radical (textOf d x m y n)).Fits := by
  have hv := textOf_valid hd x m y n
  have hx0 : ¬ (x = 0 ∨ m = 0) := by omega
  by_cases h2 : y = 0 ∨ n = 0
  · have ht : textOf d x m y n = singleOf d x m := by unfold textOf; rw [if_neg hx0, if_pos h2]
    rw [ht] at hv ⊢
    have h1 : (singleOf d x m).first.factor = x := termOf_factor (sgnOf_neg x)
    have hr : (singleOf d x m).first.radicand = m := termOf_radicand _ _ _
    have hroot : (singleOf d x m).first.root ≠ none := fun h => by
      have := (termOf_root x m (sgnOf x)).1 h
      omega
    have hlead : (singleOf d x m).lead = x := by
      unfold RadText.lead
      rw [hr, if_pos (show (singleOf d x m).radicand2 < m from hm1), h1]
    refine ⟨⟨hv, Or.inl hroot⟩, ⟨?_, ?_, ?_, ?_⟩, ⟨?_, ?_, ?_⟩⟩
    · rw [h1, hr]; exact ⟨hx', hm⟩
    · intro u hu; simp [singleOf] at hu
    · rw [singleOf_den]; simpa using hd'
    · rw [hlead]; exact hx'
    · rw [hlead]; exact hx
    · intro u hu; simp [singleOf] at hu
    · intro s e _ _ he
      simp only [singleOf] at he
      split at he
      · cases he
      · simp only [Option.some.injEq, Prod.mk.injEq] at he
        exact he.1.symm
  · have ht : textOf d x m y n = doubleOf d x m y n := by unfold textOf; rw [if_neg hx0, if_neg h2]
    rw [ht] at hv ⊢
    have h1 : (doubleOf d x m y n).first.factor = x := termOf_factor (sgnOf_neg x)
    have hr : (doubleOf d x m y n).first.radicand = m := termOf_radicand _ _ _
    have hr2 : (doubleOf d x m y n).radicand2 = n := termOf_radicand _ _ _
    have hroot : (doubleOf d x m y n).first.root ≠ none := fun h => by
      have := (termOf_root x m (sgnOf x)).1 h
      omega
    have hlead : (doubleOf d x m y n).lead = x := by
      unfold RadText.lead
      rw [hr, hr2, if_pos hmn, h1]
    refine ⟨⟨hv, Or.inl hroot⟩, ⟨?_, ?_, ?_, ?_⟩, ⟨?_, ?_, ?_⟩⟩
    · rw [h1, hr]; exact ⟨hx', hm⟩
    · intro u hu
      simp only [doubleOf, Option.some.injEq] at hu
      subst hu
      rw [termOf_factor (sgn2Of_neg y), termOf_radicand]
      exact ⟨hy, by omega⟩
    · rw [doubleOf_den]; simpa using hd'
    · rw [hlead]; exact hx'
    · rw [hlead]; exact hx
    · intro u _ hn; exact absurd hn hroot
    · intro s e hn; simp [doubleOf] at hn

/-- The forms of text that are printed. -/
def AsPrinted : NumText → Prop
  | .literal l => Printed l
  | .ratio g _ _ => g ≠ .tilde
  | .radical t => (∀ r, t.first.root = some r → r.star = false ∧ r.word = false ∧ r.paren = false) ∧
      ∀ u, t.second = some u → ∀ r, u.root = some r → r.star = false ∧ r.word = false ∧ r.paren = false
  | .multiple l star word => Printed l ∧ star = false ∧ word = false
  | .piRatio g _ _ => g ≠ .tilde

/-- There is no denominator. -/
def Whole : NumText → Prop
  | .literal _ | .multiple _ _ _ => True
  | .radical t => t.den = none
  | _ => False

theorem termOf_plain (x : Int) (m : Nat) (s : Sign) (r : Root) (h : (termOf x m s).root = some r) :
    r.star = false ∧ r.word = false ∧ r.paren = false := by
  simp only [termOf] at h
  split at h
  · cases h
  · cases h; exact ⟨rfl, rfl, rfl⟩

theorem textOf_printed (d : Nat) (x : Int) (m : Nat) (y : Int) (n : Nat) : AsPrinted (.radical (textOf d x m y n)) := by
  have h1 : ∀ x m, AsPrinted (.radical (singleOf d x m)) := fun x m =>
    ⟨termOf_plain _ _ _, fun u hu => by simp [singleOf] at hu⟩
  unfold textOf
  split
  · split
    · exact ⟨fun r hr => by simp at hr, fun u hu => by simp at hu⟩
    · exact h1 _ _
  · split
    · exact h1 _ _
    · refine ⟨termOf_plain _ _ _, fun u hu => ?_⟩
      simp only [doubleOf, Option.some.injEq] at hu
      subst hu
      exact termOf_plain _ _ _

theorem textOf_den {d m n : Nat} {x y : Int} (hx : x ≠ 0) (hm : 1 < m) :
    (textOf d x m y n).den = none ↔ d = 1 ∧ (y = 0 ∨ n = 0) := by
  unfold textOf
  rw [if_neg (by omega)]
  by_cases h2 : y = 0 ∨ n = 0
  · rw [if_pos h2]
    by_cases hd : d = 1 <;> simp [singleOf, hd, h2]
  · rw [if_neg h2]
    simp [doubleOf, h2]

/-- The text of an element, and what it loads as. -/
theorem element_printed {x : Ent} (h : Reloadable x) : ∃ (n : NumText) (t : Str), elemStr x = .ok t ∧ squash t = t ∧ n.Valid ∧ n.Fits ∧
    (∀ s, squash s = [] → n.Writes (s ++ t)) ∧ n.kind = x.cls ∧ (AsPrinted n ∧ (Undivided x ↔ Whole n)) ∧
    ∀ y, y.cls = x.cls → Stored n y → SameValue x y := by
  obtain ⟨hel, h⟩ := h
  have hsub : ∀ c ∈ realClasses, c.isSub .complexE = false ∧ c ≠ .realE := by decide
  obtain ⟨hs1, hs2⟩ := hsub _ hel.1
  have hstr : elemStr x = realPartStr x.cls ⟨true, x.body.bytes⟩ := by
    unfold elemStr
    rw [hs1, if_neg (by simp), if_neg hs2]
    rfl
  have happ : ∀ {s t : Str}, squash s = [] → squash (s ++ t) = squash t := by
    intro s t hs; rw [squash_append, hs, List.nil_append]
  rw [hstr]
  unfold SameValue Undivided
  have hlen := hel.2.1
  generalize x.body.bytes = v at *
  generalize x.cls = cl at *
  cases cl <;> simp only at h
  case real =>
    obtain ⟨c, e, a1, a2, a3, n, a4⟩ := h
    obtain ⟨r1, r2, r3⟩ := realDecimal_bounds hlen a1 a2
    have hl := printLit_spec c e
    have hsq := squash_render _ hl.valid
    refine ⟨.literal (printLit c e), (printLit c e).render, printLit_str a2, hsq, hl.valid, ⟨hl.zeros, printLit_range a3 r1 r2 r3 a4⟩,
      fun s hs => (happ hs).trans hsq, rfl, ⟨hl, Iff.rfl⟩, fun y hy hst => ⟨hy, c, e, if c = 0 then 0 else c, if c = 0 then -13 else e, a2, ?_, ?_⟩⟩
    · rw [holds_decimal a3 r1 (Holds.to hst (printLit_value a4))]
      split <;> rfl
    · by_cases h0 : c = 0
      · simp [h0]
      · simp [h0]
  case realFraction =>
    obtain ⟨f, a1, a2, a3⟩ := h
    obtain ⟨s, b1, b2, b3⟩ := fracStr_ratio a2
    have hsq := ratio_squash s f.num.natAbs f.den ['/'] rfl
    refine ⟨.ratio s (natRepr f.num.natAbs) (natRepr f.den), fracStr f, ?_, by rw [b2]; exact hsq,
      ⟨natRepr_digits _, (natRepr_spec _).2.2, natRepr_digits _, by rw [natRepr_value]; exact f.den_nz⟩, ⟨b1, ?_, ?_⟩, fun s' hs => ?_, rfl, ⟨b1, Iff.rfl⟩,
      fun y hy hst => ⟨hy, f, a1, ?_⟩⟩
    · show fractionStr _ = _
      unfold fractionStr
      rw [a1]
    · rw [b3]; exact realFraction_den a1
    · rw [b3]; exact a3
    · show squash (s' ++ _) = _
      rw [happ hs, b2]
      exact hsq
    · rw [← b3]; exact hst
  case realRadical =>
    obtain ⟨d, m, n, a, b, a1, a2, a3, a4, a5, a6, a7, a8, a9⟩ := h
    obtain ⟨k1, k2⟩ := textOf_fits a2 a3 a4 a5 a6 a7 a8 a9
    have hsq := squash_text k1.1
    refine ⟨.radical (textOf d a m b n), (textOf d a m b n).render, radStr_text a1, hsq, k1, k2, fun s hs => (happ hs).trans hsq, rfl,
      ⟨textOf_printed _ _ _ _ _, ?_⟩, fun y hy hst => ⟨hy, ?_⟩⟩
    · rw [show Whole (.radical (textOf d a m b n)) ↔ d = 1 ∧ (b = 0 ∨ n = 0) from textOf_den a4 a8, a1]
      constructor
      · intro h
        have := h _ _ _ _ _ rfl
        exact ⟨by omega, by omega⟩
      · rintro h _ _ _ _ _ ⟨⟩
        exact ⟨by omega, by omega⟩
    obtain ⟨a', b', m', n', g1, g2⟩ := hst
    exact ⟨d, m, n, _, m', n', a, b, a', b', a1, g1, by rw [g2, textOf_value]⟩
  case realPi =>
    obtain ⟨c, e, ⟨a1, a2, a3, n, a4⟩, a5⟩ := h
    obtain ⟨r1, r2, r3⟩ := realDecimal_bounds hlen a1 a2
    have hl := printLit_spec c e
    have hsq := squash_render _ hl.valid
    refine ⟨.multiple (printLit c e) false false, (printLit c e).render ++ ['π'], piStr_text a2 a5, ?_, hl.valid,
      ⟨hl.exp, hl.zeros, printLit_range a3 r1 r2 r3 a4⟩, fun s hs => ⟨s ++ (printLit c e).render, (happ hs).trans hsq, by simp [piStrOf]⟩, rfl, ⟨⟨hl, rfl, rfl⟩, Iff.rfl⟩,
      fun y hy hst => ⟨hy, c, e, c, e, a2, ?_, rfl⟩⟩
    · rw [squash_append, hsq]; rfl
    · have := holds_decimal a3 r1 (Holds.to hst (printLit_value a4))
      rwa [if_neg a5] at this
  case realPiFraction =>
    obtain ⟨f, a1, a2, a3⟩ := h
    obtain ⟨s, b1, b2, b3⟩ := fracStr_ratio a2
    have hsq := ratio_squash s f.num.natAbs f.den ['π', '/'] rfl
    have htext : replaceStr ['/'] ['π', '/'] (fracStr f) = s.str ++ (natRepr f.num.natAbs ++ (['π', '/'] ++ natRepr f.den)) := by
      have hd : ∀ k, '/' ∉ natRepr k := fun k h => by
        have := List.all_eq_true.mp (natRepr_spec k).1 _ h
        revert this; decide
      have hs : '/' ∉ s.str := by cases s <;> decide
      have := replaceStr_once '/' [] ['π', '/'] (s.str ++ natRepr f.num.natAbs) (natRepr f.den)
        (by rw [List.mem_append, not_or]; exact ⟨hs, hd _⟩) (hd _)
      rw [b2]
      simpa using this
    refine ⟨.piRatio s (natRepr f.num.natAbs) (natRepr f.den), s.str ++ (natRepr f.num.natAbs ++ (['π', '/'] ++ natRepr f.den)), ?_, ?_,
      ⟨natRepr_digits _, (natRepr_spec _).2.2, natRepr_digits _, by rw [natRepr_value]; exact f.den_nz⟩, ⟨b1, ?_, ?_⟩, fun s' hs => ?_, rfl, ⟨b1, Iff.rfl⟩,
      fun y hy hst => ⟨hy, f, a1, ?_⟩⟩
    · show piFractionStr _ = _
      unfold piFractionStr
      rw [a1]
      simp only
      rw [htext]
    · exact hsq
    · rw [b3]; exact piFraction_den a1
    · rw [b3]; exact a3
    · show squash (s' ++ _) = _
      rw [happ hs]
      exact hsq
    · rw [← b3]; exact hst

@[inherit_doc element_printed]
theorem element_text {x : Ent} (h : Reloadable x) : ∃ (n : NumText) (t : Str), elemStr x = .ok t ∧ squash t = t ∧ n.Valid ∧ n.Fits ∧
    (∀ s, squash s = [] → n.Writes (s ++ t)) ∧ n.kind = x.cls ∧ ∀ y, y.cls = x.cls → Stored n y → SameValue x y := by
  obtain ⟨n, t, h1, h2, h3, h4, h5, h6, -, h7⟩ := element_printed h
  exact ⟨n, t, h1, h2, h3, h4, h5, h6, h7⟩

theorem Reloadable.of {x y : Ent} (h : SameNumber x y) (hx : Reloadable x) : Reloadable y := by
  unfold Reloadable RealElem at hx ⊢
  rw [← h.1, ← h.2]; exact hx

theorem SameValue.of {x y z : Ent} (h : SameNumber x y) (hx : SameValue y z) : SameValue x z := by
  unfold SameValue at hx ⊢
  rw [h.1, h.2]; exact hx

theorem SameValue.of' {x y z : Ent} (h : SameNumber y z) (hx : SameValue x y) : SameValue x z := by
  unfold SameValue at hx ⊢
  rw [← h.1, ← h.2]; exact hx

theorem forall₂_trans {α β γ : Type} {R : α → β → Prop} {S : β → γ → Prop} {T : α → γ → Prop} (h : ∀ a b c, R a b → S b c → T a c)
    {l : List α} {m : List β} {n : List γ} (h1 : List.Forall₂ R l m) (h2 : List.Forall₂ S m n) : List.Forall₂ T l n := by
  induction h1 generalizing n with
  | nil => cases h2; exact .nil
  | cons ha _ ih =>
    cases h2 with
    | cons hb h2 => exact .cons (h _ _ _ ha hb) (ih h2)

theorem forall₂_right {α β : Type} {R : α → β → Prop} {P : α → Prop} {Q : β → Prop} (h : ∀ a b, P a → R a b → Q b) {l : List α} {m : List β}
    (hl : ∀ a ∈ l, P a) (hr : List.Forall₂ R l m) : ∀ b ∈ m, Q b := by
  induction hr with
  | nil => intro b hb; cases hb
  | cons hab _ ih =>
    intro b hb
    rcases List.mem_cons.1 hb with rfl | hb
    · exact h _ _ (hl _ (by simp)) hab
    · exact ih (fun a ha => hl a (List.mem_cons_of_mem _ ha)) b hb

/-- What the elements print as, and what the texts load as, with spaces in front or not. -/
theorem elements_text {es : List Ent} (h : ∀ x ∈ es, Reloadable x) : ∃ ts : List Str, mapE elemStr es = .ok ts ∧ ts.length = es.length ∧
    (∀ t ∈ ts, squash t = t ∧ Undelimited t) ∧ ∀ f : Str → Str, (∀ t, f t = t ∨ f t = ' ' :: t) → ∃ xs,
      List.Forall₂ (fun t x => realOfString t () = ⟨.ok x, (), []⟩) (ts.map f) xs ∧ (∀ x ∈ xs, RealElem x) ∧ List.Forall₂ SameValue es xs := by
  induction es with
  | nil => exact ⟨[], rfl, rfl, by simp, fun _ _ => ⟨[], .nil, by simp, .nil⟩⟩
  | cons e es ih =>
    obtain ⟨ts, g1, g2, g3, g4⟩ := ih fun x hx => h x (List.mem_cons_of_mem _ hx)
    obtain ⟨n, t, k1, k2, k3, k4, k5, k6, k7⟩ := element_text (h e (by simp))
    refine ⟨t :: ts, ?_, by simp [g2], ?_, fun f hf => ?_⟩
    · simp only [mapE, k1, g1]
    · intro u hu
      rcases List.mem_cons.1 hu with rfl | hu
      · exact ⟨k2, undelimited k3 (k5 [] rfl)⟩
      · exact g3 u hu
    · obtain ⟨xs, l1, l2, l3⟩ := g4 f hf
      have hw : n.Writes (f t) := by
        rcases hf t with h | h <;> rw [h]
        · exact k5 [] rfl
        · exact k5 [' '] rfl
      obtain ⟨x, m1, m2, m3, m4⟩ := element_read n k3 k4 (f t) hw
      refine ⟨x :: xs, .cons m1 l1, ?_, .cons (k7 x (m3.trans k6) m4) l3⟩
      intro y hy
      rcases List.mem_cons.1 hy with rfl | hy
      · exact m2
      · exact l2 y hy

/-- Joining with a comma and a space puts a space in front of all texts but the first. -/
def spaceTail : List Str → List Str
  | [] => []
  | t :: ts => t :: ts.map (' ' :: ·)

theorem join_space : ∀ ts : List Str, joinStr [',', ' '] ts = joinStr [','] (spaceTail ts)
  | [] => rfl
  | [a] => rfl
  | [a, b] => by simp [joinStr, spaceTail]
  | a :: b :: c :: l => by
    have := join_space (b :: c :: l)
    simp only [joinStr, spaceTail, List.map_cons] at this ⊢
    rw [this]
    simp

theorem undelimited_space {t : Str} (h : Undelimited t) : Undelimited (' ' :: t) := by
  intro c hc
  rcases List.mem_cons.1 hc with rfl | hc
  · rintro (h | h | h | h | h) <;> revert h <;> decide
  · exact h c hc

theorem spaceTail_read {es : List Ent} (h : ∀ x ∈ es, Reloadable x) : ∃ ts : List Str, mapE elemStr es = .ok ts ∧ ts.length = es.length ∧
    (∀ t ∈ spaceTail ts, Undelimited t) ∧ ∃ xs,
      List.Forall₂ (fun t x => realOfString t () = ⟨.ok x, (), []⟩) (spaceTail ts) xs ∧ (∀ x ∈ xs, RealElem x) ∧ List.Forall₂ SameValue es xs := by
  cases es with
  | nil => exact ⟨[], rfl, rfl, by simp [spaceTail], [], .nil, by simp, .nil⟩
  | cons e es =>
    obtain ⟨ts, g1, g2, g3, g4⟩ := elements_text fun x hx => h x (List.mem_cons_of_mem _ hx)
    obtain ⟨t1, k1, k2, k3, k4⟩ := elements_text (es := [e]) fun x hx => h x (by simp at hx; simp [hx])
    obtain ⟨xs, l1, l2, l3⟩ := g4 (' ' :: ·) fun t => Or.inr rfl
    obtain ⟨x1, m1, m2, m3⟩ := k4 id fun t => Or.inl rfl
    match t1, k2 with
    | [t], _ =>
      rw [List.map_id] at m1
      cases m1 with
      | @cons _ x _ _ hx hnil =>
        cases hnil
        cases m3 with
        | cons m3 _ =>
          refine ⟨t :: ts, ?_, by simp [g2], ?_, x :: xs, .cons hx l1, ?_, .cons m3 l3⟩
          · simp only [mapE] at k1 ⊢
            cases he : elemStr e with
            | error r => rw [he] at k1; cases k1
            | ok u =>
              rw [he] at k1
              cases k1
              rw [g1]
          · intro u hu
            rcases List.mem_cons.1 hu with rfl | hu
            · exact (k3 _ (by simp)).2
            · obtain ⟨v, hv, rfl⟩ := List.mem_map.1 hu
              exact undelimited_space (g3 v hv).2
          · intro y hy
            rcases List.mem_cons.1 hy with rfl | hy
            · exact m2 _ (by simp)
            · exact l2 y hy

theorem forall₂_before {l m n : List Ent} (h1 : List.Forall₂ SameNumber l m) (h2 : List.Forall₂ SameValue m n) : List.Forall₂ SameValue l n :=
  forall₂_trans (R := SameNumber) (S := SameValue) (fun _ _ _ g1 g2 => SameValue.of g1 g2) h1 h2

theorem forall₂_after {l m n : List Ent} (h1 : List.Forall₂ SameValue l m) (h2 : List.Forall₂ SameNumber m n) : List.Forall₂ SameValue l n :=
  forall₂_trans (R := SameValue) (S := SameNumber) (fun _ _ _ g1 g2 => SameValue.of' g2 g1) h1 h2

theorem flash_same {e e' : Ent} (h : SameEntry { e with body := e'.body } e') : e'.flashBytes = e.flashBytes := by
  obtain ⟨h1, -, -, h4, h5, -⟩ := h
  show getSlice (e'.version ++ e'.archived) { stop := some ((fromLE e'.metaLen : Int) - 11) } = _
  rw [h1, h4, h5]; rfl

theorem spaceTail_length (ts : List Str) : (spaceTail ts).length = ts.length := by
  cases ts <;> simp [spaceTail]

theorem rows_text {rows : List (List Ent)} (h : ∀ r ∈ rows, ∀ x ∈ r, Reloadable x) : ∃ tss : List (List Str), mapE (mapE elemStr) rows = .ok tss ∧
    tss.map List.length = rows.map List.length ∧ (∀ r ∈ tss, ∀ t ∈ r, squash t = t ∧ Undelimited t) ∧ ∃ xss,
      List.Forall₂ (List.Forall₂ fun t x => realOfString t () = ⟨.ok x, (), []⟩) tss xss ∧ (∀ r ∈ xss, ∀ x ∈ r, RealElem x) ∧
      List.Forall₂ (List.Forall₂ SameValue) rows xss := by
  induction rows with
  | nil => exact ⟨[], rfl, rfl, by simp, [], .nil, by simp, .nil⟩
  | cons r rows ih =>
    obtain ⟨tss, g1, g2, g3, xss, g4, g5, g6⟩ := ih fun x hx => h x (List.mem_cons_of_mem _ hx)
    obtain ⟨ts, k1, k2, k3, k4⟩ := elements_text (h r (by simp))
    obtain ⟨xs, l1, l2, l3⟩ := k4 id fun t => Or.inl rfl
    rw [List.map_id] at l1
    refine ⟨ts :: tss, ?_, by simp [k2, g2], ?_, xs :: xss, .cons l1 g4, ?_, .cons l3 g6⟩
    · rw [mapE, k1, g1]
    · intro u hu
      rcases List.mem_cons.1 hu with rfl | hu
      · exact k3
      · exact g3 u hu
    · intro u hu
      rcases List.mem_cons.1 hu with rfl | hu
      · exact l2
      · exact g5 u hu

theorem squash_join {sep : Str} {ts : List Str} (h : ∀ t ∈ ts, squash t = t) : squash (joinStr sep ts) = joinStr (squash sep) ts := by
  induction ts with
  | nil => rfl
  | cons t ts ih =>
    cases ts with
    | nil => exact h t (by simp)
    | cons u ts =>
      unfold joinStr
      rw [squash_append, squash_append, h t (by simp), ih fun x hx => h x (List.mem_cons_of_mem _ hx)]

/-- The printed matrix without spaces. -/
theorem squash_matrix {tss : List (List Str)} (h : ∀ r ∈ tss, ∀ t ∈ r, squash t = t) :
    squash (['['] ++ joinStr [',', ' '] (tss.map fun r => ['['] ++ joinStr [',', ' '] r ++ [']']) ++ [']']) =
      ['['] ++ joinStr [','] (tss.map fun r => ['['] ++ joinStr [','] r ++ [']']) ++ [']'] := by
  have hrow : ∀ r ∈ tss, squash (['['] ++ joinStr [',', ' '] r ++ [']']) = ['['] ++ joinStr [','] r ++ [']'] := by
    intro r hr
    rw [squash_append, squash_append, squash_join (h r hr)]; rfl
  have hout : ∀ l : List (List Str), (∀ r ∈ l, squash (['['] ++ joinStr [',', ' '] r ++ [']']) = ['['] ++ joinStr [','] r ++ [']']) →
      squash (joinStr [',', ' '] (l.map fun r => ['['] ++ joinStr [',', ' '] r ++ [']'])) =
        joinStr [','] (l.map fun r => ['['] ++ joinStr [','] r ++ [']']) := by
    intro l hl
    induction l with
    | nil => rfl
    | cons r l ih =>
      have ih := ih fun r hr => hl r (List.mem_cons_of_mem _ hr)
      cases l with
      | nil => exact hl r (by simp)
      | cons r' l =>
        simp only [List.map_cons] at ih ⊢
        rw [joinStr, joinStr, squash_append, squash_append, hl r (by simp), ih]
        rfl
  rw [squash_append, squash_append, hout _ hrow]
  rfl

/-! ### Complex numbers -/

theorem complexStr_bytes {e e' : Ent} (h : e.body.bytes = e'.body.bytes) : e.complexStr = e'.complexStr := by
  have hv : ∀ {α : Type} (v : View α), viewGet v e = viewGet v e' := by
    intro α v
    unfold viewGet View.get
    rw [h]
  unfold complexStr getReal getImag realClass imagClass
  simp only [hv]

theorem complex_element {e : Ent} (h : ReloadableComplex e) : ∃ t, elemStr e = .ok t ∧ Undelimited t ∧
    ∀ p : Str, squash p = [] → ∃ x, complexOfString (p ++ t) () = ⟨.ok x, (), []⟩ ∧ ComplexElem x ∧ SameComplex e x := by
  obtain ⟨h1, re, im, c, x, c', x', h2, h3, h4, h5, h6, ⟨a1, a2, a3, a4⟩, ⟨b1, b2, b3, b4⟩, h9⟩ := h
  have hs : ShortNumber re c x := ⟨h3, h5, a1, a2, a3, a4⟩
  have hs' : ShortNumber im c' x' := ⟨h4, h6, b1, b2, b3, b4⟩
  obtain ⟨t, k1, k2, k3, k4, k5, k6, k7⟩ := complex_printed (e := { e with body := ⟨true, re ++ im⟩ }) rfl hs hs' h9
  refine ⟨t, ?_, k7, fun p hp => ?_⟩
  · unfold elemStr
    rw [h1, if_pos (by decide), complexStr_bytes (e' := { e with body := ⟨true, re ++ im⟩ }) h2, k1]
  · obtain ⟨y, l1, l2, l3, re', im', l4, l5, l6⟩ := complex_read _ k3 k4 (p ++ t) (by rw [squash_append, hp, List.nil_append, k2])
    refine ⟨y, l1, l2, l3.trans h1.symm, c, x, c', x', ?_⟩
    have q1 := holds_decimal a3 (realDecimal_bounds h3 a1 a2).1 (l5.to k5)
    have q2 := holds_decimal b3 (realDecimal_bounds h4 b1 b2).1 (l6.to k6)
    have e1 : e.body.bytes.take 9 = re ∧ e.body.bytes.drop 9 = im := by rw [h2, ← h3]; simp
    have e2 : y.body.bytes.take 9 = re' ∧ y.body.bytes.drop 9 = im' := by rw [l4, ← l5.1]; simp
    have hz : ∀ c e : Int, (c : ℚ) * 10 ^ e = ((if c = 0 then ((0 : Int), (-13 : Int)) else (c, e)).1 : ℚ) *
        10 ^ (if c = 0 then ((0 : Int), (-13 : Int)) else (c, e)).2 := by
      intro c e
      by_cases h : c = 0 <;> simp [h]
    rw [e1.1, e1.2, e2.1, e2.2]
    exact ⟨_, _, _, _, a2, b2, q1, q2, hz c x, hz c' x'⟩

theorem tail_read {read : Str → PyM Unit Ent} {El : Ent → Prop} {Same : Ent → Ent → Prop} {es : List Ent}
    (h : ∀ e ∈ es, ∃ t, elemStr e = .ok t ∧ Undelimited t ∧
      ∀ p : Str, squash p = [] → ∃ x, read (p ++ t) () = ⟨.ok x, (), []⟩ ∧ El x ∧ Same e x) :
    ∃ ts : List Str, mapE elemStr es = .ok ts ∧ ts.length = es.length ∧ (∀ t ∈ ts, Undelimited t) ∧
      ∀ f : List Str → List Str, (f = id ∨ f = List.map (' ' :: ·) ∨ f = spaceTail) →
        ∃ xs, List.Forall₂ (fun t x => read t () = ⟨.ok x, (), []⟩) (f ts) xs ∧ (∀ x ∈ xs, El x) ∧ List.Forall₂ Same es xs := by
  induction es with
  | nil =>
    refine ⟨[], rfl, rfl, by simp, fun f hf => ⟨[], ?_, by simp, .nil⟩⟩
    rcases hf with rfl | rfl | rfl <;> exact .nil
  | cons e es ih =>
    obtain ⟨ts, g1, g2, g3, g4⟩ := ih fun x hx => h x (List.mem_cons_of_mem _ hx)
    obtain ⟨t, k1, k2, k3⟩ := h e (by simp)
    refine ⟨t :: ts, by simp only [mapE, k1, g1], by simp [g2], ?_, fun f hf => ?_⟩
    · intro u hu
      rcases List.mem_cons.1 hu with rfl | hu
      · exact k2
      · exact g3 u hu
    · have key : ∀ p f', squash p = [] → (f' = id ∨ f' = List.map (' ' :: ·) ∨ f' = spaceTail) → ∃ xs,
          List.Forall₂ (fun t x => read t () = ⟨.ok x, (), []⟩) ((p ++ t) :: f' ts) xs ∧ (∀ x ∈ xs, El x) ∧ List.Forall₂ Same (e :: es) xs := by
        intro p f' hp hf'
        obtain ⟨x, l1, l2, l3⟩ := k3 p hp
        obtain ⟨xs, m1, m2, m3⟩ := g4 f' hf'
        refine ⟨x :: xs, .cons l1 m1, ?_, .cons l3 m3⟩
        intro y hy
        rcases List.mem_cons.1 hy with rfl | hy
        · exact l2
        · exact m2 y hy
      rcases hf with rfl | rfl | rfl
      · exact key [] id rfl (Or.inl rfl)
      · exact key [' '] _ rfl (Or.inr (Or.inl rfl))
      · exact key [] _ rfl (Or.inr (Or.inl rfl))

theorem ReloadableComplex.of {x y : Ent} (h : SameNumber x y) (hx : ReloadableComplex x) : ReloadableComplex y := by
  unfold ReloadableComplex at hx ⊢
  rw [← h.1, ← h.2]; exact hx

theorem SameComplex.of {x y z : Ent} (h : SameNumber x y) (hx : SameComplex y z) : SameComplex x z := by
  unfold SameComplex at hx ⊢
  rw [h.1, h.2]; exact hx

theorem SameComplex.of' {x y z : Ent} (h : SameNumber y z) (hx : SameComplex x y) : SameComplex x z := by
  unfold SameComplex at hx ⊢
  rw [← h.1, ← h.2]; exact hx

theorem ReloadableComplex.elem {x : Ent} (h : ReloadableComplex x) : ComplexElem x := by
  obtain ⟨h1, re, im, c, e, c', e', h2, h3, h4, h5, h6, -⟩ := h
  refine ⟨by rw [h1]; simp [complexClasses], by rw [h2, List.length_append, h3, h4], ?_, ?_⟩
  · rw [h2, show (re ++ im).getD 0 0 = re.headD 0 by
      match re, h3 with
      | x :: re, _ => rfl, h5]
    simp
  · rw [h1, h2, show (re ++ im).getD 9 0 = im.headD 0 by
      match im, h4 with
      | x :: im, _ => rw [List.getD_eq_getElem?_getD, List.getElem?_append_right (by omega), h3]; rfl, h6]
    rfl

theorem spaceTail_undelimited {ts : List Str} (h : ∀ t ∈ ts, Undelimited t) : ∀ t ∈ spaceTail ts, Undelimited t := by
  cases ts with
  | nil => intro t ht; cases ht
  | cons u ts =>
    intro t ht
    rcases List.mem_cons.1 ht with rfl | ht
    · exact h _ (by simp)
    · obtain ⟨v, hv, rfl⟩ := List.mem_map.1 ht
      exact undelimited_space (h v (List.mem_cons_of_mem _ hv))

end Verif
