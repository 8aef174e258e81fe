import Verif.Proofs.TypeableComplex

/-! Lemmas about the text of lists and matrices that can be typed on a calculator. -/

namespace Verif
open Spec Ent

theorem of_mem_sqrtSubGo {a : Char} : ∀ (n : Nat) (s : Str), a ∈ sqrtSubGo n s → a ∈ s ∨ a ∈ ['s', 'q', 'r', 't', '(', ')']
  | 0, _, h => Or.inl h
  | _ + 1, [], h => Or.inl h
  | n + 1, c :: s, h => by
    rw [sqrtSubGo] at h
    split at h
    · simp only [List.mem_append, List.mem_cons, List.not_mem_nil, or_false] at h
      rcases h with ((h | h) | h) | h
      · right; simp only [List.mem_cons]; rcases h with h | h | h | h | h <;> simp [h]
      · exact Or.inl (List.mem_cons_of_mem _ ((List.takeWhile_sublist _).subset h))
      · right; simp [h]
      · rcases of_mem_sqrtSubGo n _ h with h | h
        · exact Or.inl (List.mem_cons_of_mem _ ((List.dropWhile_sublist _).subset h))
        · exact Or.inr h
    · rcases List.mem_cons.1 h with h | h
      · exact Or.inl (by simp [h])
      · rcases of_mem_sqrtSubGo n _ h with h | h
        · exact Or.inl (List.mem_cons_of_mem _ h)
        · exact Or.inr h

theorem typeable_undelimited {t : Str} (h : Undelimited t) : Undelimited (typeableReal t) := by
  intro a ha
  unfold typeableReal squash at ha
  have ha := List.mem_of_mem_filter ha
  rcases of_mem_sqrtSubGo _ _ ha with ha | ha
  · rcases of_mem_replaceStr ha with ha | ha
    · rcases of_mem_replaceStr ha with ha | ha
      · exact h a ha
      · rw [List.mem_singleton] at ha; subst ha; unfold IsDelimiter; decide
    · simp only [List.mem_cons, List.not_mem_nil, or_false] at ha
      rcases ha with rfl | rfl | rfl <;> (unfold IsDelimiter; decide)
  · simp only [List.mem_cons, List.not_mem_nil, or_false] at ha
    rcases ha with rfl | rfl | rfl | rfl | rfl | rfl <;> (unfold IsDelimiter; decide)

theorem typeable_squash (t : Str) : squash (typeableReal t) = typeableReal t := by
  unfold typeableReal squash
  simp

/-- What an element is typed as, and whether the text loads. -/
theorem typeable_element {x : Ent} (h : Reloadable x) : ∃ (n : NumText) (t : Str), elemStr x = .ok t ∧ n.Writes t ∧ n.Valid ∧ n.kind = x.cls ∧
    elemTypeable x = .ok n.calc ∧ squash n.calc = n.calc ∧ Undelimited n.calc ∧ (∀ y, y.cls = x.cls → Stored n y → SameValue x y) ∧
    (Undivided x → ∃ y, realOfString n.calc () = ⟨.ok y, (), []⟩ ∧ RealElem y ∧ SameValue x y) ∧
    (¬ Undivided x → ∀ c ∈ realClasses, ∃ r, (loadRealString c n.calc ⟨true, clearFull c⟩).res = .error r) := by
  obtain ⟨n, t, k1, k2, k3, k4, k5, k6, ⟨k7, k8⟩, k9⟩ := element_printed h
  have hw : n.Writes t := k5 [] rfl
  have hcalc := typeable_calc k3 k7 hw k2
  have hsub : ∀ c ∈ realClasses, c.isSub .complexE = false := by decide
  refine ⟨n, t, k1, hw, k3, k6, ?_, ?_, ?_, k9, fun hu => ?_, fun hu => ?_⟩
  · unfold elemTypeable
    rw [k1, hsub _ h.1.1]
    simp [hcalc]
  · rw [← hcalc]; exact typeable_squash t
  · rw [← hcalc]; exact typeable_undelimited (undelimited k3 hw)
  · obtain ⟨f1, f2, f3, f4, f5⟩ := til_fits k3 k4 k7 (k8.1 hu)
    obtain ⟨y, m1, m2, m3, m4⟩ := element_read _ f1 f2 n.calc (f3 [] rfl)
    exact ⟨y, m1, m2, k9 y (m3.trans (f4.trans k6)) (f5 y m4)⟩
  · obtain ⟨c1, c2, c3⟩ := calc_letters k3 k7 (fun hn => hu (k8.2 hn))
    exact letter_refused c1 c2 c3

theorem typeable_elements {es : List Ent} (h : ∀ x ∈ es, Reloadable x) : ∃ ts : List Str, mapE elemTypeable es = .ok ts ∧ ts.length = es.length ∧
    (∀ t ∈ ts, squash t = t ∧ Undelimited t) ∧
    ((∀ x ∈ es, Undivided x) → ∃ xs, List.Forall₂ (fun t x => realOfString t () = ⟨.ok x, (), []⟩) ts xs ∧ (∀ x ∈ xs, RealElem x) ∧
      List.Forall₂ SameValue es xs) ∧
    ((∃ x ∈ es, ¬ Undivided x) → ∃ t ∈ ts, ∀ c ∈ realClasses, ∃ r, (loadRealString c t ⟨true, clearFull c⟩).res = .error r) := by
  induction es with
  | nil => exact ⟨[], rfl, rfl, by simp, fun _ => ⟨[], .nil, by simp, .nil⟩, by simp⟩
  | cons e es ih =>
    obtain ⟨ts, g1, g2, g3, g4, g5⟩ := ih fun x hx => h x (List.mem_cons_of_mem _ hx)
    obtain ⟨n, t, -, -, -, -, k1, k2, k3, -, k4, k5⟩ := typeable_element (h e (by simp))
    refine ⟨n.calc :: ts, by simp only [mapE, k1, g1], by simp [g2], ?_, fun hu => ?_, ?_⟩
    · intro u hu
      rcases List.mem_cons.1 hu with rfl | hu
      · exact ⟨k2, k3⟩
      · exact g3 u hu
    · obtain ⟨xs, l1, l2, l3⟩ := g4 fun x hx => hu x (List.mem_cons_of_mem _ hx)
      obtain ⟨y, m1, m2, m3⟩ := k4 (hu e (by simp))
      refine ⟨y :: xs, .cons m1 l1, ?_, .cons m3 l3⟩
      intro x hx
      rcases List.mem_cons.1 hx with rfl | hx
      · exact m2
      · exact l2 x hx
    · rintro ⟨x, hx, hu⟩
      rcases List.mem_cons.1 hx with rfl | hx
      · exact ⟨_, by simp, k5 hu⟩
      · obtain ⟨t, ht, hr⟩ := g5 ⟨x, hx, hu⟩
        exact ⟨t, List.mem_cons_of_mem _ ht, hr⟩

theorem typeable_rows {rows : List (List Ent)} (h : ∀ r ∈ rows, ∀ x ∈ r, Reloadable x) : ∃ tss : List (List Str),
    mapE (mapE elemTypeable) rows = .ok tss ∧ tss.map List.length = rows.map List.length ∧ (∀ r ∈ tss, ∀ t ∈ r, squash t = t ∧ Undelimited t) ∧
    ((∀ r ∈ rows, ∀ x ∈ r, Undivided x) → ∃ xss, List.Forall₂ (List.Forall₂ fun t x => realOfString t () = ⟨.ok x, (), []⟩) tss xss ∧
      (∀ r ∈ xss, ∀ x ∈ r, RealElem x) ∧ List.Forall₂ (List.Forall₂ SameValue) rows xss) ∧
    ((∃ r ∈ rows, ∃ x ∈ r, ¬ Undivided x) → ∃ r ∈ tss, ∃ t ∈ r, ∀ c ∈ realClasses, ∃ x, (loadRealString c t ⟨true, clearFull c⟩).res = .error x) := by
  induction rows with
  | nil => exact ⟨[], rfl, rfl, by simp, fun _ => ⟨[], .nil, by simp, .nil⟩, by simp⟩
  | cons r rows ih =>
    obtain ⟨tss, g1, g2, g3, g4, g5⟩ := ih fun x hx => h x (List.mem_cons_of_mem _ hx)
    obtain ⟨ts, k1, k2, k3, k4, k5⟩ := typeable_elements (h r (by simp))
    refine ⟨ts :: tss, by rw [mapE, k1, g1], by simp [k2, g2], ?_, fun hu => ?_, ?_⟩
    · intro u hu
      rcases List.mem_cons.1 hu with rfl | hu
      · exact k3
      · exact g3 u hu
    · obtain ⟨xss, l1, l2, l3⟩ := g4 fun x hx => hu x (List.mem_cons_of_mem _ hx)
      obtain ⟨xs, m1, m2, m3⟩ := k4 (hu r (by simp))
      refine ⟨xs :: xss, .cons m1 l1, ?_, .cons m3 l3⟩
      intro x hx
      rcases List.mem_cons.1 hx with rfl | hx
      · exact m2
      · exact l2 x hx
    · rintro ⟨q, hq, hu⟩
      rcases List.mem_cons.1 hq with rfl | hq
      · obtain ⟨t, ht⟩ := k5 hu
        exact ⟨ts, by simp, t, ht⟩
      · obtain ⟨q, hq, hr⟩ := g5 ⟨q, hq, hu⟩
        exact ⟨q, List.mem_cons_of_mem _ hq, hr⟩

/-- The text of a matrix has no spaces. -/
theorem typeable_matrix {tss : List (List Str)} (h : ∀ r ∈ tss, ∀ t ∈ r, squash t = t) :
    squash (['['] ++ joinStr [] (tss.map fun r => ['['] ++ joinStr [','] r ++ [']']) ++ [']']) =
      ['['] ++ joinStr [] (tss.map fun r => ['['] ++ joinStr [','] r ++ [']']) ++ [']'] := by
  have hrow : ∀ t ∈ tss.map (fun r => ['['] ++ joinStr [','] r ++ [']']), squash t = t := by
    intro t ht
    obtain ⟨r, hr, rfl⟩ := List.mem_map.1 ht
    rw [squash_append, squash_append, squash_join (h r hr)]; rfl
  rw [squash_append, squash_append, squash_join hrow]
  rfl

/-- Whether a number is written with a denominator depends on its bytes only. -/
theorem Undivided.of {x y : Ent} (h : SameNumber x y) : Undivided x ↔ Undivided y := by
  obtain ⟨h1, h2⟩ := h
  unfold Undivided
  rw [h1, h2]

/-! ### Complex numbers -/

/-- A complex number with ordinary parts that print in full. -/
structure PlainComplex (x : Ent) (re im : Bytes) (c e c' e' : Int) : Prop where
  cls : x.cls = .complex
  bytes : x.body.bytes = re ++ im
  first : ShortNumber re c e
  second : ShortNumber im c' e'

theorem typeable_complex {x : Ent} {re im : Bytes} {c e c' e' : Int} (h : PlainComplex x re im c e c' e') :
    ∃ t, elemStr x = .ok t ∧ squash t = (printed c c' (printLit c e) (printLit c' e')).render ∧
      elemTypeable x = .ok (printed c c' (printLit c e) (printLit c' e')).calc := by
  obtain ⟨t, k1, k2⟩ := complex_squash (e := { x with body := ⟨true, re ++ im⟩ }) rfl h.first h.second
  have hstr : elemStr x = .ok t := by
    unfold elemStr
    rw [h.cls, if_pos (by decide), complexStr_bytes (e' := { x with body := ⟨true, re ++ im⟩ }) h.bytes, k1]
  refine ⟨t, hstr, k2, ?_⟩
  unfold elemTypeable
  obtain ⟨f1, f2, f3⟩ := printed_forms (c := c) (c' := c') (printLit_spec c e) (printLit_spec c' e')
  rw [hstr, h.cls]
  show Except.ok (if Cls.isSub .complex .complexE = true then _ else _) = _
  rw [if_pos (by decide), typeable_keysC, k2, keysC_text f1 f2 f3]

theorem typeable_complex_read {x : Ent} {re im : Bytes} {c e c' e' : Int} (h : PlainComplex x re im c e c' e') (hs : c = 0 ∨ 0 ≤ c') :
    ∃ y, complexOfString (printed c c' (printLit c e) (printLit c' e')).calc () = ⟨.ok y, (), []⟩ ∧ ComplexElem y ∧ SameComplex x y := by
  obtain ⟨h3, h5, a1, a2, a3, a4⟩ := id h.first
  obtain ⟨h4, h6, b1, b2, b3, b4⟩ := id h.second
  have hne : c = 0 ∨ (c' : ℚ) * 10 ^ e' ≠ -1 := by
    refine hs.imp id fun h => ?_
    have : (0 : ℚ) ≤ (c' : ℚ) * 10 ^ e' := mul_nonneg (by exact_mod_cast h) (zpow_nonneg (by norm_num) _)
    linarith
  obtain ⟨t, -, k2, k3, k4, k5, k6, -⟩ := complex_printed (e := { x with body := ⟨true, re ++ im⟩ }) rfl h.first h.second hne
  obtain ⟨f1, f2, f3⟩ := printed_forms (c := c) (c' := c') (printLit_spec c e) (printLit_spec c' e')
  have hm : NoMinus (printed c c' (printLit c e) (printLit c' e')) := by
    unfold printed
    split
    · trivial
    · next h0' =>
      split
      · trivial
      · next h0 =>
        have : (printLit c' e').sign.isNeg = false := by
          rw [printLit_neg h0']
          simpa using hs.resolve_left h0
        rw [this]
        split
        · rfl
        · rfl
  obtain ⟨g1, g2, g3, g4, g5⟩ := tilComplex_spec f1 f2 k4 hm
  have hsq : squash (printed c c' (printLit c e) (printLit c' e')).calc = (tilComplex (printed c c' (printLit c e) (printLit c' e'))).render := by
    rw [g3, ← keysC_text f1 f2 f3, squash_keysC, ← k2]
    unfold squash
    simp
  obtain ⟨y, l1, l2, l3, re', im', l4, l5, l6⟩ := complex_read _ g1 g2 _ hsq
  refine ⟨y, l1, l2, l3.trans h.cls.symm, c, e, c', e', ?_⟩
  have q1 := holds_decimal a3 (realDecimal_bounds h3 a1 a2).1 (l5.to (g4.trans k5))
  have q2 := holds_decimal b3 (realDecimal_bounds h4 b1 b2).1 (l6.to (g5.trans k6))
  have e1 : x.body.bytes.take 9 = re ∧ x.body.bytes.drop 9 = im := by rw [h.bytes, ← h3]; simp
  have e2 : y.body.bytes.take 9 = re' ∧ y.body.bytes.drop 9 = im' := by rw [l4, ← l5.1]; simp
  have hz : ∀ c e : Int, (c : ℚ) * 10 ^ e = ((if c = 0 then ((0 : Int), (-13 : Int)) else (c, e)).1 : ℚ) *
      10 ^ (if c = 0 then ((0 : Int), (-13 : Int)) else (c, e)).2 := by
    intro c e
    by_cases h : c = 0 <;> simp [h]
  rw [e1.1, e1.2, e2.1, e2.2]
  exact ⟨_, _, _, _, a2, b2, q1, q2, hz c e, hz c' e'⟩

theorem typeable_complex_refused {c e c' e' : Int} (hc : c ≠ 0) (hc' : c' < 0) :
    complexOfString (printed c c' (printLit c e) (printLit c' e')).calc () = ⟨.error .valueError, (), []⟩ := by
  generalize hs : (printed c c' (printLit c e) (printLit c' e')).calc = s
  unfold complexOfString
  show (match loadComplexString s (elem .complexE (clearFull .complexE)) with
      | ⟨.error x, _, w⟩ => (⟨.error x, (), w⟩ : Out Unit Ent)
      | ⟨.ok (), e, w⟩ => ⟨.ok e, (), w⟩) = _
  rw [← hs, minus_refused hc hc' (e := elem .complexE (clearFull .complexE)) (re := (clearFull .complexE).take 9) (im := (clearFull .complexE).drop 9)
    (by rw [List.take_append_drop]; rfl) (by decide) (by decide) (by decide) (by decide)]

end Verif
