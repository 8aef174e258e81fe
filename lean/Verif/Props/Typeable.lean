import Verif.Proofs.TypeableList
import Verif.Props.ArrayReload

/-! Property theorems about the text of numbers, lists and matrices that can be typed on a calculator (C109, C110). -/

namespace Verif
open Spec Ent
variable {V : Type} [LinearOrder V]

/-! ### C109 -/

/-- C109: the text of a real number with the specification `t` is its ordinary text with `~` for the sign of negation, `n/d` for
the bar of fractions and `sqrt(…)` for roots, and has no spaces. -/
theorem C109_text (x : Ent) (h : Reloadable x) : ∃ (n : NumText) (t : Str), n.Valid ∧ n.kind = x.cls ∧ elemStr x = .ok t ∧ n.Writes t ∧
    elemTypeable x = .ok n.calc ∧ squash n.calc = n.calc ∧ ∀ y, y.cls = x.cls → Stored n y → SameValue x y := by
  obtain ⟨n, t, k1, k2, k3, k4, k5, k6, -, k7, -⟩ := typeable_element h
  exact ⟨n, t, k3, k4, k1, k2, k5, k6, k7⟩

/-- C109, the part that holds: numbers without a denominator are read again from this text as numbers of the same kind and
value. Missing: all others, see `C109_refused`. -/
theorem C109_reload_partial (x : Ent) (h : Reloadable x) (hu : Undivided x) :
    ∃ t y, elemTypeable x = .ok t ∧ realOfString t () = ⟨.ok y, (), []⟩ ∧ RealElem y ∧ SameValue x y := by
  obtain ⟨n, t, -, -, -, -, k1, -, -, -, k2, -⟩ := typeable_element h
  obtain ⟨y, hy⟩ := k2 hu
  exact ⟨_, y, k1, hy⟩

/-- C109: the text of a number with a denominator is refused by every kind of real number. -/
theorem C109_refused (x : Ent) (h : Reloadable x) (hu : ¬ Undivided x) :
    ∃ t, elemTypeable x = .ok t ∧ realOfString t () = ⟨.error .valueError, (), []⟩ ∧
      ∀ c ∈ realClasses, ∃ r, (loadRealString c t ⟨true, clearFull c⟩).res = .error r := by
  obtain ⟨n, t, -, -, -, -, k1, -, -, -, -, k2⟩ := typeable_element h
  exact ⟨_, k1, element_refused _ (k2 hu), k2 hu⟩

/-- C109 is false for fractions and for complex numbers with a negative imaginary part: 1/2 is typed `1n/d2` and 1 - 2i is
typed `1~2[i]`, which are refused. -/
theorem C109_reload_false :
    elemTypeable (elem .realFraction [0x18, 0x7F, 0x50, 0, 0, 0, 0, 0, 0]) = .ok "1n/d2".toList ∧
    realOfString "1n/d2".toList () = ⟨.error .valueError, (), []⟩ ∧
    elemTypeable (elem .complex ([0x0C, 0x80, 0x10, 0, 0, 0, 0, 0, 0] ++ [0x8C, 0x80, 0x20, 0, 0, 0, 0, 0, 0])) = .ok "1~2[i]".toList ∧
    complexOfString "1~2[i]".toList () = ⟨.error .valueError, (), []⟩ := by
  refine ⟨by decide +kernel, by decide +kernel, by decide +kernel, by decide +kernel⟩

/-- C109 for complex numbers: the text of a complex number with ordinary parts is its ordinary text with `~` for the signs of
negation and `[i]` for the unit. -/
theorem C109_complex_text (x : Ent) (c e c' e' : Int) (h : OrdinaryComplex x c e c' e') : ∃ (d : ComplexText) (t : Str), d.Valid ∧
    d.reValue = (c : ℚ) * 10 ^ e ∧ d.imValue = (c' : ℚ) * 10 ^ e' ∧ elemStr x = .ok t ∧ squash t = d.render ∧ elemTypeable x = .ok d.calc := by
  obtain ⟨re, im, hp⟩ := h.plain
  obtain ⟨t, k1, k2, k3⟩ := typeable_complex hp
  obtain ⟨-, -, -, -, -, n, a6⟩ := hp.first
  obtain ⟨-, -, -, -, -, n', b6⟩ := hp.second
  obtain ⟨f1, -, -⟩ := printed_forms (c := c) (c' := c') (printLit_spec c e) (printLit_spec c' e')
  obtain ⟨g1, g2⟩ := printed_values (c := c) (c' := c') (printLit_spec c' e') (printLit_value a6) (printLit_value b6)
  exact ⟨_, t, f1, g1, g2, k1, k2, k3⟩

/-- C109 for complex numbers, the part that holds: if the real part is zero or the imaginary part is not negative the text is
read again as a number with the same parts. -/
theorem C109_complex_partial (x : Ent) (c e c' e' : Int) (h : OrdinaryComplex x c e c' e') (hs : c = 0 ∨ 0 ≤ c') :
    ∃ t y, elemTypeable x = .ok t ∧ complexOfString t () = ⟨.ok y, (), []⟩ ∧ ComplexElem y ∧ SameComplex x y := by
  obtain ⟨re, im, hp⟩ := h.plain
  obtain ⟨t, -, -, k⟩ := typeable_complex hp
  obtain ⟨y, hy⟩ := typeable_complex_read hp hs
  exact ⟨_, y, k, hy⟩

/-- C109 for complex numbers: otherwise the text is refused, and an existing number into which it is loaded is left with a real
part of zero. -/
theorem C109_complex_refused (x : Ent) (c e c' e' : Int) (h : OrdinaryComplex x c e c' e') (hc : c ≠ 0) (hc' : c' < 0) :
    ∃ t, elemTypeable x = .ok t ∧ complexOfString t () = ⟨.error .valueError, (), []⟩ ∧
      ∀ (y : Ent) (re im : Bytes), y.body = ⟨true, re ++ im⟩ → re.length = 9 → im.length = 9 → (re.headD 0).toNat % 64 = 0x0C →
        (im.headD 0).toNat % 64 = 0x0C →
        loadComplexString t y = ⟨.error .valueError, { y with body := ⟨true, [0x0C, 0x80, 0, 0, 0, 0, 0, 0, 0] ++ im⟩ }, []⟩ := by
  obtain ⟨re, im, hp⟩ := h.plain
  obtain ⟨t, -, -, k⟩ := typeable_complex hp
  refine ⟨_, k, typeable_complex_refused hc hc', fun y re im h1 h2 h3 h4 h5 => ?_⟩
  obtain ⟨c1, c2⟩ := class_of h1 h2 h3 h4 h5
  exact minus_refused hc hc' h1 h2 h3 c1 c2

example : typeableReal "(-3√5 + 2√7)/4".toList = "(~3sqrt(5)+2sqrt(7))n/d4".toList ∧
    elemTypeable (elem .realRadical [0x1C, 0x20, 0x07, 0x99, 0x90, 0x45, 0x00, 0x20, 0x13]) = .ok "(45sqrt(13)~999sqrt(2))n/d7".toList ∧
    elemTypeable (elem .real [0x80, 0x80, 0x15, 0, 0, 0, 0, 0, 0]) = .ok "~1.5".toList ∧
    (realOfString "~1.5".toList ()).res = .ok (elem .real [0x80, 0x80, 0x15, 0, 0, 0, 0, 0, 0]) := by
  refine ⟨by decide +kernel, by decide +kernel, by decide +kernel, by decide +kernel⟩

/-- A number of each form. -/
example : elemTypeable (elem .complex ([0x8C, 0x80, 0x25, 0, 0, 0, 0, 0, 0] ++ [0x0C, 0x80, 0x10, 0, 0, 0, 0, 0, 0])) = .ok "~2.5+[i]".toList ∧
    ((complexOfString "~2.5+[i]".toList ()).res.map fun x => (x.cls, x.body.bytes)) =
      .ok (.complex, [0x8C, 0x80, 0x25, 0, 0, 0, 0, 0, 0] ++ [0x0C, 0x80, 0x10, 0, 0, 0, 0, 0, 0]) := by
  refine ⟨by decide +kernel, by decide +kernel⟩

/-! ### C110 -/

/-- C110, the part that holds: a list of numbers without denominators is typed between braces, with nothing but commas between
the elements, and the text loads into any real list as numbers of the same kinds with the same values. Missing: as in C97 and
C109. -/
theorem C110_list_partial (env : Env V) (nm : Bytes) (e : Ent) (lst : List Ent) (hc : e.cls = .realList) (hf : e.flashBytes ≠ [])
    (hb : e.body.bytes.drop 2 = lst.flatMap fun x => x.body.bytes) (hne : lst ≠ []) (hn : lst.length < 65536)
    (h : ∀ x ∈ lst, Reloadable x ∧ Undivided x) (e0 : Ent) (hc0 : e0.cls = .realList) (hf0 : e0.flashBytes ≠ [])
    (hm0 : e0.body.mutable = true) (hb0 : 2 ≤ e0.body.bytes.length) :
    ∃ ts e' es, List.Forall₂ (fun x t => elemTypeable x = .ok t) lst ts ∧
      listTypeable env nm e () = ⟨.ok (['{'] ++ List.intercalate [','] ts ++ ['}']), (), []⟩ ∧
      loadListString (['{'] ++ List.intercalate [','] ts ++ ['}']) e0 = ⟨.ok (), e', if 999 < lst.length then [.listLong] else []⟩ ∧
      fromLE (e'.body.bytes.take 2) = lst.length ∧ list env nm e' () = ⟨.ok es, (), []⟩ ∧ List.Forall₂ SameValue lst es := by
  obtain ⟨es, g1, g2⟩ := C50_list_read_partial env nm e lst hf (fun x hx => Or.inl ⟨hc, (h x hx).1.1⟩) hb (Or.inl hc)
  have hes : ∀ x ∈ es, Reloadable x ∧ Undivided x := forall₂_right (P := fun x => Reloadable x ∧ Undivided x)
    (Q := fun x => Reloadable x ∧ Undivided x) (fun a b ha hab => ⟨Reloadable.of hab ha.1, (Undivided.of hab).1 ha.2⟩) h g2
  obtain ⟨ts, k1, k2, k3, k4, -⟩ := typeable_elements fun x hx => (hes x hx).1
  obtain ⟨xs, k4, k5, k6⟩ := k4 fun x hx => (hes x hx).2
  have hlen : ts.length = lst.length := by rw [k2, g2.length_eq]
  have hl : elemOfString e0.cls = realOfString := by
    funext s; unfold elemOfString; rw [hc0]; rfl
  obtain ⟨e', l1, l2, l3, l4, l5⟩ := C95_list_load_partial e0 (Or.inl hc0) hm0 hb0 ts xs (by rw [hl]; exact k4) (fun t ht => (k3 t ht).2)
    (by rw [← List.length_pos_iff, hlen]; exact List.length_pos_iff.2 hne) (hlen ▸ hn) ['{'] ['}'] (by simp [IsBracket]) (by simp [IsBracket])
  obtain ⟨es', m1, m2⟩ := C50_list_read_partial env nm e' xs (by rw [flash_same l2]; exact hf0)
    (fun x hx => Or.inl ⟨l3.trans hc0, k5 x hx⟩) l5 (Or.inl (l3.trans hc0))
  refine ⟨ts, e', es', ?_, ?_, ?_, hlen ▸ l4, m1, ?_⟩
  · exact forall₂_trans (R := SameNumber) (S := fun x t => elemTypeable x = .ok t) (fun _ _ _ h1 h2 => by rw [elemTypeable_same h1]; exact h2) g2
      (mapE_forall₂ k1)
  · unfold listTypeable
    rw [PyM.bind_ok g1, k1, intercalate_join]
    rfl
  · rw [l1, hlen]
  · exact forall₂_after (forall₂_before g2 k6) m2

/-- C110: a list with an element that has a denominator is typed as text that cannot be loaded. -/
theorem C110_list_refused (env : Env V) (nm : Bytes) (e : Ent) (lst : List Ent) (hc : e.cls = .realList) (hf : e.flashBytes ≠ [])
    (hb : e.body.bytes.drop 2 = lst.flatMap fun x => x.body.bytes) (h : ∀ x ∈ lst, Reloadable x) (x : Ent) (hx : x ∈ lst) (hu : ¬ Undivided x)
    (e0 : Ent) (hc0 : e0.cls = .realList) :
    ∃ s, listTypeable env nm e () = ⟨.ok s, (), []⟩ ∧ loadListString s e0 = ⟨.error .valueError, e0, []⟩ := by
  obtain ⟨es, g1, g2⟩ := C50_list_read_partial env nm e lst hf (fun x hx => Or.inl ⟨hc, (h x hx).1⟩) hb (Or.inl hc)
  have hes : ∀ x ∈ es, Reloadable x := forall₂_right (P := Reloadable) (Q := Reloadable) (fun a b ha hab => Reloadable.of hab ha) h g2
  obtain ⟨y, hy, hxy⟩ := forall₂_mem g2 hx
  obtain ⟨ts, k1, k2, k3, -, k4⟩ := typeable_elements hes
  obtain ⟨t, ht, hr⟩ := k4 ⟨y, hy, fun h => hu ((Undivided.of hxy).2 h)⟩
  refine ⟨['{'] ++ joinStr [','] ts ++ ['}'], ?_, ?_⟩
  · unfold listTypeable
    rw [PyM.bind_ok g1, k1]
    rfl
  · rw [← intercalate_join]
    exact C95_list_refused ts (fun t ht => (k3 t ht).2) t ht hr ['{'] ['}'] (by simp [IsBracket]) (by simp [IsBracket]) e0 hc0

/-- C110 for matrices: rows between brackets, with nothing between them. -/
theorem C110_matrix_partial (env : Env V) (nm : Bytes) (e : Ent) (rows : List (List Ent)) (w : Nat) (hc : e.cls = .matrix)
    (hf : e.flashBytes ≠ []) (hw : 1 ≤ w ∧ w ≤ 255) (hh : 1 ≤ rows.length ∧ rows.length ≤ 255) (hr : ∀ r ∈ rows, r.length = w)
    (hsize : (e.body.bytes.take 2).map UInt8.toNat = [w, rows.length])
    (hb : e.body.bytes.drop 2 = rows.flatten.flatMap fun x => x.body.bytes) (h : ∀ r ∈ rows, ∀ x ∈ r, Reloadable x ∧ Undivided x)
    (e0 : Ent) (hc0 : e0.cls = .matrix) (hf0 : e0.flashBytes ≠ []) (hm0 : e0.body.mutable = true) (hb0 : 2 ≤ e0.body.bytes.length) :
    ∃ tss s e' ws es, List.Forall₂ (List.Forall₂ fun x t => elemTypeable x = .ok t) rows tss ∧
      s = ['['] ++ (tss.map fun r => ['['] ++ List.intercalate [','] r ++ [']']).flatten ++ [']'] ∧
      matrixTypeable env nm e () = ⟨.ok s, (), []⟩ ∧ loadMatrixString s e0 = ⟨.ok (), e', ws⟩ ∧ (∀ x ∈ ws, x = .matrixLimit) ∧
      (e'.body.bytes.take 2).map UInt8.toNat = [w, rows.length] ∧ matrix env nm e' () = ⟨.ok es, (), []⟩ ∧
      List.Forall₂ (List.Forall₂ SameValue) rows es := by
  obtain ⟨es, g1, g2⟩ := C52_matrix_read_partial env nm e rows w hc hf hw.1 hr (fun r hr' x hx => (h r hr' x hx).1.1) hsize hb
  have hes : ∀ r ∈ es, ∀ x ∈ r, Reloadable x ∧ Undivided x := forall₂_right (P := fun r => ∀ x ∈ r, Reloadable x ∧ Undivided x)
    (Q := fun r => ∀ x ∈ r, Reloadable x ∧ Undivided x)
    (fun a b ha hab => forall₂_right (R := SameNumber) (P := fun x => Reloadable x ∧ Undivided x) (Q := fun x => Reloadable x ∧ Undivided x)
      (fun _ _ h1 h2 => ⟨Reloadable.of h2 h1.1, (Undivided.of h2).1 h1.2⟩) ha hab) h g2
  obtain ⟨tss, k1, k2, k3, k4, -⟩ := typeable_rows fun r hr' x hx => (hes r hr' x hx).1
  obtain ⟨xss, k4, k5, k6⟩ := k4 fun r hr' x hx => (hes r hr' x hx).2
  have hlens : tss.map List.length = rows.map List.length := k2.trans (forall₂_lengths g2).symm
  have hlen : tss.length = rows.length := by simpa using congrArg List.length hlens
  have hrow : ∀ r ∈ tss, r.length = w := by
    intro r hr'
    have : r.length ∈ rows.map List.length := hlens ▸ List.mem_map_of_mem hr'
    obtain ⟨q, hq, hql⟩ := List.mem_map.1 this
    exact hql.symm.trans (hr q hq)
  have hxlen : xss.length = tss.length := k4.length_eq.symm
  have hxrow : ∀ r ∈ xss, r.length = w := by
    intro r hr'
    have : r.length ∈ tss.map List.length := forall₂_lengths k4 ▸ List.mem_map_of_mem hr'
    obtain ⟨q, hq, hql⟩ := List.mem_map.1 this
    exact hql.symm.trans (hrow q hq)
  have hmap : ∀ l : List (List Str), (l.map fun r => ['['] ++ List.intercalate [','] r ++ [']']) = l.map fun r => ['['] ++ joinStr [','] r ++ [']'] :=
    fun l => List.map_congr_left fun r _ => by rw [intercalate_join]
  obtain ⟨e', ws, l1, l2, l3, l4, l5, l6⟩ := C96_matrix_load_partial tss xss k4 (fun r hr' t ht => (k3 r hr' t ht).2) w hw (hlen ▸ hh) hrow
    [] (Or.inl rfl) (['['] ++ joinStr [] (tss.map fun r => ['['] ++ joinStr [','] r ++ [']']) ++ [']'])
    (by rw [typeable_matrix fun r hr' t ht => (k3 r hr' t ht).1, hmap, intercalate_join]) e0 hc0 hm0 hb0
  obtain ⟨es', m1, m2⟩ := C52_matrix_read_partial env nm e' xss w l4 (by rw [flash_same l3]; exact hf0) hw.1 hxrow k5 (hxlen ▸ l5) l6
  refine ⟨tss, _, e', ws, es', ?_, ?_, ?_, l1, l2, hlen ▸ l5, m1, ?_⟩
  · exact forall₂_trans (R := List.Forall₂ SameNumber) (S := List.Forall₂ fun x t => elemTypeable x = .ok t)
      (fun _ _ _ h1 h2 => forall₂_trans (R := SameNumber) (S := fun x t => elemTypeable x = .ok t)
        (fun _ _ _ h1 h2 => by rw [elemTypeable_same h1]; exact h2) h1 h2) g2
      ((mapE_forall₂ k1).imp fun _ _ h => mapE_forall₂ h)
  · rw [hmap, join_flatten]
  · unfold matrixTypeable
    rw [PyM.bind_ok g1, k1]
    rfl
  · refine forall₂_trans (S := List.Forall₂ SameNumber) (R := List.Forall₂ SameValue) (fun _ _ _ h1 h2 => forall₂_after h1 h2) ?_ m2
    exact forall₂_trans (R := List.Forall₂ SameNumber) (S := List.Forall₂ SameValue) (fun _ _ _ h1 h2 => forall₂_before h1 h2) g2 k6

/-- C110: a matrix with an element that has a denominator is typed as text that cannot be loaded. -/
theorem C110_matrix_refused (env : Env V) (nm : Bytes) (e : Ent) (rows : List (List Ent)) (w : Nat) (hc : e.cls = .matrix)
    (hf : e.flashBytes ≠ []) (hw : 1 ≤ w) (hr : ∀ r ∈ rows, r.length = w)
    (hsize : (e.body.bytes.take 2).map UInt8.toNat = [w, rows.length])
    (hb : e.body.bytes.drop 2 = rows.flatten.flatMap fun x => x.body.bytes) (h : ∀ r ∈ rows, ∀ x ∈ r, Reloadable x)
    (r : List Ent) (hmem : r ∈ rows) (x : Ent) (hx : x ∈ r) (hu : ¬ Undivided x) (e0 : Ent) :
    ∃ s, matrixTypeable env nm e () = ⟨.ok s, (), []⟩ ∧ loadMatrixString s e0 = ⟨.error .valueError, e0, []⟩ := by
  obtain ⟨es, g1, g2⟩ := C52_matrix_read_partial env nm e rows w hc hf hw hr (fun r hr' x hx => (h r hr' x hx).1) hsize hb
  have hes : ∀ r ∈ es, ∀ x ∈ r, Reloadable x := forall₂_right (P := fun r => ∀ x ∈ r, Reloadable x) (Q := fun r => ∀ x ∈ r, Reloadable x)
    (fun a b ha hab => forall₂_right (R := SameNumber) (P := Reloadable) (Q := Reloadable) (fun _ _ h1 h2 => Reloadable.of h2 h1) ha hab) h g2
  obtain ⟨q, hq, hrq⟩ := forall₂_mem g2 hmem
  obtain ⟨y, hy, hxy⟩ := forall₂_mem hrq hx
  obtain ⟨tss, k1, k2, k3, -, k4⟩ := typeable_rows hes
  obtain ⟨u, hu', t, ht, hr'⟩ := k4 ⟨q, hq, y, hy, fun h => hu ((Undivided.of hxy).2 h)⟩
  have hlens : tss.map List.length = rows.map List.length := k2.trans (forall₂_lengths g2).symm
  have hmap : ∀ l : List (List Str), (l.map fun r => ['['] ++ List.intercalate [','] r ++ [']']) = l.map fun r => ['['] ++ joinStr [','] r ++ [']'] :=
    fun l => List.map_congr_left fun r _ => by rw [intercalate_join]
  refine ⟨['['] ++ joinStr [] (tss.map fun r => ['['] ++ joinStr [','] r ++ [']']) ++ [']'], ?_, ?_⟩
  · unfold matrixTypeable
    rw [PyM.bind_ok g1, k1]
    rfl
  · refine C96_refused tss (fun r hr' t ht => (k3 r hr' t ht).2) ?_ u hu' t ht hr' [] (Or.inl rfl) _
      (by rw [typeable_matrix fun r hr' t ht => (k3 r hr' t ht).1, hmap, intercalate_join]) e0
    intro r hr' h0
    have : r.length ∈ rows.map List.length := hlens ▸ List.mem_map_of_mem hr'
    obtain ⟨q, hq, hql⟩ := List.mem_map.1 this
    rw [h0, hr q hq] at hql
    simp at hql
    omega

/-- C110 for complex lists, the part that holds: if every element has a real part of zero or an imaginary part that is not
negative, and the last one has no imaginary part, the text loads again. Missing: all other lists, see `C110_complex_refused`. -/
theorem C110_complex_partial (env : Env V) (nm : Bytes) (e : Ent) (init : List Ent) (z : Ent) (hc : e.cls = .complexList) (hf : e.flashBytes ≠ [])
    (hb : e.body.bytes.drop 2 = (init ++ [z]).flatMap fun x => x.body.bytes) (hn : (init ++ [z]).length < 65536)
    (h : ∀ x ∈ init ++ [z], ∃ c e c' e', OrdinaryComplex x c e c' e' ∧ (c = 0 ∨ 0 ≤ c')) (hz : ∃ c e e', OrdinaryComplex z c e 0 e')
    (e0 : Ent) (hc0 : e0.cls = .complexList) (hf0 : e0.flashBytes ≠ []) (hm0 : e0.body.mutable = true) (hb0 : 2 ≤ e0.body.bytes.length) :
    ∃ ts e' es, List.Forall₂ (fun x t => elemTypeable x = .ok t) (init ++ [z]) ts ∧
      listTypeable env nm e () = ⟨.ok (['{'] ++ List.intercalate [','] ts ++ ['}']), (), []⟩ ∧
      loadListString (['{'] ++ List.intercalate [','] ts ++ ['}']) e0 =
        ⟨.ok (), e', if 999 < (init ++ [z]).length then [.listLong] else []⟩ ∧
      fromLE (e'.body.bytes.take 2) = (init ++ [z]).length ∧ list env nm e' () = ⟨.ok es, (), []⟩ ∧
      List.Forall₂ SameComplex (init ++ [z]) es := by
  have hel : ∀ x ∈ init ++ [z], ComplexElem x := fun x hx => by
    obtain ⟨_, _, _, _, h1, -⟩ := h x hx
    exact h1.elem
  obtain ⟨es, g1, g2⟩ := C50_list_read_partial env nm e (init ++ [z]) hf (fun x hx => Or.inr ⟨hc, hel x hx⟩) hb (Or.inr hc)
  have hes : ∀ x ∈ es, ∃ c e c' e', OrdinaryComplex x c e c' e' := forall₂_right (P := fun x => ∃ c e c' e', OrdinaryComplex x c e c' e')
    (Q := fun x => ∃ c e c' e', OrdinaryComplex x c e c' e') (fun a b ⟨c, e, c', e', ha⟩ hab => ⟨c, e, c', e', ha.of hab⟩)
    (fun x hx => by obtain ⟨c, e, c', e', h1, -⟩ := h x hx; exact ⟨c, e, c', e', h1⟩) g2
  obtain ⟨ts, k1, k2⟩ := typed_all hes
  have k3 := typed_same g2 k2
  obtain ⟨k4, xs, k5, k6, k7⟩ := complex_list_read k3 h hz
  have hlen : xs.length = (init ++ [z]).length := k7.length_eq.symm
  obtain ⟨e', l1, l2, l3, -, -, l4, l5⟩ := (C50_list_store e0 xs (Or.inr hc0) hm0 hb0).1 (hlen ▸ hn)
  obtain ⟨es', m1, m2⟩ := C50_list_read_partial env nm e' xs (by rw [flash_same l2]; exact hf0)
    (fun x hx => Or.inr ⟨l3.trans hc0, k6 x hx⟩) l5 (Or.inr (l3.trans hc0))
  have hl : elemOfString e0.cls = complexOfString := by
    funext s; unfold elemOfString; rw [hc0]; rfl
  refine ⟨ts, e', es', ?_, ?_, ?_, hlen ▸ l4, m1, ?_⟩
  · exact forall₂_trans (R := SameNumber) (S := fun x t => elemTypeable x = .ok t) (fun _ _ _ h1 h2 => by rw [elemTypeable_same h1]; exact h2) g2
      (mapE_forall₂ k1)
  · unfold listTypeable
    rw [PyM.bind_ok g1, k1, intercalate_join]
    rfl
  · unfold loadListString
    rw [PyM.bind_ok (PyM.get_run e0), intercalate_join, k4, hl, PyM.bind_ok (outside_ok (mapW_ok k5) e0), l1, hlen]
    rfl
  · exact forall₂_trans (R := SameComplex) (S := SameNumber) (fun _ _ _ h1 h2 => SameComplex.of' h2 h1) k7 m2

/-- C110 for complex lists: if the last element has an imaginary part, or an element has a nonzero real part and a negative
imaginary part, the text cannot be loaded. -/
theorem C110_complex_refused (env : Env V) (nm : Bytes) (e : Ent) (init : List Ent) (z : Ent) (hc : e.cls = .complexList) (hf : e.flashBytes ≠ [])
    (hb : e.body.bytes.drop 2 = (init ++ [z]).flatMap fun x => x.body.bytes)
    (h : ∀ x ∈ init ++ [z], ∃ c e c' e', OrdinaryComplex x c e c' e')
    (hx : (∃ c e c' e', OrdinaryComplex z c e c' e' ∧ c' ≠ 0) ∨ ∃ x ∈ init ++ [z], ∃ c e c' e', OrdinaryComplex x c e c' e' ∧ c ≠ 0 ∧ c' < 0)
    (e0 : Ent) (hc0 : e0.cls = .complexList) :
    ∃ s, listTypeable env nm e () = ⟨.ok s, (), []⟩ ∧ loadListString s e0 = ⟨.error .valueError, e0, []⟩ := by
  have hel : ∀ x ∈ init ++ [z], ComplexElem x := fun x hx => by
    obtain ⟨_, _, _, _, h1⟩ := h x hx
    exact h1.elem
  obtain ⟨es, g1, g2⟩ := C50_list_read_partial env nm e (init ++ [z]) hf (fun x hx => Or.inr ⟨hc, hel x hx⟩) hb (Or.inr hc)
  have hes : ∀ x ∈ es, ∃ c e c' e', OrdinaryComplex x c e c' e' := forall₂_right (P := fun x => ∃ c e c' e', OrdinaryComplex x c e c' e')
    (Q := fun x => ∃ c e c' e', OrdinaryComplex x c e c' e') (fun a b ⟨c, e, c', e', ha⟩ hab => ⟨c, e, c', e', ha.of hab⟩) h g2
  obtain ⟨ts, k1, k2⟩ := typed_all hes
  have hl : elemOfString e0.cls = complexOfString := by
    funext s; unfold elemOfString; rw [hc0]; rfl
  refine ⟨['{'] ++ joinStr [','] ts ++ ['}'], ?_, ?_⟩
  · unfold listTypeable
    rw [PyM.bind_ok g1, k1]
    rfl
  · unfold loadListString
    rw [PyM.bind_ok (PyM.get_run e0), hl, PyM.bind_error (outside_error (complex_list_refused (typed_same g2 k2) hx) e0)]
    rfl

/-- C110 is false: a list with the fraction 1/2, and the list of the one complex number i. -/
theorem C110_reload_false :
    listTypeable sampleEnv [] (sampleArray .realList ([2, 0] ++ [0, 0x80, 0x10, 0, 0, 0, 0, 0, 0] ++ [0x18, 0x7F, 0x50, 0, 0, 0, 0, 0, 0])) () =
      ⟨.ok "{1,1n/d2}".toList, (), []⟩ ∧
    (loadListString "{1,1n/d2}".toList (sampleArray .realList [0, 0])).res = .error .valueError ∧
    listTypeable sampleEnv [] (sampleArray .complexList ([1, 0] ++ [0x0C, 0x80, 0x20, 0, 0, 0, 0, 0, 0] ++ [0x0C, 0x80, 0x10, 0, 0, 0, 0, 0, 0])) () =
      ⟨.ok "{2+[i]}".toList, (), []⟩ ∧
    (loadListString "{2+[i]}".toList (sampleArray .complexList [0, 0])).res = .error .valueError := by
  refine ⟨by decide +kernel, by decide +kernel, by decide +kernel, by decide +kernel⟩

example : matrixTypeable sampleEnv [] (sampleArray .matrix ([2, 2] ++ [0x80, 0x80, 0x15, 0, 0, 0, 0, 0, 0] ++
      [0x00, 0x80, 0x30, 0, 0, 0, 0, 0, 0] ++ [0x20, 0x7F, 0x50, 0, 0, 0, 0, 0, 0] ++ [0x1C, 0x00, 0x01, 0x00, 0x00, 0x03, 0x00, 0x10, 0x05])) () =
    ⟨.ok "[[~1.5,3][0.5π,3sqrt(5)]]".toList, (), []⟩ ∧
    (loadMatrixString "[[~1.5,3][0.5π,3sqrt(5)]]".toList (sampleArray .matrix [0, 0])).st.body.bytes =
      ([2, 2] ++ [0x80, 0x80, 0x15, 0, 0, 0, 0, 0, 0] ++
      [0x00, 0x80, 0x30, 0, 0, 0, 0, 0, 0] ++ [0x20, 0x7F, 0x50, 0, 0, 0, 0, 0, 0] ++ [0x1C, 0x00, 0x01, 0x00, 0x00, 0x03, 0x00, 0x10, 0x05]) := by
  refine ⟨by decide +kernel, by decide +kernel⟩

/-- A list of complex numbers that loads: the last one is real. -/
example : listTypeable sampleEnv [] (sampleArray .complexList ([2, 0] ++ ([0x8C, 0x80, 0x25, 0, 0, 0, 0, 0, 0] ++ [0x0C, 0x80, 0x10, 0, 0, 0, 0, 0, 0]) ++
      ([0x8C, 0x80, 0x10, 0, 0, 0, 0, 0, 0] ++ [0x0C, 0x80, 0x00, 0, 0, 0, 0, 0, 0]))) () = ⟨.ok "{~2.5+[i],~1}".toList, (), []⟩ ∧
    (loadListString "{~2.5+[i],~1}".toList (sampleArray .complexList [0, 0])).st.body.bytes =
      [2, 0] ++ ([0x8C, 0x80, 0x25, 0, 0, 0, 0, 0, 0] ++ [0x0C, 0x80, 0x10, 0, 0, 0, 0, 0, 0]) ++
      ([0x8C, 0x80, 0x10, 0, 0, 0, 0, 0, 0] ++ [0x0C, 0x80, 0x00, 0, 0, 0, 0, 0, 0]) := by
  refine ⟨by decide +kernel, by decide +kernel⟩

end Verif
