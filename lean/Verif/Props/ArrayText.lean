import Verif.Proofs.ArrayElems
import Verif.Props.Array
import Verif.Props.ComplexText

/-! Property theorems about lists and matrices as text (C94–C96). -/

namespace Verif
open Spec Ent
variable {V : Type} [LinearOrder V]

/-! ### C94 -/

/-- C94, the part that holds: the text of a number determines the class it is loaded as: decimals become ordinary numbers,
ratios fractions, sums of roots radicals, and multiples of π those. The number is well-formed and holds the value.
Missing: the texts excluded by `NumText.Fits`, see `C94_forms_false`. -/
theorem C94_element_partial (n : NumText) (hv : n.Valid) (hf : n.Fits) (s : Str) (hw : n.Writes s) :
    ∃ x, realOfString s () = ⟨.ok x, (), []⟩ ∧ RealElem x ∧ x.cls = n.kind ∧ Stored n x :=
  element_read n hv hf s hw

/-- A text that no class reads is refused with `ValueError`. -/
theorem C94_refused (s : Str) (h : ∀ c ∈ realClasses, ∃ x, (loadRealString c s ⟨true, clearFull c⟩).res = .error x) :
    realOfString s () = ⟨.error .valueError, (), []⟩ :=
  element_refused s h

/-- One text of each form. -/
example : ((mapW realOfString ["-1.5".toList, " 2 / 3".toList, "sqrt(2)+1".toList, "-2.5*pi".toList, "3π/4".toList]) ()).res.toOption.map
      (fun l => l.map fun x => (x.cls, x.body.bytes)) =
    some [(.real, [0x80, 0x80, 0x15, 0, 0, 0, 0, 0, 0]), (.realFraction, [0x18, 0x7F, 0x66, 0x66, 0x66, 0x66, 0x66, 0x66, 0x67]),
      (.realRadical, [0x1C, 0x00, 0x01, 0x00, 0x10, 0x01, 0x00, 0x10, 0x02]), (.realPi, [0xA0, 0x80, 0x25, 0, 0, 0, 0, 0, 0]),
      (.realPiFraction, [0x21, 0x7F, 0x75, 0, 0, 0, 0, 0, 0])] := by
  decide +kernel

example : (NumText.ratio .none ['2'] ['3']).Valid ∧ (NumText.ratio .none ['2'] ['3']).Writes " 2 / 3".toList ∧
    (NumText.multiple (intLit .minus ['2']) true true).Writes "-2*pi".toList := by
  refine ⟨⟨(digits_iff _).1 (by decide), by simp, (digits_iff _).1 (by decide), by decide⟩, ?_, ['-', '2'], ?_, ?_⟩
  · show squash _ = _; decide
  · decide
  · decide

/-- No class reads an unknown letter, a division by zero, `π` as a word in a ratio, a missing factor. -/
example : (["x".toList, "1/0".toList, "3pi/4".toList, "π/2".toList, "1e200".toList, "5-".toList].map fun s => (realOfString s ()).res.toOption.isNone) =
    [true, true, true, true, true, true] := by decide +kernel

/-- C94 is false: `2*3` loads as the radical 23 and `~1/2` as a radical; `π` loads as zero times π; three quarters of π are
refused when π is written as a word, although `2pi` is not. -/
theorem C94_forms_false : ∃ b1 b2 b3 b4 : Bytes,
    realOfString "2*3".toList () = ⟨.ok (elem .realRadical b1), (), []⟩ ∧ radFields ⟨true, b1⟩ = .ok (1, 23, 1, 0, 0) ∧
    realOfString "~1/2".toList () = ⟨.ok (elem .realRadical b2), (), []⟩ ∧ radFields ⟨true, b2⟩ = .ok (2, -1, 1, 0, 0) ∧
    realOfString "π".toList () = ⟨.ok (elem .realPi b3), (), []⟩ ∧ realDecimal ⟨true, b3⟩ = .ok (0, -13) ∧
    realOfString "3pi/4".toList () = ⟨.error .valueError, (), []⟩ ∧
    realOfString "2pi".toList () = ⟨.ok (elem .realPi b4), (), []⟩ ∧ realDecimal ⟨true, b4⟩ = .ok (20000000000000, -13) :=
  ⟨[0x1C, 0, 1, 0, 0, 35, 0, 0, 1], [0x1C, 0x30, 2, 0, 0, 1, 0, 0, 1], [0x20, 0x80, 0, 0, 0, 0, 0, 0, 0], [0x20, 0x80, 0x20, 0, 0, 0, 0, 0, 0],
    by decide +kernel, by decide +kernel, by decide +kernel, by decide +kernel, by decide +kernel, by decide +kernel, by decide +kernel,
    by decide +kernel, by decide +kernel⟩

/-! ### C95 -/

/-- C95, the part that holds: texts without delimiters, separated by commas and enclosed by any brackets and braces, are
loaded into a list as the numbers each of them is loaded as, in order. Missing: lists without elements (`C95_empty_false`)
and the unit `[i]` (`C95_unit_false`). -/
theorem C95_list_load_partial (e : Ent) (he : e.cls = .realList ∨ e.cls = .complexList) (hm : e.body.mutable = true)
    (hb : 2 ≤ e.body.bytes.length) (ts : List Str) (xs : List Ent)
    (h : List.Forall₂ (fun t x => elemOfString e.cls t () = ⟨.ok x, (), []⟩) ts xs) (hu : ∀ t ∈ ts, Undelimited t)
    (hne : ts ≠ []) (hn : ts.length < 65536) (o c : Str) (ho : ∀ x ∈ o, IsBracket x) (hc : ∀ x ∈ c, IsBracket x) :
    ∃ e', loadListString (o ++ List.intercalate [','] ts ++ c) e = ⟨.ok (), e', if 999 < ts.length then [.listLong] else []⟩ ∧
      SameEntry { e with body := e'.body } e' ∧ e'.cls = e.cls ∧ fromLE (e'.body.bytes.take 2) = ts.length ∧
      e'.body.bytes.drop 2 = xs.flatMap (fun x => x.body.bytes) := by
  have hl : xs.length = ts.length := h.length_eq.symm
  obtain ⟨e', g1, g2, g3, -, -, g6, g7⟩ := (C50_list_store e xs he hm hb).1 (hl ▸ hn)
  refine ⟨e', ?_, g2, g3, hl ▸ g6, g7⟩
  unfold loadListString
  rw [PyM.bind_ok (PyM.get_run e), intercalate_join, list_split ho hc hne hu, PyM.bind_ok (outside_ok (mapW_ok h) e), g1, hl]
  rfl

/-- The first element that cannot be loaded determines the error; the list stays as it was. -/
theorem C95_first_error (e : Ent) (pre post : List Str) (ys : List Ent)
    (h : List.Forall₂ (fun t x => elemOfString e.cls t () = ⟨.ok x, (), []⟩) pre ys) (t : Str) (r : PyErr) (w : List Warn)
    (ht : elemOfString e.cls t () = ⟨.error r, (), w⟩) (hu : ∀ x ∈ pre ++ t :: post, Undelimited x)
    (o c : Str) (ho : ∀ x ∈ o, IsBracket x) (hc : ∀ x ∈ c, IsBracket x) :
    loadListString (o ++ List.intercalate [','] (pre ++ t :: post) ++ c) e = ⟨.error r, e, w⟩ := by
  unfold loadListString
  rw [PyM.bind_ok (PyM.get_run e), intercalate_join, list_split ho hc (by simp) hu, PyM.bind_error (outside_error (mapW_error h ht post) e)]
  simp

/-- C95 for real lists of numbers of the forms of C94. -/
theorem C95_numbers (ns : List NumText) (ts : List Str) (h : List.Forall₂ (fun n t => n.Valid ∧ n.Fits ∧ n.Writes t) ns ts)
    (hne : ts ≠ []) (hn : ts.length < 65536) (o c : Str) (ho : ∀ x ∈ o, IsBracket x) (hc : ∀ x ∈ c, IsBracket x) (e : Ent)
    (he : e.cls = .realList) (hm : e.body.mutable = true) (hb : 2 ≤ e.body.bytes.length) :
    ∃ e' xs, loadListString (o ++ List.intercalate [','] ts ++ c) e = ⟨.ok (), e', if 999 < ts.length then [.listLong] else []⟩ ∧
      SameEntry { e with body := e'.body } e' ∧ e'.cls = .realList ∧ fromLE (e'.body.bytes.take 2) = ts.length ∧
      e'.body.bytes.drop 2 = xs.flatMap (fun x => x.body.bytes) ∧
      List.Forall₂ (fun n x => RealElem x ∧ x.cls = n.kind ∧ Stored n x) ns xs := by
  obtain ⟨xs, h1, h2⟩ := elems_read h
  have hf : elemOfString e.cls = realOfString := by
    funext s; unfold elemOfString; rw [he]; rfl
  obtain ⟨e', g1, g2, g3, g4, g5⟩ := C95_list_load_partial e (Or.inl he) hm hb ts xs (by rw [hf]; exact h1) (forall₂_undelimited h) hne hn o c ho hc
  exact ⟨e', xs, g1, g2, g3.trans he, g4, g5, h2⟩

/-- A text that no class reads refuses the whole list, which stays as it was. -/
theorem C95_list_refused (ts : List Str) (ht : ∀ t ∈ ts, Undelimited t) (t : Str) (hmem : t ∈ ts)
    (h : ∀ c ∈ realClasses, ∃ x, (loadRealString c t ⟨true, clearFull c⟩).res = .error x)
    (o c : Str) (ho : ∀ x ∈ o, IsBracket x) (hc : ∀ x ∈ c, IsBracket x) (e : Ent) (he : e.cls = .realList) :
    loadListString (o ++ List.intercalate [','] ts ++ c) e = ⟨.error .valueError, e, []⟩ := by
  have hf : elemOfString e.cls = realOfString := by
    funext s; unfold elemOfString; rw [he]; rfl
  unfold loadListString
  rw [PyM.bind_ok (PyM.get_run e), intercalate_join, list_split ho hc (List.ne_nil_of_mem hmem) ht, hf,
    PyM.bind_error (outside_error (mapW_refused hmem (element_refused t h)) e)]
  rfl

/-- C95 for complex lists of numbers of the forms of C91. -/
theorem C95_complex (ds : List ComplexText) (ts : List Str)
    (h : List.Forall₂ (fun d t => d.Valid ∧ d.Safe ∧ squash t = d.render) ds ts) (hu : ∀ t ∈ ts, Undelimited t)
    (hne : ts ≠ []) (hn : ts.length < 65536) (o c : Str) (ho : ∀ x ∈ o, IsBracket x) (hc : ∀ x ∈ c, IsBracket x) (e : Ent)
    (he : e.cls = .complexList) (hm : e.body.mutable = true) (hb : 2 ≤ e.body.bytes.length) :
    ∃ e' xs, loadListString (o ++ List.intercalate [','] ts ++ c) e = ⟨.ok (), e', if 999 < ts.length then [.listLong] else []⟩ ∧
      SameEntry { e with body := e'.body } e' ∧ e'.cls = .complexList ∧ fromLE (e'.body.bytes.take 2) = ts.length ∧
      e'.body.bytes.drop 2 = xs.flatMap (fun x => x.body.bytes) ∧
      List.Forall₂ (fun d x => ComplexElem x ∧ x.cls = .complex ∧ StoredComplex d x) ds xs := by
  obtain ⟨xs, h1, h2⟩ := complexes_read h
  have hf : elemOfString e.cls = complexOfString := by
    funext s; unfold elemOfString; rw [he]; rfl
  obtain ⟨e', g1, g2, g3, g4, g5⟩ := C95_list_load_partial e (Or.inr he) hm hb ts xs (by rw [hf]; exact h1) hu hne hn o c ho hc
  exact ⟨e', xs, g1, g2, g3.trans he, g4, g5, h2⟩

/-- C95 is false of the empty list: its text loads as a list of one zero. A complex list cannot load it. -/
theorem C95_empty_false :
    loadListString "[]".toList (elem .realList [0, 0]) = ⟨.ok (), elem .realList ([1, 0] ++ [0, 0x80, 0, 0, 0, 0, 0, 0, 0]), []⟩ ∧
    loadListString "[]".toList (elem .complexList [0, 0]) = ⟨.error .indexError, elem .complexList [0, 0], []⟩ := by
  decide +kernel

/-- The form of the unit used by the calculator cannot end a list: its bracket is stripped. -/
theorem C95_unit_false : ∃ e : Ent, e.cls = .complexList ∧ (loadListString "[3[i], 1+2[i]]".toList e).res = .error .valueError ∧
    (loadListString "[1+2[i], 3]".toList e).res = .ok () :=
  ⟨elem .complexList [0, 0], rfl, by decide +kernel, by decide +kernel⟩

/-- Brackets of any kind; spaces around the elements; five kinds of numbers. -/
example : (loadListString "{[ 1, -2/3,sqrt(2),.5π, 3π/4]".toList (elem .realList [0, 0])).st.body.bytes =
    [5, 0] ++ [0, 0x80, 0x10, 0, 0, 0, 0, 0, 0] ++ [0x98, 0x7F, 0x66, 0x66, 0x66, 0x66, 0x66, 0x66, 0x67] ++
      [0x1C, 0, 1, 0, 0, 1, 0, 0x10, 2] ++ [0x20, 0x7F, 0x50, 0, 0, 0, 0, 0, 0] ++ [0x21, 0x7F, 0x75, 0, 0, 0, 0, 0, 0] := by
  decide +kernel

example : (loadListString "[1,x]".toList (elem .realList [1, 0, 7])).res = .error .valueError ∧
    (loadListString "[1,x]".toList (elem .realList [1, 0, 7])).st.body.bytes = [1, 0, 7] := by decide +kernel

example : (loadListString "[1+2i, -3i]".toList (elem .complexList [0, 0])).st.body.bytes =
    [2, 0] ++ [0x0C, 0x80, 0x10, 0, 0, 0, 0, 0, 0, 0x0C, 0x80, 0x20, 0, 0, 0, 0, 0, 0] ++
      [0x0C, 0x80, 0, 0, 0, 0, 0, 0, 0, 0x8C, 0x80, 0x30, 0, 0, 0, 0, 0, 0] := by decide +kernel

/-! ### C96 -/

/-- C96, the part that holds: rows of texts of one width, written with or without commas between the rows, are loaded into a
matrix as the numbers each of them is loaded as, row by row. Missing: matrices without elements (`C96_empty_false`). -/
theorem C96_matrix_load_partial (tss : List (List Str)) (xss : List (List Ent))
    (h : List.Forall₂ (List.Forall₂ fun t x => realOfString t () = ⟨.ok x, (), []⟩) tss xss) (hu : ∀ r ∈ tss, ∀ t ∈ r, Undelimited t)
    (w : Nat) (hw : 1 ≤ w ∧ w ≤ 255)
    (hh : 1 ≤ tss.length ∧ tss.length ≤ 255) (hr : ∀ r ∈ tss, r.length = w) (sep : Str) (hsep : sep = [] ∨ sep = [',']) (s : Str)
    (hs : squash s = ['['] ++ List.intercalate sep (tss.map fun r => ['['] ++ List.intercalate [','] r ++ [']']) ++ [']']) (e : Ent)
    (he : e.cls = .matrix) (hm : e.body.mutable = true) (hb : 2 ≤ e.body.bytes.length) :
    ∃ e' ws, loadMatrixString s e = ⟨.ok (), e', ws⟩ ∧ (∀ x ∈ ws, x = .matrixLimit) ∧
      SameEntry { e with body := e'.body } e' ∧ e'.cls = .matrix ∧
      (e'.body.bytes.take 2).map UInt8.toNat = [w, tss.length] ∧
      e'.body.bytes.drop 2 = xss.flatten.flatMap (fun x => x.body.bytes) := by
  have h1 : List.Forall₂ (fun ts xs => mapW realOfString ts () = ⟨.ok xs, (), []⟩) tss xss := h.imp fun _ _ h => mapW_ok h
  have hl : xss.length = tss.length := h1.length_eq.symm
  have hrows : ∀ r ∈ xss, r.length = w := by
    intro r hr'
    have : r.length ∈ tss.map List.length := forall₂_lengths h ▸ List.mem_map_of_mem hr'
    obtain ⟨q, hq, hql⟩ := List.mem_map.1 this
    exact hql.symm.trans (hr q hq)
  obtain ⟨e', ws, g1, g2, -, g4, g5, g6, g7⟩ := C52_matrix_store e xss w he hm hb hw (hl ▸ hh) hrows
  refine ⟨e', ws, ?_, g2, g4, g5.trans he, hl ▸ g6, g7⟩
  have hmap : (tss.map fun r => ['['] ++ List.intercalate [','] r ++ [']']) = tss.map rowStr :=
    List.map_congr_left fun r _ => by rw [intercalate_join]; rfl
  have hne : tss ≠ [] := by rintro rfl; simp at hh
  have hsplit : matrixTexts s = tss := matrix_split hsep hne (fun r hr' => by rintro rfl; have := hr _ hr'; simp at this; omega)
    hu (by rw [hs, hmap, intercalate_join]; rfl)
  unfold loadMatrixString
  rw [hsplit, PyM.bind_ok (outside_ok (mapW_ok h1) e), g1]
  rfl

/-- C96 for numbers of the forms of C94. -/
theorem C96_numbers (nss : List (List NumText)) (tss : List (List Str))
    (h : List.Forall₂ (List.Forall₂ fun n t => n.Valid ∧ n.Fits ∧ n.Writes t) nss tss) (w : Nat) (hw : 1 ≤ w ∧ w ≤ 255)
    (hh : 1 ≤ tss.length ∧ tss.length ≤ 255) (hr : ∀ r ∈ tss, r.length = w) (sep : Str) (hsep : sep = [] ∨ sep = [',']) (s : Str)
    (hs : squash s = ['['] ++ List.intercalate sep (tss.map fun r => ['['] ++ List.intercalate [','] r ++ [']']) ++ [']']) (e : Ent)
    (he : e.cls = .matrix) (hm : e.body.mutable = true) (hb : 2 ≤ e.body.bytes.length) :
    ∃ e' ws xss, loadMatrixString s e = ⟨.ok (), e', ws⟩ ∧ (∀ x ∈ ws, x = .matrixLimit) ∧
      SameEntry { e with body := e'.body } e' ∧ e'.cls = .matrix ∧
      (e'.body.bytes.take 2).map UInt8.toNat = [w, tss.length] ∧
      e'.body.bytes.drop 2 = xss.flatten.flatMap (fun x => x.body.bytes) ∧
      List.Forall₂ (List.Forall₂ fun n x => RealElem x ∧ x.cls = n.kind ∧ Stored n x) nss xss := by
  obtain ⟨xss, h1, h2⟩ := rows_read h
  obtain ⟨e', ws, g1, g2, g3, g4, g5, g6⟩ := C96_matrix_load_partial tss xss h1 (forall₂_rows h) w hw hh hr sep hsep s hs e he hm hb
  exact ⟨e', ws, xss, g1, g2, g3, g4, g5, g6, h2⟩

/-- C96 is false of matrices without elements: the text loads as one row with a zero. The outer brackets are not looked at. -/
theorem C96_empty_false :
    loadMatrixString "[[]]".toList (elem .matrix [0, 0]) = ⟨.ok (), elem .matrix ([1, 1] ++ [0, 0x80, 0, 0, 0, 0, 0, 0, 0]), []⟩ ∧
    loadMatrixString "[]".toList (elem .matrix [0, 0]) = ⟨.ok (), elem .matrix ([1, 1] ++ [0, 0x80, 0, 0, 0, 0, 0, 0, 0]), []⟩ ∧
    loadMatrixString "7[[1][2]x".toList (elem .matrix [0, 0]) = loadMatrixString "[[1],[2]]".toList (elem .matrix [0, 0]) := by
  decide +kernel

/-- Rows of different widths are refused with `IndexError` once their texts have been read. -/
theorem C96_ragged (tss : List (List Str)) (xss : List (List Ent))
    (h : List.Forall₂ (List.Forall₂ fun t x => realOfString t () = ⟨.ok x, (), []⟩) tss xss) (hu : ∀ r ∈ tss, ∀ t ∈ r, Undelimited t)
    (hr : ∀ r ∈ tss, r ≠ [])
    (r r' : List Str) (hr1 : r ∈ tss) (hr2 : r' ∈ tss) (hlen : r.length ≠ r'.length) (sep : Str) (hsep : sep = [] ∨ sep = [',']) (s : Str)
    (hs : squash s = ['['] ++ List.intercalate sep (tss.map fun r => ['['] ++ List.intercalate [','] r ++ [']']) ++ [']']) (e : Ent) :
    loadMatrixString s e = ⟨.error .indexError, e, []⟩ := by
  have h1 : List.Forall₂ (fun ts xs => mapW realOfString ts () = ⟨.ok xs, (), []⟩) tss xss := h.imp fun _ _ h => mapW_ok h
  have hx : ∀ q ∈ tss, ∃ p ∈ xss, p.length = q.length := by
    intro q hq
    have : q.length ∈ xss.map List.length := forall₂_lengths h ▸ List.mem_map_of_mem hq
    exact List.mem_map.1 this
  obtain ⟨p, hp, hpl⟩ := hx r hr1
  obtain ⟨p', hp', hpl'⟩ := hx r' hr2
  have hmap : (tss.map fun r => ['['] ++ List.intercalate [','] r ++ [']']) = tss.map rowStr :=
    List.map_congr_left fun r _ => by rw [intercalate_join]; rfl
  have hsplit : matrixTexts s = tss := matrix_split hsep (List.ne_nil_of_mem hr1) hr
    hu (by rw [hs, hmap, intercalate_join]; rfl)
  unfold loadMatrixString
  rw [hsplit, PyM.bind_ok (outside_ok (mapW_ok h1) e), C52_ragged e xss p p' hp hp' (by omega)]
  rfl

/-- A text that no class reads refuses the whole matrix, which stays as it was. -/
theorem C96_refused (tss : List (List Str)) (ht : ∀ r ∈ tss, ∀ t ∈ r, Undelimited t) (hr : ∀ r ∈ tss, r ≠ []) (r : List Str) (hmem : r ∈ tss)
    (t : Str) (htr : t ∈ r) (h : ∀ c ∈ realClasses, ∃ x, (loadRealString c t ⟨true, clearFull c⟩).res = .error x)
    (sep : Str) (hsep : sep = [] ∨ sep = [',']) (s : Str)
    (hs : squash s = ['['] ++ List.intercalate sep (tss.map fun r => ['['] ++ List.intercalate [','] r ++ [']']) ++ [']']) (e : Ent) :
    loadMatrixString s e = ⟨.error .valueError, e, []⟩ := by
  have hmap : (tss.map fun r => ['['] ++ List.intercalate [','] r ++ [']']) = tss.map rowStr :=
    List.map_congr_left fun r _ => by rw [intercalate_join]; rfl
  have hsplit : matrixTexts s = tss := matrix_split hsep (List.ne_nil_of_mem hmem) hr
    ht (by rw [hs, hmap, intercalate_join]; rfl)
  unfold loadMatrixString
  rw [hsplit, PyM.bind_error (outside_error (mapW_rows_refused hmem htr (element_refused t h)) e)]

example : (loadMatrixString "[[1, -2/3], [.5π, 4]]".toList (elem .matrix [0, 0])).st.body.bytes =
    [2, 2] ++ [0, 0x80, 0x10, 0, 0, 0, 0, 0, 0] ++ [0x98, 0x7F, 0x66, 0x66, 0x66, 0x66, 0x66, 0x66, 0x67] ++
      [0x20, 0x7F, 0x50, 0, 0, 0, 0, 0, 0] ++ [0, 0x80, 0x40, 0, 0, 0, 0, 0, 0] ∧
    (loadMatrixString "[[1][2][3]]".toList (elem .matrix [0, 0])).st.body.bytes.take 3 = [1, 3, 0] ∧
    (loadMatrixString "[[1,2],[3]]".toList (elem .matrix [0, 0])).res = .error .indexError ∧
    (loadMatrixString "[[1,2],[3,y]]".toList (elem .matrix [0, 0])).res = .error .valueError := by
  decide +kernel

end Verif
