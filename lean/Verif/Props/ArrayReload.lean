import Verif.Proofs.ArrayReload
import Verif.Props.ArrayText
import Verif.Spec.Sample

/-! Property theorems about printing lists and matrices and loading the text again (C97, C98). -/

namespace Verif
open Spec Ent
variable {V : Type} [LinearOrder V]

/-! ### C97 -/

/-- C97, the part that holds: a list of numbers each of which prints in the form that belongs to its kind prints as a text
that loads into any real list as numbers of the same kinds with the same values. Missing: the empty list, and numbers whose
text is of another form, such as whole fractions (`C97_list_text_false`). -/
theorem C97_list_text_partial (env : Env V) (nm : Bytes) (e : Ent) (lst : List Ent) (hc : e.cls = .realList) (hf : e.flashBytes ≠ [])
    (hb : e.body.bytes.drop 2 = lst.flatMap fun x => x.body.bytes) (hne : lst ≠ []) (hn : lst.length < 65536)
    (h : ∀ x ∈ lst, Reloadable x) (e0 : Ent) (hc0 : e0.cls = .realList) (hf0 : e0.flashBytes ≠ []) (hm0 : e0.body.mutable = true)
    (hb0 : 2 ≤ e0.body.bytes.length) :
    ∃ s e' es, listStr env nm e () = ⟨.ok s, (), []⟩ ∧ loadListString s e0 = ⟨.ok (), e', if 999 < lst.length then [.listLong] else []⟩ ∧
      fromLE (e'.body.bytes.take 2) = lst.length ∧ list env nm e' () = ⟨.ok es, (), []⟩ ∧ List.Forall₂ SameValue lst es := by
  obtain ⟨es, g1, g2⟩ := C50_list_read_partial env nm e lst hf (fun x hx => Or.inl ⟨hc, (h x hx).1⟩) hb (Or.inl hc)
  have hes : ∀ x ∈ es, Reloadable x := forall₂_right (P := Reloadable) (Q := Reloadable) (fun a b ha hab => Reloadable.of hab ha) h g2
  obtain ⟨ts, k1, k2, k3, xs, k4, k5, k6⟩ := spaceTail_read hes
  have hlen : (spaceTail ts).length = lst.length := by rw [spaceTail_length, k2, g2.length_eq]
  have hl : elemOfString e0.cls = realOfString := by
    funext s; unfold elemOfString; rw [hc0]; rfl
  obtain ⟨e', l1, l2, l3, l4, l5⟩ := C95_list_load_partial e0 (Or.inl hc0) hm0 hb0 (spaceTail ts) xs (by rw [hl]; exact k4) k3
    (by rw [← List.length_pos_iff, hlen]; exact List.length_pos_iff.2 hne) (hlen ▸ hn) ['['] [']'] (by simp [IsBracket]) (by simp [IsBracket])
  obtain ⟨es', m1, m2⟩ := C50_list_read_partial env nm e' xs (by rw [flash_same l2]; exact hf0)
    (fun x hx => Or.inl ⟨l3.trans hc0, k5 x hx⟩) l5 (Or.inl (l3.trans hc0))
  refine ⟨['['] ++ joinStr [',', ' '] ts ++ [']'], e', es', ?_, ?_, hlen ▸ l4, m1, ?_⟩
  · unfold listStr
    rw [PyM.bind_ok g1, k1]
    rfl
  · rw [join_space, ← intercalate_join, l1, hlen]
  · exact forall₂_after (forall₂_before g2 k6) m2

/-- C97 for complex lists: a list of complex numbers with ordinary parts that print in full, other than `a-i`, prints as a
text that loads into any complex list as numbers with the same parts. Missing: as in C92. -/
theorem C97_complex_text_partial (env : Env V) (nm : Bytes) (e : Ent) (lst : List Ent) (hc : e.cls = .complexList) (hf : e.flashBytes ≠ [])
    (hb : e.body.bytes.drop 2 = lst.flatMap fun x => x.body.bytes) (hne : lst ≠ []) (hn : lst.length < 65536)
    (h : ∀ x ∈ lst, ReloadableComplex x) (e0 : Ent) (hc0 : e0.cls = .complexList) (hf0 : e0.flashBytes ≠ []) (hm0 : e0.body.mutable = true)
    (hb0 : 2 ≤ e0.body.bytes.length) :
    ∃ s e' es, listStr env nm e () = ⟨.ok s, (), []⟩ ∧ loadListString s e0 = ⟨.ok (), e', if 999 < lst.length then [.listLong] else []⟩ ∧
      fromLE (e'.body.bytes.take 2) = lst.length ∧ list env nm e' () = ⟨.ok es, (), []⟩ ∧ List.Forall₂ SameComplex lst es := by
  obtain ⟨es, g1, g2⟩ := C50_list_read_partial env nm e lst hf (fun x hx => Or.inr ⟨hc, (h x hx).elem⟩) hb (Or.inr hc)
  have hes : ∀ x ∈ es, ReloadableComplex x :=
    forall₂_right (P := ReloadableComplex) (Q := ReloadableComplex) (fun a b ha hab => ReloadableComplex.of hab ha) h g2
  obtain ⟨ts, k1, k2, k3, k4⟩ := tail_read fun x hx => complex_element (hes x hx)
  obtain ⟨xs, k4, k5, k6⟩ := k4 spaceTail (Or.inr (Or.inr rfl))
  have hlen : (spaceTail ts).length = lst.length := by rw [spaceTail_length, k2, g2.length_eq]
  have hl : elemOfString e0.cls = complexOfString := by
    funext s; unfold elemOfString; rw [hc0]; rfl
  obtain ⟨e', l1, l2, l3, l4, l5⟩ := C95_list_load_partial e0 (Or.inr hc0) hm0 hb0 (spaceTail ts) xs (by rw [hl]; exact k4) (spaceTail_undelimited k3)
    (by rw [← List.length_pos_iff, hlen]; exact List.length_pos_iff.2 hne) (hlen ▸ hn) ['['] [']'] (by simp [IsBracket]) (by simp [IsBracket])
  obtain ⟨es', m1, m2⟩ := C50_list_read_partial env nm e' xs (by rw [flash_same l2]; exact hf0)
    (fun x hx => Or.inr ⟨l3.trans hc0, k5 x hx⟩) l5 (Or.inr (l3.trans hc0))
  refine ⟨['['] ++ joinStr [',', ' '] ts ++ [']'], e', es', ?_, ?_, hlen ▸ l4, m1, ?_⟩
  · unfold listStr
    rw [PyM.bind_ok g1, k1]
    rfl
  · rw [join_space, ← intercalate_join, l1, hlen]
  · refine forall₂_trans (R := SameComplex) (S := SameNumber) (fun _ _ _ h1 h2 => SameComplex.of' h2 h1) ?_ m2
    exact forall₂_trans (R := SameNumber) (S := SameComplex) (fun _ _ _ h1 h2 => SameComplex.of h1 h2) g2 k6

/-- A list entry for the examples. -/
def sampleArray (c : Cls) (b : Bytes) : Ent := ⟨c, [0x0D, 0x00], [], [], [0x00], [0x00], ⟨true, b⟩⟩

/-- Making a number from nine bytes whose type is that of no class. -/
theorem new_unknown (env : Env V) (nm : Bytes) {d : Bytes} (hd : d.length = 9)
    (ht : Cls.getType ((d.getD 0 0).toNat % 64) = none) :
    ∃ v, (new env .realE { name := nm, forFlash := true } d) () =
      ⟨.ok ⟨.realE, [0x0D, 0x00], [UInt8.ofNat ((d.getD 0 0).toNat % 64)], nm, v, [0x00], ⟨true, d⟩⟩, (),
        [.coerceUnrec]⟩ := by
  obtain ⟨t, htdef⟩ : ∃ t, t = (d.getD 0 0).toNat % 64 := ⟨_, rfl⟩
  have hlt : t < 64 := by rw [htdef]; exact Nat.mod_lt _ (by omega)
  rw [← htdef] at ht ⊢
  have hne : d ≠ [] := by rintro rfl; simp at hd
  have hset := assignData_unsized env (e := ⟨.realE, [0x0D, 0x00], [0xFF], nm, [0], [0], ⟨true, clearFull .realE⟩⟩)
    (d := d) rfl rfl rfl rfl (by simp [metaLength, fromLE]) (getVersion_plain env d (Or.inr (Or.inl rfl)))
  have hco : coerce env ⟨.realE, [0x0D, 0x00], [0xFF], nm, [0], [0], ⟨true, d⟩⟩ =
      ⟨.ok (), ⟨.realE, [0x0D, 0x00], [UInt8.ofNat t], nm, [0], [0], ⟨true, d⟩⟩, [.coerceUnrec]⟩ := by
    have hg := subtype_get (e := ⟨.realE, [0x0D, 0x00], [0xFF], nm, [0], [0], ⟨true, d⟩⟩)
      (show 1 ≤ d.length by omega)
    simp only at hg
    rw [← htdef] at hg
    have hid : UInt8.ofNat ((t : Int) % 256).toNat = UInt8.ofNat t := by
      congr 1; omega
    have htn : (UInt8.ofNat t).toNat = t := by simp; omega
    have hgt : getTypeId ⟨.realE, [0x0D, 0x00], [UInt8.ofNat t], nm, [0], [0], ⟨true, d⟩⟩ = .ok t := by
      rw [getTypeId_one (t := UInt8.ofNat t) rfl, htn]
    simp only [coerce, PyM.bind_run, PyM.get_run, hg, PyM.ofExcept_run, setTypeId_run, hid, coerceById, hgt, ht,
      PyM.ite_run, PyM.warn_run]
    simp [show t ≠ 255 by omega]
  exact ⟨_, new_ok env (by decide) hne hset hco (by simp [metaLength, fromLE]) (getVersion_plain env [] (Or.inr (Or.inl rfl)))⟩

theorem mapW_append {α β : Type} {f : α → PyM Unit β} {l r : List α} {ys zs : List β} {w : List Warn}
    (h1 : mapW f l () = ⟨.ok ys, (), []⟩) (h2 : mapW f r () = ⟨.ok zs, (), w⟩) :
    mapW f (l ++ r) () = ⟨.ok (ys ++ zs), (), w⟩ := by
  induction l generalizing ys with
  | nil =>
    cases h1
    exact h2
  | cons a l ih =>
    simp only [mapW, List.cons_append] at h1 ⊢
    rw [PyM.bind_run] at h1 ⊢
    generalize f a () = o at h1 ⊢
    obtain ⟨r1, s1, w1⟩ := o
    rcases r1 with x | b
    · cases h1
    · simp only [PyM.bind_run] at h1 ⊢
      generalize hm : mapW f l () = o at h1
      obtain ⟨r2, s2, w2⟩ := o
      rcases r2 with x | bs
      · cases h1
      · simp only [PyM.pure_run, List.append_nil, Out.mk.injEq, Except.ok.injEq, List.append_eq_nil_iff, true_and] at h1
        obtain ⟨rfl, rfl, rfl⟩ := h1
        rw [ih hm]
        simp

/-- C97, numbers of no known kind: a list with a number whose type byte names no class cannot be printed, whatever
prints before it. -/
theorem C97_unknown (env : Env V) (nm : Bytes) (e : Ent) (pre post : List Ent) (x : Ent) (hc : e.cls = .realList)
    (hf : e.flashBytes ≠ []) (hb : e.body.bytes.drop 2 = (pre ++ x :: post).flatMap fun x => x.body.bytes)
    (hpre : ∀ y ∈ pre, Reloadable y) (hx : x.body.bytes.length = 9)
    (ht : Cls.getType ((x.body.bytes.getD 0 0).toNat % 64) = none) (hpost : ∀ y ∈ post, RealElem y) :
    listStr env nm e () = ⟨.error .notImplementedError, (), [.coerceUnrec]⟩ := by
  have hfl : (!e.flashBytes.isEmpty) = true := by simp [hf]
  obtain ⟨v, hv⟩ := new_unknown env nm hx ht
  obtain ⟨ys, y1, y2⟩ := mapW_bytes (f := new env .realE { name := nm, forFlash := true }) pre
    fun z hz => ⟨_, new_real env nm (hpre z hz).1.1 (hpre z hz).1.2.1 (hpre z hz).1.2.2, rfl, rfl⟩
  obtain ⟨zs, z1, z2⟩ := mapW_bytes (f := new env .realE { name := nm, forFlash := true }) post
    fun z hz => ⟨_, new_real env nm (hpost z hz).1 (hpost z hz).2.1 (hpost z hz).2.2, rfl, rfl⟩
  have hlist : ∃ u : Ent, u.cls = .realE ∧ list env nm e () = ⟨.ok (ys ++ u :: zs), (), [.coerceUnrec]⟩ := by
    refine ⟨⟨.realE, [0x0D, 0x00], [UInt8.ofNat ((x.body.bytes.getD 0 0).toNat % 64)], nm, v, [0x00],
      ⟨true, x.body.bytes⟩⟩, rfl, ?_⟩
    · unfold list data
      rw [hc, show dataStart .realList = 2 from rfl, hb, hfl,
        show (elemCls .realList).minDataLength = 9 from rfl, chunks_flatMap (by omega), List.map_append, List.map_cons]
      · refine mapW_append y1 ?_
        rw [mapW, show elemCls .realList = .realE from rfl, PyM.bind_ok hv, PyM.bind_ok z1]
        rfl
      · intro y hy
        rcases List.mem_append.1 hy with h | h
        · exact (hpre y h).1.2.1
        · rcases List.mem_cons.1 h with rfl | h
          · exact hx
          · exact (hpost y h).2.1
  obtain ⟨u, hu, hl⟩ := hlist
  have hes : ∀ y ∈ ys, Reloadable y := forall₂_right (P := Reloadable) (Q := Reloadable) (fun a b ha hab => Reloadable.of hab ha) hpre y2
  obtain ⟨ts, k1, -⟩ := spaceTail_read hes
  unfold listStr
  rw [PyM.bind_ok hl]
  have : mapE elemStr (ys ++ u :: zs) = .error .notImplementedError := by
    clear hes hl y1 y2
    induction ys generalizing ts with
    | nil =>
      unfold mapE
      simp only [List.nil_append, elemStr, hu]
      rfl
    | cons y ys ih =>
      unfold mapE at k1
      rw [List.cons_append]
      unfold mapE
      generalize elemStr y = o at k1 ⊢
      cases o with
      | error x => simp at k1
      | ok a =>
        cases hm : mapE elemStr ys with
        | error x => rw [hm] at k1; cases k1
        | ok b =>
          rw [ih b hm]
  rw [this]
  rfl

example : listStr sampleEnv [] (sampleArray .realList ([2, 0] ++ [0x00, 0x80, 0x20, 0, 0, 0, 0, 0, 0] ++
    [0x3F, 0x80, 0x30, 0, 0, 0, 0, 0, 0])) () = ⟨.error .notImplementedError, (), [.coerceUnrec]⟩ := by
  decide +kernel

/-- C97 is false: the empty list prints as `[]`, which loads as a list of one zero; a whole fraction prints as an integer,
which loads as an ordinary number; a whole multiple of π held as a fraction prints without π, so that 3π becomes 3. -/
theorem C97_list_text_false :
    listStr sampleEnv [] (sampleArray .realList [0, 0]) () = ⟨.ok "[]".toList, (), []⟩ ∧
    (loadListString "[]".toList (sampleArray .realList [0, 0])).st.body.bytes = [1, 0] ++ [0, 0x80, 0, 0, 0, 0, 0, 0, 0] ∧
    listStr sampleEnv [] (sampleArray .realList ([2, 0] ++ [0x18, 0x80, 0x20, 0, 0, 0, 0, 0, 0] ++ [0x21, 0x80, 0x30, 0, 0, 0, 0, 0, 0])) () =
      ⟨.ok "[2, 3]".toList, (), []⟩ ∧
    (loadListString "[2, 3]".toList (sampleArray .realList [0, 0])).st.body.bytes =
      [2, 0] ++ [0, 0x80, 0x20, 0, 0, 0, 0, 0, 0] ++ [0, 0x80, 0x30, 0, 0, 0, 0, 0, 0] := by
  refine ⟨by decide +kernel, by decide +kernel, by decide +kernel, by decide +kernel⟩

/-- A list of all five kinds and its text. -/
example : listStr sampleEnv [] (sampleArray .realList ([5, 0] ++ [0x80, 0x80, 0x15, 0, 0, 0, 0, 0, 0] ++
      [0x98, 0x7F, 0x66, 0x66, 0x66, 0x66, 0x66, 0x66, 0x67] ++ [0x1C, 0x20, 0x07, 0x99, 0x90, 0x45, 0x00, 0x20, 0x13] ++
      [0x20, 0x7F, 0x50, 0, 0, 0, 0, 0, 0] ++ [0x21, 0x7F, 0x75, 0, 0, 0, 0, 0, 0])) () =
    ⟨.ok "[-1.5, -2/3, (45√13-999√2)/7, 0.5π, 3π/4]".toList, (), []⟩ ∧
    (loadListString "[-1.5, -2/3, (45√13-999√2)/7, 0.5π, 3π/4]".toList (sampleArray .realList [0, 0])).st.body.bytes =
      ([5, 0] ++ [0x80, 0x80, 0x15, 0, 0, 0, 0, 0, 0] ++
      [0x98, 0x7F, 0x66, 0x66, 0x66, 0x66, 0x66, 0x66, 0x67] ++ [0x1C, 0x20, 0x07, 0x99, 0x90, 0x45, 0x00, 0x20, 0x13] ++
      [0x20, 0x7F, 0x50, 0, 0, 0, 0, 0, 0] ++ [0x21, 0x7F, 0x75, 0, 0, 0, 0, 0, 0]) := by
  refine ⟨by decide +kernel, by decide +kernel⟩

/-- A list of complex numbers and its text. -/
example : listStr sampleEnv [] (sampleArray .complexList ([2, 0] ++ ([0x8C, 0x80, 0x25, 0, 0, 0, 0, 0, 0] ++ [0x0C, 0x80, 0x10, 0, 0, 0, 0, 0, 0]) ++
      ([0x0C, 0x80, 0, 0, 0, 0, 0, 0, 0] ++ [0x8C, 0x80, 0x10, 0, 0, 0, 0, 0, 0]))) () = ⟨.ok "[-2.5 + i, -1i]".toList, (), []⟩ ∧
    (loadListString "[-2.5 + i, -1i]".toList (sampleArray .complexList [0, 0])).st.body.bytes =
      [2, 0] ++ ([0x8C, 0x80, 0x25, 0, 0, 0, 0, 0, 0] ++ [0x0C, 0x80, 0x10, 0, 0, 0, 0, 0, 0]) ++
      ([0x0C, 0x80, 0, 0, 0, 0, 0, 0, 0] ++ [0x8C, 0x80, 0x10, 0, 0, 0, 0, 0, 0]) := by
  refine ⟨by decide +kernel, by decide +kernel⟩

/-! ### C98 -/

/-- C98, the part that holds: the same for matrices. Missing: matrices without elements, and numbers whose text is of another
form (`C98_matrix_text_false`). -/
theorem C98_matrix_text_partial (env : Env V) (nm : Bytes) (e : Ent) (rows : List (List Ent)) (w : Nat) (hc : e.cls = .matrix)
    (hf : e.flashBytes ≠ []) (hw : 1 ≤ w ∧ w ≤ 255) (hh : 1 ≤ rows.length ∧ rows.length ≤ 255) (hr : ∀ r ∈ rows, r.length = w)
    (hsize : (e.body.bytes.take 2).map UInt8.toNat = [w, rows.length])
    (hb : e.body.bytes.drop 2 = rows.flatten.flatMap fun x => x.body.bytes) (h : ∀ r ∈ rows, ∀ x ∈ r, Reloadable x)
    (e0 : Ent) (hc0 : e0.cls = .matrix) (hf0 : e0.flashBytes ≠ []) (hm0 : e0.body.mutable = true) (hb0 : 2 ≤ e0.body.bytes.length) :
    ∃ s e' ws es, matrixStr env nm e () = ⟨.ok s, (), []⟩ ∧ loadMatrixString s e0 = ⟨.ok (), e', ws⟩ ∧ (∀ x ∈ ws, x = .matrixLimit) ∧
      (e'.body.bytes.take 2).map UInt8.toNat = [w, rows.length] ∧ matrix env nm e' () = ⟨.ok es, (), []⟩ ∧
      List.Forall₂ (List.Forall₂ SameValue) rows es := by
  obtain ⟨es, g1, g2⟩ := C52_matrix_read_partial env nm e rows w hc hf hw.1 hr (fun r hr' x hx => (h r hr' x hx).1) hsize hb
  have hes : ∀ r ∈ es, ∀ x ∈ r, Reloadable x := forall₂_right (P := fun r => ∀ x ∈ r, Reloadable x) (Q := fun r => ∀ x ∈ r, Reloadable x)
    (fun a b ha hab => forall₂_right (R := SameNumber) (P := Reloadable) (Q := Reloadable) (fun _ _ h1 h2 => Reloadable.of h2 h1) ha hab) h g2
  obtain ⟨tss, k1, k2, k3, xss, k4, k5, k6⟩ := rows_text hes
  have hlens : tss.map List.length = rows.map List.length := k2.trans (forall₂_lengths g2).symm
  have hlen : tss.length = rows.length := by simpa using congrArg List.length hlens
  have hrow : ∀ r ∈ tss, r.length = w := by
    intro r hr'
    have : r.length ∈ rows.map List.length := hlens ▸ List.mem_map_of_mem hr'
    obtain ⟨q, hq, hql⟩ := List.mem_map.1 this
    exact hql.symm.trans (hr q hq)
  have hxlen : xss.length = tss.length := k4.length_eq.symm
  have hxrow : ∀ r ∈ xss, r.length = w := by
    intro r hr'
    have : r.length ∈ tss.map List.length := forall₂_lengths k4 ▸ List.mem_map_of_mem hr'
    obtain ⟨q, hq, hql⟩ := List.mem_map.1 this
    exact hql.symm.trans (hrow q hq)
  have hmap : ∀ l : List (List Str), (l.map fun r => ['['] ++ List.intercalate [','] r ++ [']']) = l.map fun r => ['['] ++ joinStr [','] r ++ [']'] :=
    fun l => List.map_congr_left fun r _ => by rw [intercalate_join]
  obtain ⟨e', ws, l1, l2, l3, l4, l5, l6⟩ := C96_matrix_load_partial tss xss k4 (fun r hr' t ht => (k3 r hr' t ht).2) w hw (hlen ▸ hh) hrow
    [','] (Or.inr rfl) (['['] ++ joinStr [',', ' '] (tss.map fun r => ['['] ++ joinStr [',', ' '] r ++ [']']) ++ [']'])
    (by rw [squash_matrix fun r hr' t ht => (k3 r hr' t ht).1, hmap, intercalate_join]) e0 hc0 hm0 hb0
  obtain ⟨es', m1, m2⟩ := C52_matrix_read_partial env nm e' xss w l4 (by rw [flash_same l3]; exact hf0) hw.1 hxrow k5 (hxlen ▸ l5) l6
  refine ⟨_, e', ws, es', ?_, l1, l2, hlen ▸ l5, m1, ?_⟩
  · unfold matrixStr
    rw [PyM.bind_ok g1, k1]
    rfl
  · refine forall₂_trans (S := List.Forall₂ SameNumber) (R := List.Forall₂ SameValue) (fun _ _ _ h1 h2 => forall₂_after h1 h2) ?_ m2
    exact forall₂_trans (R := List.Forall₂ SameNumber) (S := List.Forall₂ SameValue) (fun _ _ _ h1 h2 => forall₂_before h1 h2) g2 k6

/-- C98 is false: a whole fraction becomes an ordinary number. -/
theorem C98_matrix_text_false :
    matrixStr sampleEnv [] (sampleArray .matrix ([1, 1] ++ [0x18, 0x80, 0x20, 0, 0, 0, 0, 0, 0])) () = ⟨.ok "[[2]]".toList, (), []⟩ ∧
    (loadMatrixString "[[2]]".toList (sampleArray .matrix [0, 0])).st.body.bytes = [1, 1] ++ [0, 0x80, 0x20, 0, 0, 0, 0, 0, 0] := by
  refine ⟨by decide +kernel, by decide +kernel⟩

example : matrixStr sampleEnv [] (sampleArray .matrix ([2, 2] ++ [0x80, 0x80, 0x15, 0, 0, 0, 0, 0, 0] ++
      [0x98, 0x7F, 0x66, 0x66, 0x66, 0x66, 0x66, 0x66, 0x67] ++ [0x20, 0x7F, 0x50, 0, 0, 0, 0, 0, 0] ++ [0x21, 0x7F, 0x75, 0, 0, 0, 0, 0, 0])) () =
    ⟨.ok "[[-1.5, -2/3], [0.5π, 3π/4]]".toList, (), []⟩ ∧
    (loadMatrixString "[[-1.5, -2/3], [0.5π, 3π/4]]".toList (sampleArray .matrix [0, 0])).st.body.bytes =
      ([2, 2] ++ [0x80, 0x80, 0x15, 0, 0, 0, 0, 0, 0] ++
      [0x98, 0x7F, 0x66, 0x66, 0x66, 0x66, 0x66, 0x66, 0x67] ++ [0x20, 0x7F, 0x50, 0, 0, 0, 0, 0, 0] ++ [0x21, 0x7F, 0x75, 0, 0, 0, 0, 0, 0]) := by
  refine ⟨by decide +kernel, by decide +kernel⟩

end Verif
