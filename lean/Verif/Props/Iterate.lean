import Verif.Model.Iterate
import Verif.Props.Array

/-
C140: going through lists and matrices.
-/

namespace Verif
open Spec Ent
variable {V : Type} [LinearOrder V]

/-- The groups of `n` that `zip(*[iter(d)] * n)` gives, by their places. -/
theorem chunksN_index {α : Type} {n : Nat} (hn : 0 < n) : ∀ (fuel : Nat) (d : List α), d.length ≤ fuel →
    chunksN n fuel d = (List.range (d.length / n)).map fun i => (d.drop (n * i)).take n := by
  intro fuel
  induction fuel with
  | zero =>
    intro d hd
    have : d.length / n = 0 := Nat.div_eq_of_lt (by omega)
    rw [this]; rfl
  | succ fuel ih =>
    intro d hd
    unfold chunksN
    rw [if_neg (by omega)]
    split
    · rename_i h
      rw [Nat.div_eq_of_lt h]; rfl
    · rename_i h
      have hq : d.length / n = (d.drop n).length / n + 1 := by
        rw [List.length_drop, ← Nat.add_div_right _ hn]
        congr 1; omega
      rw [ih (d.drop n) (by rw [List.length_drop]; omega), hq, List.range_succ_eq_map, List.map_cons, List.map_map]
      simp only [Nat.mul_zero, List.drop_zero, List.cons.injEq, true_and]
      refine List.map_congr_left fun i _ => ?_
      simp only [Function.comp_apply, List.drop_drop, Nat.succ_eq_add_one, Nat.mul_add, Nat.mul_one]
      rw [Nat.add_comm]

theorem chunks_index {α : Type} {n : Nat} (hn : 0 < n) (d : List α) :
    chunks n d = (List.range (d.length / n)).map fun i => (d.drop (n * i)).take n := chunksN_index hn _ d (Nat.le_refl _)

theorem fits_same {c : Cls} {x y : Ent} (h : FitsList c x) (hs : SameNumber x y) : FitsList c y := by
  obtain ⟨h1, h2⟩ := hs
  simpa only [FitsList, RealElem, ComplexElem, h1, h2] using h

/-- Reading numbers from pieces of data. -/
theorem mapW_pieces (env : Env V) (nm : Bytes) {c : Cls} (ps : List Bytes) (h : ∀ p ∈ ps, ∃ x, FitsList c x ∧ x.body.bytes = p) :
    ∃ l, mapW (new env (elemCls c) { name := nm, forFlash := true }) ps () = ⟨.ok l, (), []⟩ ∧
      List.Forall₂ (fun p y => FitsList c y ∧ y.body.bytes = p) ps l := by
  induction ps with
  | nil => exact ⟨[], rfl, .nil⟩
  | cons p ps ih =>
    obtain ⟨x, hx, rfl⟩ := h p (by simp)
    obtain ⟨y, hy, hs⟩ := fits_new env nm hx
    obtain ⟨ys, hys, hf⟩ := ih fun q hq => h q (by simp [hq])
    exact ⟨y :: ys, by simp [mapW, PyM.bind_run, hy, hys], .cons ⟨fits_same hx hs, hs.2.symm⟩ hf⟩

theorem forall₂_get {α β : Type} {R : α → β → Prop} {l : List α} {m : List β} (h : List.Forall₂ R l m) :
    m.length = l.length ∧ ∀ (i : Nat) (a : α), l[i]? = some a → ∃ b, m[i]? = some b ∧ R a b := by
  induction h with
  | nil => exact ⟨rfl, fun i b hb => by simp at hb⟩
  | cons hr _ ih =>
    refine ⟨by simp [ih.1], fun i b hb => ?_⟩
    cases i with
    | zero => simp only [List.getElem?_cons_zero, Option.some.injEq] at hb ⊢; subst hb; exact ⟨_, rfl, hr⟩
    | succ i => simp only [List.getElem?_cons_succ] at hb ⊢; exact ih.2 i b hb

/-- C140, the part about lists that holds: going through a list gives the numbers in its data, one from every nine bytes, or eighteen in a
complex list, in order and of the classes their bytes say, ignoring an incomplete one at the end. These are as many as the length field
says exactly if there are data for so many. -/
theorem C140_list_partial (env : Env V) (nm : Bytes) (e : Ent) (hc : e.cls = .realList ∨ e.cls = .complexList) (hf : e.flashBytes ≠ [])
    (n : Nat) (hn : n = if e.cls = .realList then 9 else 18)
    (hx : ∀ i < e.data.length / n, ∃ x, FitsList e.cls x ∧ x.body.bytes = (e.data.drop (n * i)).take n) :
    ∃ l, listIter env nm e () = ⟨.ok l, (), []⟩ ∧
      (∀ i < e.data.length / n, ∃ y, l[i]? = some y ∧ FitsList e.cls y ∧ y.body.bytes = (e.data.drop (n * i)).take n) ∧
      (l.length = fromLE (e.body.bytes.take 2) ↔
        n * fromLE (e.body.bytes.take 2) ≤ e.data.length ∧ e.data.length < n * (fromLE (e.body.bytes.take 2) + 1)) := by
  have hl : (elemCls e.cls).minDataLength = n := by rw [hn]; rcases hc with h | h <;> rw [h] <;> rfl
  have hpos : 0 < n := by rw [hn]; split <;> omega
  have hfl : (!e.flashBytes.isEmpty) = true := by simp [hf]
  obtain ⟨l, h1, h2⟩ := mapW_pieces env nm (c := e.cls) ((List.range (e.data.length / n)).map fun i => (e.data.drop (n * i)).take n) (by
    intro p hp
    obtain ⟨i, hi, rfl⟩ := List.mem_map.1 hp
    exact hx i (List.mem_range.1 hi))
  obtain ⟨hlen, hget⟩ := forall₂_get h2
  refine ⟨l, ?_, fun i hi => hget i _ (by simp [hi]), ?_⟩
  · unfold listIter list
    rw [hl, hfl, chunks_index hpos]
    exact h1
  · simp only [List.length_map, List.length_range] at hlen
    rw [hlen]
    constructor
    · intro h
      rw [← h]
      exact ⟨Nat.mul_div_le .., by rw [Nat.mul_comm]; exact Nat.lt_mul_of_div_lt (Nat.lt_succ_self _) hpos⟩
    · rintro ⟨h1, h2⟩
      refine Nat.le_antisymm (Nat.le_of_lt_succ ((Nat.div_lt_iff_lt_mul hpos).2 ?_)) ((Nat.le_div_iff_mul_le hpos).2 ?_)
      · rw [Nat.mul_comm]; exact h2
      · rw [Nat.mul_comm]; exact h1

/-- C140, the part about matrices that holds: going through a matrix with at least one column gives the numbers of its complete rows, row
by row. With as many data as its sides say, these are as many as its size. -/
theorem C140_matrix_partial (env : Env V) (nm : Bytes) (e : Ent) (hf : e.flashBytes ≠ [])
    (w : Nat) (hw : e.body.bytes[0]?.map UInt8.toNat = some w) (h0 : 0 < w)
    (hx : ∀ i < e.data.length / 9, ∃ x, RealElem x ∧ x.body.bytes = (e.data.drop (9 * i)).take 9) :
    ∃ l rows, matrixIter env nm e () = ⟨.ok l, (), []⟩ ∧ matrix env nm e () = ⟨.ok rows, (), []⟩ ∧ l = rows.flatten ∧
      rows.length = e.data.length / 9 / w ∧ (∀ row ∈ rows, row.length = w) ∧ l.length = e.data.length / 9 / w * w ∧
      (∀ i < l.length, ∃ y, l[i]? = some y ∧ RealElem y ∧ y.body.bytes = (e.data.drop (9 * i)).take 9) ∧
      (∀ h, e.body.bytes[1]?.map UInt8.toNat = some h → e.data.length = 9 * (w * h) → l.length = matrixSize e) := by
  have hfl : (!e.flashBytes.isEmpty) = true := by simp [hf]
  have hside : matrixSide 0 e = w := by
    unfold matrixSide
    rcases h : e.body.bytes with _ | ⟨a, l⟩
    · rw [h] at hw; simp at hw
    · rw [h] at hw
      simp only [List.getElem?_cons_zero, Option.map_some, Option.some.injEq] at hw
      simp [fromLE, hw]
  let N := e.data.length / 9
  let piece : Nat → Bytes := fun i => (e.data.drop (9 * i)).take 9
  have hch : chunks w (chunks 9 e.data) = (List.range (N / w)).map fun r => (List.range w).map fun j => piece (w * r + j) := by
    rw [chunks_index (n := 9) (by omega), chunks_index h0, List.length_map, List.length_range]
    refine List.map_congr_left fun r hr => ?_
    rw [List.mem_range] at hr
    have hle : w * (r + 1) ≤ N := by
      exact Nat.le_trans (Nat.mul_le_mul_left w (show r + 1 ≤ N / w from hr)) (Nat.mul_div_le ..)
    rw [Nat.mul_add, Nat.mul_one] at hle
    apply List.ext_getElem?
    intro j
    rw [← List.map_drop, ← List.map_take, List.getElem?_map, List.getElem?_map, List.getElem?_take, List.getElem?_drop]
    by_cases hj : j < w
    · rw [if_pos hj, List.getElem?_range (show w * r + j < N by omega), List.getElem?_range hj]
      rfl
    · rw [if_neg hj, List.getElem?_eq_none (by simp; omega)]
      rfl
  have hrows : ∀ rs : List Nat, (∀ r ∈ rs, r < N / w) → ∃ rows,
      mapW (fun row => mapW (new env .realE { name := nm, forFlash := true }) row)
        (rs.map fun r => (List.range w).map fun j => piece (w * r + j)) () = ⟨.ok rows, (), []⟩ ∧
      List.Forall₂ (fun r row => List.Forall₂ (fun p y => FitsList .realList y ∧ y.body.bytes = p) ((List.range w).map fun j => piece (w * r + j)) row)
        rs rows := by
    intro rs
    induction rs with
    | nil => intro _; exact ⟨[], rfl, .nil⟩
    | cons r rs ih =>
      intro hr
      obtain ⟨rows, h1, h2⟩ := ih fun q hq => hr q (by simp [hq])
      obtain ⟨row, h3, h4⟩ := mapW_pieces env nm (c := .realList) ((List.range w).map fun j => piece (w * r + j)) (by
        intro p hp
        obtain ⟨j, hj, rfl⟩ := List.mem_map.1 hp
        rw [List.mem_range] at hj
        have hle : w * (r + 1) ≤ N := by
          exact Nat.le_trans (Nat.mul_le_mul_left w (show r + 1 ≤ N / w from hr r (by simp))) (Nat.mul_div_le ..)
        rw [Nat.mul_add, Nat.mul_one] at hle
        obtain ⟨x, h1, h2⟩ := hx (w * r + j) (show w * r + j < N by omega)
        exact ⟨x, Or.inl ⟨rfl, h1⟩, h2⟩)
      exact ⟨row :: rows, by simp only [List.map_cons, mapW, PyM.bind_run, h1]; rw [show elemCls .realList = .realE from rfl] at h3; simp [h3], .cons h4 h2⟩
  obtain ⟨rows, h1, h2⟩ := hrows (List.range (N / w)) fun r hr => List.mem_range.1 hr
  have hm : matrix env nm e () = ⟨.ok rows, (), []⟩ := by
    unfold matrix
    rw [hside, hfl, hch]
    exact h1
  have hfl1 : ∀ row : List Ent, (row.flatMap fun entry => [entry]) = row := fun row => by simp
  obtain ⟨hrl, hrg⟩ := forall₂_get h2
  rw [List.length_range] at hrl
  have hrw : ∀ row ∈ rows, row.length = w := by
    intro row hr
    obtain ⟨i, hi, hrow⟩ := List.getElem_of_mem hr
    obtain ⟨row', h3, h4⟩ := hrg i i (by rw [List.getElem?_range (by omega)])
    rw [List.getElem?_eq_getElem hi, hrow] at h3
    simp only [Option.some.injEq] at h3
    subst h3
    simpa using (forall₂_get h4).1
  have hlen : rows.flatten.length = N / w * w := by
    rw [show rows.flatten = rows.flatMap fun row => row by simp, length_flatMap_const (n := w) _ _ hrw, hrl]
  refine ⟨rows.flatten, rows, ?_, hm, rfl, hrl, hrw, hlen, ?_, ?_⟩
  · unfold matrixIter
    rw [PyM.bind_ok hm]
    simp [hfl1]
  · intro i hi
    rw [hlen] at hi
    have hr : i / w < N / w := (Nat.div_lt_iff_lt_mul h0).2 hi
    have hj : i % w < w := Nat.mod_lt _ h0
    obtain ⟨row, h3, h4⟩ := hrg (i / w) (i / w) (by rw [List.getElem?_range hr])
    obtain ⟨y, h5, h6⟩ := (forall₂_get h4).2 (i % w) (piece (w * (i / w) + i % w)) (by simp [hj])
    have hflat : ∀ (rows : List (List Ent)), (∀ row ∈ rows, row.length = w) → ∀ r j row, rows[r]? = some row → j < w →
        rows.flatten[w * r + j]? = row[j]? := by
      intro rows
      induction rows with
      | nil => intro _ r j row hr; simp at hr
      | cons q qs ih =>
        intro hc r j row hr hj
        have hrl := hc q (List.mem_cons_self ..)
        cases r with
        | zero =>
          simp only [List.getElem?_cons_zero, Option.some.injEq] at hr
          subst hr
          rw [List.flatten_cons, List.getElem?_append_left (by omega)]
          simp
        | succ r =>
          simp only [List.getElem?_cons_succ] at hr
          rw [List.flatten_cons, List.getElem?_append_right (by rw [hrl, Nat.mul_succ]; omega), hrl,
            show w * (r + 1) + j - w = w * r + j by rw [Nat.mul_succ]; omega]
          exact ih (fun row h => hc row (List.mem_cons_of_mem _ h)) r j row hr hj
    have h7 := hflat rows hrw (i / w) (i % w) row h3 hj
    rw [Nat.div_add_mod] at h6 h7
    refine ⟨y, by rw [h7, h5], ?_, h6.2⟩
    rcases h6.1 with ⟨-, h⟩ | ⟨h, -⟩
    · exact h
    · cases h
  · intro h hh hd
    have hs1 : matrixSide 1 e = h := by
      unfold matrixSide
      rcases hb : e.body.bytes with _ | ⟨a, _ | ⟨b, l⟩⟩
      · rw [hb] at hh; simp at hh
      · rw [hb] at hh; simp at hh
      · rw [hb] at hh
        simp only [List.getElem?_cons_succ, List.getElem?_cons_zero, Option.map_some, Option.some.injEq] at hh
        simp [fromLE, hh]
    rw [hlen, matrixSize, hside, hs1]
    have : N = w * h := by show e.data.length / 9 = _; rw [hd]; omega
    rw [this, Nat.mul_div_cancel_left _ h0, Nat.mul_comm]

example : (listIter sampleEnv [0x41] sampleList ()).res.toOption.map (fun l => l.map fun x => x.cls) = some [.real, .realFraction] ∧
    (matrixIter sampleEnv [0x41] sampleMatrix ()).res.toOption.map (fun l => l.map fun x => x.cls) = some [.real, .realFraction] ∧
    matrixSize sampleMatrix = 2 := by decide +kernel

/-- C140 is false of damaged lists and matrices: the length field and the number of rows are not looked at. The length says three but there
are data for two; the size is four but there is one row of two. -/
theorem C140_length_false : ∃ e m : Ent, e.cls = .realList ∧ m.cls = .matrix ∧ WF e ∧ WF m ∧
    (listIter sampleEnv [0x41] e ()).res.toOption.map List.length = some 2 ∧ fromLE (e.body.bytes.take 2) = 3 ∧
    (matrixIter sampleEnv [0x41] m ()).res.toOption.map List.length = some 2 ∧ matrixSize m = 4 := by
  refine ⟨{ sampleList with body := ⟨true, 0x03 :: sampleList.body.bytes.drop 1⟩ },
    { sampleMatrix with body := ⟨true, 0x02 :: 0x02 :: sampleMatrix.body.bytes.drop 2⟩ }, rfl, rfl,
    ⟨⟨Or.inr rfl, rfl, rfl, rfl, rfl⟩, Or.inl rfl, (fun h => by cases h), by decide⟩,
    ⟨⟨Or.inr rfl, rfl, rfl, rfl, rfl⟩, Or.inl rfl, (fun h => by cases h), by decide⟩, by decide +kernel, by decide, by decide +kernel, by decide⟩

end Verif
