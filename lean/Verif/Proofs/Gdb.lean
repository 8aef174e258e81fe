import Verif.Model.Gdb
import Verif.Spec.Gdb
import Verif.Proofs.Assign

/-! Lemmas on the equations of graph databases. -/

namespace Verif
open Spec

theorem Stream.read_rest {s : Stream} {n : Nat} {mid post : Bytes} (h : s.rest = mid ++ post)
    (hn : mid.length = n) : (s.read n).1 = mid ∧ (s.read n).2.rest = post := by
  have h1 : s.peek n = mid := by
    unfold Stream.peek
    rw [show s.data.drop s.pos = s.rest from rfl, h, List.take_left' hn]
  refine ⟨h1, ?_⟩
  show (s.data.drop (s.pos + (s.peek n).length)) = post
  rw [h1, ← List.drop_drop, show s.data.drop s.pos = s.rest from rfl, h, List.drop_left]

theorem toLE_two_of (n : Nat) (h : n < 65536) : fromLE (toLE 2 n) = n := by
  have := fromLE_toLE 2 n
  rw [this]
  omega

namespace Ent

theorem readOnes_rest (l : List UInt8) {s : Stream} {post : Bytes} (h : s.rest = l ++ post) :
    (readOnes l.length s).1 = l.map (fun b => [b]) ∧ (readOnes l.length s).2.rest = post := by
  induction l generalizing s with
  | nil => exact ⟨rfl, h⟩
  | cons b bs ih =>
    have hr := Stream.read_rest (s := s) (n := 1) (mid := [b]) (post := bs ++ post) h rfl
    have := ih (s := (s.read 1).2) hr.2
    simp only [List.length_cons, readOnes, List.map_cons]
    exact ⟨by rw [this.1, hr.1], this.2⟩

theorem readEquation_rest (q : PlotEq) (hq : q.tokens.length < 65536) {s : Stream} {post : Bytes}
    (h : s.rest = q.bytes ++ post) :
    (readEquation s).1 = q.bytes ∧ (readEquation s).2.rest = post := by
  have h1 := Stream.read_rest (s := s) (n := 1) (mid := [q.flags])
    (post := toLE 2 q.tokens.length ++ (q.tokens ++ post)) (by rw [h]; simp [PlotEq.bytes]) rfl
  have h2 := Stream.read_rest (n := 2) h1.2 (length_toLE 2 _)
  have h3 := Stream.read_rest (n := q.tokens.length) h2.2 rfl
  have hlen : fromLE ((s.read 1).2.read 2).1 = q.tokens.length := by rw [h2.1, toLE_two_of _ hq]
  unfold readEquation
  simp only
  rw [hlen, h1.1, h2.1, h3.1]
  exact ⟨by simp [PlotEq.bytes], h3.2⟩

theorem readEquations_rest (qs : List PlotEq) (hq : ∀ q ∈ qs, q.tokens.length < 65536) {s : Stream}
    {post : Bytes} (h : s.rest = qs.flatMap PlotEq.bytes ++ post) :
    (readEquations qs.length s).1 = qs.map PlotEq.bytes ∧ (readEquations qs.length s).2.rest = post := by
  induction qs generalizing s with
  | nil => exact ⟨rfl, by simpa [readEquations] using h⟩
  | cons q qs ih =>
    have h1 := readEquation_rest q (hq q (by simp)) (s := s) (post := qs.flatMap PlotEq.bytes ++ post)
      (by rw [h]; simp)
    have := ih (fun q h => hq q (List.mem_cons_of_mem _ h)) h1.2
    simp only [List.length_cons, readEquations, List.map_cons]
    exact ⟨by rw [this.1, h1.1], this.2⟩

/-! ### The class table -/

theorem plot_counts {c : Cls} (h : c ∈ plotClasses) :
    (gdbCounts c).1 = equationCount c ∧ (gdbCounts c).2.2 = styleCount c ∧ perStyle c = sharing c ∧
    gdbOffset c = fieldStart c (fieldNames c).length ∧ 0 < sharing c ∧
    equationCount c = styleCount c * sharing c ∧
    ((List.range (equationCount c)).filter fun i => i % sharing c == 0) =
      (List.range (styleCount c)).map (· * sharing c) := by
  have : ∀ c ∈ plotClasses, (gdbCounts c).1 = equationCount c ∧ (gdbCounts c).2.2 = styleCount c ∧
    perStyle c = sharing c ∧ gdbOffset c = fieldStart c (fieldNames c).length ∧ 0 < sharing c ∧
    equationCount c = styleCount c * sharing c ∧
    ((List.range (equationCount c)).filter fun i => i % sharing c == 0) =
      (List.range (styleCount c)).map (· * sharing c) := by decide +kernel
  exact this c h

/-! ### Reading a database of known parts -/

/-- The colour of an equation of a database. -/
def plotColor (p : Plot) (k : Nat) : UInt8 :=
  match p.tail with
  | none => 0x00
  | some t => t.colors.getD k 0x00

/-- The equations of a database. -/
def plotEquations (p : Plot) (c : Cls) : List GEq :=
  (List.range (equationCount c)).map fun i =>
    ⟨[p.styles.getD (i / sharing c) 0x00], [plotColor p (i / sharing c)], (p.eqs.map PlotEq.bytes).getD i []⟩

theorem plotEquations_at (p : Plot) (c : Cls) (k : Nat) :
    (plotEquations p c)[k]? = if k < equationCount c then
      some ⟨[p.styles.getD (k / sharing c) 0x00], [plotColor p (k / sharing c)],
        (p.eqs.map PlotEq.bytes).getD k []⟩ else none := by
  unfold plotEquations
  by_cases hk : k < equationCount c
  · rw [if_pos hk, List.getElem?_map, List.getElem?_range hk]; rfl
  · rw [if_neg hk, List.getElem?_eq_none (by simp; omega)]

theorem head_two {c : Cls} (hc : c ∈ plotClasses) : 2 ≤ fieldStart c (fieldNames c).length :=
  (by decide : ∀ c ∈ plotClasses, 2 ≤ fieldStart c (fieldNames c).length) c hc

theorem getD_singletons (l : List UInt8) (k : Nat) (h : k < l.length) :
    (l.map (fun b => [b])).getD k [] = [l.getD k 0x00] := by
  simp [List.getD_eq_getElem?_getD, List.getElem?_eq_getElem h]

theorem ColorPart_bytes_ne {t : ColorPart} (h : t.magic.length = 3) : ¬t.bytes = [] := by
  intro h'
  have hl := congrArg List.length h'
  simp only [ColorPart.bytes, List.length_append, List.length_nil] at hl
  omega

theorem getEquations_plot {p : Plot} {e : Ent} (hc : e.cls ∈ plotClasses) (hp : p.Fits e.cls)
    (hb : e.body.bytes = p.bytes) : getEquations e = plotEquations p e.cls := by
  obtain ⟨h1, h2, h3, h4, h5, h6, -⟩ := plot_counts hc
  have hdrop : (Stream.ofBytes (e.body.bytes.drop (gdbOffset e.cls))).rest =
      p.styles ++ (p.eqs.flatMap PlotEq.bytes ++ tailBytes p.tail) := by
    rw [hb, h4, ← hp.head]
    simp [Stream.rest, Stream.ofBytes, Plot.bytes]
  have hs := readOnes_rest p.styles hdrop
  have hq := readEquations_rest p.eqs hp.tokens hs.2
  rw [hp.styles] at hs hq
  rw [hp.eqs] at hq
  unfold getEquations plotEquations
  simp only
  rw [h1, h2, h3, hs.1, hq.1, hq.2]
  apply List.map_congr_left
  intro i hi
  have hi : i < equationCount e.cls := List.mem_range.1 hi
  have hk : i / sharing e.cls < styleCount e.cls := by
    rw [Nat.div_lt_iff_lt_mul h5, ← h6]; exact hi
  rw [getD_singletons _ _ (by rw [hp.styles]; exact hk)]
  congr 1
  unfold plotColor
  rcases ht : p.tail with _ | t
  · rfl
  · have htt := hp.tail t ht
    have hne : ¬tailBytes (some t) = [] := ColorPart_bytes_ne htt.1
    simp only
    rw [if_neg hne]
    have hrest : ((Stream.ofBytes t.bytes).seekRel 3).rest = t.colors ++ t.settings := by
      show t.bytes.drop 3 = _
      unfold ColorPart.bytes
      rw [← htt.1, List.append_assoc, List.drop_left]
    have := readOnes_rest t.colors hrest
    rw [htt.2.1] at this
    rw [show tailBytes (some t) = t.bytes from rfl]
    rw [this.1, getD_singletons _ _ (by rw [htt.2.1]; exact hk)]

theorem colorData_plot {p : Plot} {e : Ent} (hc : e.cls ∈ plotClasses) (hp : p.Fits e.cls)
    (hb : e.body.bytes = p.bytes) : e.colorData = tailBytes p.tail := by
  obtain ⟨h1, h2, h3, h4, h5, h6, -⟩ := plot_counts hc
  have hdrop : (Stream.ofBytes (e.body.bytes.drop (gdbOffset e.cls + (gdbCounts e.cls).2.2))).rest =
      (p.eqs.flatMap PlotEq.bytes ++ tailBytes p.tail) := by
    rw [hb, h2, h4, ← hp.head, ← hp.styles]
    unfold Plot.bytes
    rw [← List.length_append, List.append_assoc (p.head ++ p.styles)]
    show (((p.head ++ p.styles) ++ _).drop _).drop 0 = _
    rw [List.drop_left, List.drop_zero]
  have hq := readEquations_rest p.eqs hp.tokens hdrop
  unfold colorData
  simp only
  rw [h1, ← hp.eqs]
  exact hq.2

/-! ### Replacing -/

theorem flatMap_singleton' {α : Type} (l : List α) (f : α → UInt8) :
    (l.flatMap fun a => [f a]) = l.map f := by
  induction l with
  | nil => rfl
  | cons a as ih => simp [ih]

/-- The bytes collected from the first equation of each curve after replacing one. -/
theorem every_set {c : Cls} (hc : c ∈ plotClasses) (l : List UInt8) (hl : l.length = styleCount c) (f : GEq → Bytes)
    (eqs : List GEq) (hn : eqs.length = equationCount c)
    (hf : ∀ i, i < equationCount c → f (eqs.getD i ⟨[], [], []⟩) = [l.getD (i / sharing c) 0x00])
    (i : Nat) (hi : i < equationCount c) (v : GEq) (b : UInt8) (hv : f v = [b]) :
    (everyStyle c (eqs.set i v)).flatMap f =
      if i % sharing c = 0 then l.set (i / sharing c) b else l := by
  obtain ⟨h1, h2, h3, h4, h5, h6, h7⟩ := plot_counts hc
  unfold everyStyle
  rw [h1, h3, h7, List.map_map, List.flatMap_map]
  have hfun : ∀ k ∈ List.range (styleCount c),
      f ((eqs.set i v).getD (k * sharing c) ⟨[], [], []⟩) =
        [if k * sharing c = i then b else l.getD k 0x00] := by
    intro k hk
    have hk := List.mem_range.1 hk
    have hlt : k * sharing c < equationCount c := by
      rw [h6]; exact Nat.mul_lt_mul_of_pos_right hk h5
    by_cases hki : k * sharing c = i
    · rw [if_pos hki, hki, List.getD_eq_getElem?_getD, List.getElem?_set_self (by omega)]
      exact hv
    · rw [if_neg hki, List.getD_eq_getElem?_getD, List.getElem?_set_ne (fun h => hki h.symm),
        ← List.getD_eq_getElem?_getD, hf _ hlt, Nat.mul_div_cancel _ h5]
  have hmap : (List.range (styleCount c)).flatMap
      (fun k => f ((eqs.set i v).getD (k * sharing c) ⟨[], [], []⟩)) =
      (List.range (styleCount c)).map (fun k => if k * sharing c = i then b else l.getD k 0x00) := by
    rw [← flatMap_singleton', List.flatMap_def, List.flatMap_def, List.map_congr_left hfun]
  refine Eq.trans hmap ?_
  apply List.ext_getElem?
  intro k
  by_cases hk : k < styleCount c
  · rw [List.getElem?_map, List.getElem?_range hk]
    simp only [Option.map_some]
    by_cases hki : k * sharing c = i
    · subst hki
      rw [if_pos rfl, if_pos (Nat.mul_mod_left _ _), Nat.mul_div_cancel _ h5,
        List.getElem?_set_self (by omega)]
    · rw [if_neg hki, List.getD_eq_getElem?_getD]
      by_cases hmod : i % sharing c = 0
      · rw [if_pos hmod]
        have hne : i / sharing c ≠ k := by
          intro h
          apply hki
          rw [← h, Nat.div_mul_cancel (Nat.dvd_of_mod_eq_zero hmod)]
        rw [List.getElem?_set_ne hne, List.getElem?_eq_getElem (by omega)]
        rfl
      · rw [if_neg hmod, List.getElem?_eq_getElem (by omega)]
        rfl
  · rw [List.getElem?_eq_none (by simp; omega), List.getElem?_eq_none]
    split
    · simp; omega
    · omega

theorem bounds_all (n : Nat) : ({} : Slice).bounds n = (0, n) := by
  simp only [Slice.bounds, Slice.indices, Option.getD_none]
  simp

theorem replace_fits {p : Plot} {c : Cls} (hp : p.Fits c) (i : Nat) (q : PlotEq) (hq : q.tokens.length < 65536)
    (st col : UInt8) : (p.replace c i q st col).Fits c := by
  refine ⟨hp.head, ?_, ?_, ?_, ?_⟩
  · unfold Plot.replace
    simp only
    split
    · rw [List.length_set, hp.styles]
    · exact hp.styles
  · simp [Plot.replace, hp.eqs]
  · intro r hr
    rcases List.mem_or_eq_of_mem_set hr with h | h
    · exact hp.tokens r h
    · rw [h]; exact hq
  · intro t ht
    unfold Plot.replace at ht
    rcases hpt : p.tail with _ | u
    · simp [hpt] at ht
    · have := hp.tail u hpt
      simp only [hpt, Option.some.injEq] at ht
      subst ht
      refine ⟨rfl, ?_, this.2.2⟩
      simp only
      split
      · rw [List.length_set]; exact this.2.1
      · exact this.2.1

theorem flatMap_body (p : Plot) (c : Cls) (hn : p.eqs.length = equationCount c) (i : Nat)
    (q : PlotEq) (v : GEq) (hv : v.body = q.bytes) :
    ((plotEquations p c).set i v).flatMap GEq.body = (p.eqs.set i q).flatMap PlotEq.bytes := by
  rw [List.flatMap_def, List.flatMap_def, List.map_set, List.map_set, hv]
  congr 2
  unfold plotEquations
  rw [List.map_map]
  apply List.ext_getElem?
  intro k
  by_cases hk : k < equationCount c
  · rw [List.getElem?_map, List.getElem?_range hk, List.getElem?_map]
    simp [List.getElem?_eq_getElem (show k < p.eqs.length by omega)]
  · rw [List.getElem?_eq_none (by simp; omega), List.getElem?_eq_none (by simp; omega)]

theorem setEquation_plot {p : Plot} {e : Ent} (hc : e.cls ∈ plotClasses) (hp : p.Fits e.cls)
    (hb : e.body = ⟨true, p.bytes⟩) {i : Nat} (hi : i < equationCount e.cls) (q : PlotEq) (st col : UInt8) :
    setEquation i ⟨[st], [col], q.bytes⟩ e =
      ⟨.ok (), { e with body := ⟨true, (p.replace e.cls i q st col).bytes⟩ }, []⟩ := by
  obtain ⟨h1, h2, h3, h4, h5, h6, h7⟩ := plot_counts hc
  have hbb : e.body.bytes = p.bytes := by rw [hb]
  have hget := getEquations_plot hc hp hbb
  have hcol := colorData_plot hc hp hbb
  have hlen : (plotEquations p e.cls).length = equationCount e.cls := by simp [plotEquations]
  have hstyle := every_set hc p.styles hp.styles GEq.style (plotEquations p e.cls) hlen
    (by intro k hk; simp [plotEquations, List.getD_eq_getElem?_getD, List.getElem?_range hk])
    i hi ⟨[st], [col], q.bytes⟩ st rfl
  have hbytes : equationBytes e i ⟨[st], [col], q.bytes⟩ = .ok (p.replace e.cls i q st col).bytes := by
    unfold equationBytes
    simp only [hget, hlen, hi, if_true]
    rw [hstyle, flatMap_body p e.cls hp.eqs i q _ rfl, hcol, h4, ← hp.head]
    have htake : e.body.bytes.take p.head.length = p.head := by
      rw [hbb]; simp [Plot.bytes]
    rw [htake]
    rcases ht : p.tail with _ | t
    · simp [tailBytes, Plot.replace, Plot.bytes, ht]
    · have htt := hp.tail t ht
      have hne : tailBytes (some t) ≠ [] := ColorPart_bytes_ne htt.1
      have hcolor := every_set hc t.colors htt.2.1 GEq.color (plotEquations p e.cls) hlen
        (by intro k hk; simp [plotEquations, List.getD_eq_getElem?_getD, List.getElem?_range hk, plotColor, ht])
        i hi ⟨[st], [col], q.bytes⟩ col rfl
      rw [if_pos hne, hcolor]
      have hlast : (tailBytes (some t)).drop ((tailBytes (some t)).length - 5) = t.settings := by
        show (t.magic ++ t.colors ++ t.settings).drop ((t.magic ++ t.colors ++ t.settings).length - 5) = _
        rw [List.length_append (as := t.magic ++ t.colors), htt.2.2, Nat.add_sub_cancel, List.drop_left]
      rw [hlast]
      simp [Plot.replace, Plot.bytes, ht, tailBytes, ColorPart.bytes]
  unfold setEquation
  rw [PyM.bind_run, PyM.get_run]
  simp only [List.nil_append]
  obtain ⟨view, hview⟩ : ∃ w, w = (View.mk' none ⟨fun _ => .error .notImplementedError,
    fun v _ _ => PyM.ofExcept (equationBytes e i v)⟩ {} : View GEq) := ⟨_, rfl⟩
  rw [← hview]
  have hput : viewPut view ⟨[st], [col], q.bytes⟩ e =
      ⟨.ok (), { e with body := ⟨true, (p.replace e.cls i q st col).bytes⟩ }, []⟩ := by
    refine viewPut_ok ?_
    rw [hb]
    have hr : setRaw view.conv view.length (getSlice p.bytes view.slice) ⟨[st], [col], q.bytes⟩ () =
        ⟨.ok (p.replace e.cls i q st col).bytes, (), []⟩ := by
      rw [hview]
      unfold setRaw
      rw [PyM.bind_run]
      simp only [View.mk', hbytes, PyM.ofExcept_run]
      rfl
    rw [view_put_ok hr, hview]
    simp [View.mk', setSlice, bounds_all]
  rw [hput]

end Ent
end Verif
