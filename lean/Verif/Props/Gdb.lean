import Verif.Proofs.Gdb
import Verif.Props.Settings

/-! Properties of the equations of graph databases. -/

namespace Verif
open Spec
open Ent
variable {V : Type} [LinearOrder V]

/-! ### C59 – equations can be replaced individually -/

/-- C59, reading: the equations of a database are those stored in it, each with the style and the colour of
its curve. -/
theorem C59_read (p : Plot) (e : Ent) (hc : e.cls ∈ plotClasses) (hp : p.Fits e.cls)
    (hb : e.body.bytes = p.bytes) (k : Nat) (hk : k < equationCount e.cls) :
    ∃ g q, (getEquations e)[k]? = some g ∧ p.eqs[k]? = some q ∧ g.body = q.bytes ∧
      p.styles[k / sharing e.cls]?.map (fun b => [b]) = some g.style ∧
      (p.tail = none → g.color = [0x00]) ∧
      ∀ t, p.tail = some t → t.colors[k / sharing e.cls]?.map (fun b => [b]) = some g.color := by
  obtain ⟨h1, h2, h3, h4, h5, h6, -⟩ := plot_counts hc
  have hks : k / sharing e.cls < styleCount e.cls := by
    rw [Nat.div_lt_iff_lt_mul h5, ← h6]; exact hk
  have hq : k < p.eqs.length := by rw [hp.eqs]; exact hk
  rw [getEquations_plot hc hp hb, plotEquations_at, if_pos hk]
  refine ⟨_, p.eqs[k], rfl, List.getElem?_eq_getElem hq, ?_, ?_, ?_, ?_⟩
  · simp [List.getD_eq_getElem?_getD, List.getElem?_eq_getElem hq]
  · rw [List.getElem?_eq_getElem (by rw [hp.styles]; exact hks)]
    simp [List.getD_eq_getElem?_getD, List.getElem?_eq_getElem (show k / sharing e.cls < p.styles.length by
      rw [hp.styles]; exact hks)]
  · intro ht
    simp [plotColor, ht]
  · intro t ht
    have htt := (hp.tail t ht).2.1
    rw [List.getElem?_eq_getElem (by rw [htt]; exact hks)]
    simp [plotColor, ht, List.getD_eq_getElem?_getD,
      List.getElem?_eq_getElem (show k / sharing e.cls < t.colors.length by rw [htt]; exact hks)]

/-- C59, writing: replacing the `i`-th equation gives the database with just that equation replaced; the
numbers and modes, the other equations, the other styles and colours and the settings of the colour part
are the same. -/
theorem C59_replace (p : Plot) (e : Ent) (hc : e.cls ∈ plotClasses) (hp : p.Fits e.cls)
    (hb : e.body = ⟨true, p.bytes⟩) (i : Nat) (hi : i < equationCount e.cls) (q : PlotEq)
    (hq : q.tokens.length < 65536) (style color : UInt8) :
    ∃ p' : Plot, setEquation i ⟨[style], [color], q.bytes⟩ e = ⟨.ok (), { e with body := ⟨true, p'.bytes⟩ }, []⟩ ∧
      p'.Fits e.cls ∧ p'.head = p.head ∧ p'.eqs = p.eqs.set i q ∧
      p'.styles = (if i % sharing e.cls = 0 then p.styles.set (i / sharing e.cls) style else p.styles) ∧
      (p.tail = none → p'.tail = none) ∧
      ∀ t, p.tail = some t → ∃ t', p'.tail = some t' ∧ t'.settings = t.settings ∧
        t'.colors = (if i % sharing e.cls = 0 then t.colors.set (i / sharing e.cls) color else t.colors) ∧
        t'.magic = [0x38, 0x34, 0x43] := by
  refine ⟨p.replace e.cls i q style color, setEquation_plot hc hp hb hi q style color,
    replace_fits hp i q hq style color, rfl, rfl, rfl, ?_, ?_⟩
  · intro h; simp [Plot.replace, h]
  · intro t h
    refine ⟨⟨[0x38, 0x34, 0x43], if i % sharing e.cls = 0 then t.colors.set (i / sharing e.cls) color
      else t.colors, t.settings⟩, by simp only [Plot.replace, h], rfl, rfl, rfl⟩

/-- C59, the equations after a replacement: the new one at its index, the old ones elsewhere, in every class
of graph database. In a parametric database the styles are those of the X components, so the style of a
replaced Y component is not that of the new equation (see `C59_pair_false`). -/
theorem C59_equations_partial (p : Plot) (e : Ent) (hc : e.cls ∈ plotClasses) (hp : p.Fits e.cls)
    (hb : e.body = ⟨true, p.bytes⟩) (i : Nat) (hi : i < equationCount e.cls) (q : PlotEq)
    (hq : q.tokens.length < 65536) (style color : UInt8) (hodd : i % sharing e.cls = 0) :
    ∃ e', setEquation i ⟨[style], [color], q.bytes⟩ e = ⟨.ok (), e', []⟩ ∧
      (∀ k, k / sharing e.cls ≠ i / sharing e.cls → (getEquations e')[k]? = (getEquations e)[k]?) ∧
      (∃ g, (getEquations e')[i]? = some g ∧ g.body = q.bytes ∧ g.style = [style] ∧
        g.color = if p.tail.isSome then [color] else [0x00]) ∧
      (∀ k, k ≠ i → ((getEquations e')[k]?).map GEq.body = ((getEquations e)[k]?).map GEq.body) := by
  obtain ⟨h1, h2, h3, h4, h5, h6, -⟩ := plot_counts hc
  have hfit := replace_fits hp i q hq style color
  have hold := getEquations_plot hc hp (by rw [hb])
  have hnew := getEquations_plot (e := { e with body := ⟨true, (p.replace e.cls i q style color).bytes⟩ })
    hc hfit rfl
  have his : i / sharing e.cls < styleCount e.cls := by
    rw [Nat.div_lt_iff_lt_mul h5, ← h6]; exact hi
  have heqs : ∀ k, k ≠ i → (((p.replace e.cls i q style color).eqs.map PlotEq.bytes).getD k []) =
      (p.eqs.map PlotEq.bytes).getD k [] := by
    intro k hk
    simp only [Plot.replace, List.map_set, List.getD_eq_getElem?_getD]
    rw [List.getElem?_set_ne (fun h => hk h.symm)]
  have hst : ∀ k, (p.replace e.cls i q style color).styles.getD k 0x00 =
      if k = i / sharing e.cls then style else p.styles.getD k 0x00 := by
    intro k
    simp only [Plot.replace, if_pos hodd, List.getD_eq_getElem?_getD]
    by_cases hk : k = i / sharing e.cls
    · rw [if_pos hk, hk, List.getElem?_set_self (by rw [hp.styles]; exact his)]; rfl
    · rw [if_neg hk, List.getElem?_set_ne (fun h => hk h.symm)]
  have hcol : ∀ k, plotColor (p.replace e.cls i q style color) k =
      if k = i / sharing e.cls ∧ p.tail.isSome then color else plotColor p k := by
    intro k
    unfold plotColor
    rcases ht : p.tail with _ | t
    · simp [Plot.replace, ht]
    · simp only [Plot.replace, ht, if_pos hodd, List.getD_eq_getElem?_getD, Option.isSome_some, and_true]
      by_cases hk : k = i / sharing e.cls
      · rw [if_pos hk, hk, List.getElem?_set_self (by rw [(hp.tail t ht).2.1]; exact his)]; rfl
      · rw [if_neg hk, List.getElem?_set_ne (fun h => hk h.symm)]
  refine ⟨_, setEquation_plot hc hp hb hi q style color, ?_, ?_, ?_⟩
  · intro k hk
    rw [hnew, hold, plotEquations_at, plotEquations_at]
    by_cases hlt : k < equationCount e.cls
    · rw [if_pos hlt, if_pos hlt, heqs k (by rintro rfl; exact hk rfl), hst, hcol, if_neg hk,
        if_neg (by simp [hk])]
    · rw [if_neg hlt, if_neg hlt]
  · refine ⟨_, by rw [hnew, plotEquations_at, if_pos hi], ?_, ?_, ?_⟩
    · simp only [Plot.replace, List.map_set, List.getD_eq_getElem?_getD]
      rw [List.getElem?_set_self (by simp [hp.eqs]; exact hi)]; rfl
    · simp only; rw [hst, if_pos rfl]
    · simp only; rw [hcol]
      rcases ht : p.tail with _ | t
      · simp [plotColor, ht]
      · simp
  · intro k hk
    rw [hnew, hold, plotEquations_at, plotEquations_at]
    by_cases hlt : k < equationCount e.cls
    · rw [if_pos hlt, if_pos hlt]
      simp only [Option.map_some]
      rw [heqs k hk]
    · rw [if_neg hlt, if_neg hlt]

/-- C59 is false of the code for the Y component of a parametric curve: the style and the colour of the new
equation are dropped without a warning, the equation then reads with the old ones. -/
theorem C59_pair_false (p : Plot) (e : Ent) (hc : e.cls ∈ [.monoParam, .param]) (hp : p.Fits e.cls)
    (hb : e.body = ⟨true, p.bytes⟩) (i : Nat) (hi : i < 12) (hodd : i % 2 = 1) (q : PlotEq)
    (hq : q.tokens.length < 65536) (style color : UInt8) :
    ∃ e', setEquation i ⟨[style], [color], q.bytes⟩ e = ⟨.ok (), e', []⟩ ∧
      ∀ g g', (getEquations e)[i]? = some g → (getEquations e')[i]? = some g' →
        g'.style = g.style ∧ g'.color = g.color ∧ g'.body = q.bytes := by
  have hc' : e.cls ∈ plotClasses := (by decide : ∀ c ∈ [Cls.monoParam, .param], c ∈ plotClasses) _ hc
  have hsh : sharing e.cls = 2 := (by decide : ∀ c ∈ [Cls.monoParam, .param], sharing c = 2) _ hc
  have hn : equationCount e.cls = 12 :=
    (by decide : ∀ c ∈ [Cls.monoParam, .param], equationCount c = 12) _ hc
  have hfit := replace_fits hp i q hq style color
  refine ⟨_, setEquation_plot hc' hp hb (by omega) q style color, ?_⟩
  rw [getEquations_plot hc' hp (by rw [hb]),
    getEquations_plot (e := { e with body := ⟨true, (p.replace e.cls i q style color).bytes⟩ }) hc' hfit rfl,
    plotEquations_at, plotEquations_at, if_pos (by omega), if_pos (by simp only; omega)]
  intro g g' hg hg'
  have hno : ¬ i % sharing e.cls = 0 := by rw [hsh]; omega
  rw [← Option.some.inj hg, ← Option.some.inj hg']
  refine ⟨?_, ?_, ?_⟩
  · simp only [Plot.replace, if_neg hno]
  · simp only [plotColor, Plot.replace, if_neg hno]
    rcases p.tail with _ | t <;> rfl
  · simp only [Plot.replace, List.map_set, List.getD_eq_getElem?_getD]
    rw [List.getElem?_set_self (by simp [hp.eqs]; omega)]; rfl

/-- A parametric database with colours: equation `X2T` is replaced by the tokens of `T²`, dotted and in red;
then `Y2T`, whose style and colour are not taken. -/
def samplePlot : Plot where
  head := toLE 2 154 ++ List.replicate 86 0x00
  styles := [0, 1, 2, 3, 4, 5]
  eqs := (List.range 12).map fun k => ⟨UInt8.ofNat (3 + 32 * (k % 2)), List.replicate (k % 3) 0x54⟩
  tail := some ⟨[0x38, 0x34, 0x43], [10, 11, 12, 13, 14, 15], [1, 2, 3, 4, 5]⟩

def sampleParam : Ent :=
  ⟨.param, [0x0D, 0x00], [0x08], List.replicate 8 0x41, [0x00], [0x00], ⟨true, samplePlot.bytes⟩⟩

example :
    let e := (setEquation 2 ⟨[6], [16], (PlotEq.mk 0x23 [0x54, 0x0D]).bytes⟩ sampleParam).st
    let e' := (setEquation 3 ⟨[7], [17], (PlotEq.mk 0x23 [0x54]).bytes⟩ e).st
    (getEquations sampleParam).map GEq.style = [[0], [0], [1], [1], [2], [2], [3], [3], [4], [4], [5], [5]] ∧
    (getEquations e')[2]? = some ⟨[6], [16], [0x23, 2, 0, 0x54, 0x0D]⟩ ∧
    (getEquations e')[3]? = some ⟨[6], [16], [0x23, 1, 0, 0x54]⟩ ∧
    (getEquations e').drop 4 = (getEquations sampleParam).drop 4 ∧
    e'.body.bytes.take 88 = sampleParam.body.bytes.take 88 := by decide +kernel

/-! ### C60 – the length field of a graph database -/

theorem length_plot (p : Plot) {c : Cls} (hp : p.Fits c) (i : Nat) (q : PlotEq) (old : PlotEq)
    (ho : p.eqs[i]? = some old) (style color : UInt8) :
    (p.replace c i q style color).bytes.length + old.tokens.length = p.bytes.length + q.tokens.length := by
  have hi : i < p.eqs.length := by
    rcases Nat.lt_or_ge i p.eqs.length with h | h
    · exact h
    · rw [List.getElem?_eq_none h] at ho; exact absurd ho (by simp)
  have hold : p.eqs[i] = old := by rw [List.getElem?_eq_getElem hi] at ho; exact Option.some.inj ho
  have hst : (p.replace c i q style color).styles.length = p.styles.length := by
    simp only [Plot.replace]; split <;> simp
  have htl : (tailBytes (p.replace c i q style color).tail).length = (tailBytes p.tail).length := by
    rcases ht : p.tail with _ | t
    · simp [Plot.replace, ht]
    · have := (hp.tail t ht).1
      simp only [Plot.replace, ht, tailBytes, ColorPart.bytes, List.length_append, List.length_cons, List.length_nil]
      split <;> simp <;> omega
  have hset : p.eqs.set i q = p.eqs.take i ++ q :: p.eqs.drop (i + 1) := by
    rw [List.set_eq_take_append_cons_drop, if_pos hi]
  have hsplit : p.eqs = p.eqs.take i ++ old :: p.eqs.drop (i + 1) := by
    rw [← hold, ← List.drop_eq_getElem_cons hi, List.take_append_drop]
  have hq : ((p.eqs.set i q).flatMap PlotEq.bytes).length + old.tokens.length =
      (p.eqs.flatMap PlotEq.bytes).length + q.tokens.length := by
    rw [hset]
    conv => rhs; rw [hsplit]
    simp only [List.flatMap_append, List.flatMap_cons, List.length_append, PlotEq.bytes, List.length_cons,
      length_toLE]
    omega
  simp only [Plot.bytes, List.length_append, hst, htl]
  rw [show (p.replace c i q style color).eqs = p.eqs.set i q from rfl,
    show (p.replace c i q style color).head = p.head from rfl]
  omega

/-- C60 is false of the code: replacing an equation by one with another number of tokens leaves the length
field of the database as it was. -/
theorem C60_length_false (p : Plot) (e : Ent) (hc : e.cls ∈ plotClasses) (hp : p.Fits e.cls)
    (hb : e.body = ⟨true, p.bytes⟩) (i : Nat) (q old : PlotEq) (ho : p.eqs[i]? = some old)
    (hne : q.tokens.length ≠ old.tokens.length) (hs : InStep e) (style color : UInt8) :
    ∃ e', setEquation i ⟨[style], [color], q.bytes⟩ e = ⟨.ok (), e', []⟩ ∧ ¬ InStep e' := by
  have hi : i < equationCount e.cls := by
    rw [← hp.eqs]
    rcases Nat.lt_or_ge i p.eqs.length with h | h
    · exact h
    · rw [List.getElem?_eq_none h] at ho; exact absurd ho (by simp)
  refine ⟨_, setEquation_plot hc hp hb hi q style color, ?_⟩
  have hl := length_plot p hp i q old ho style color
  have hh : 2 ≤ p.head.length := by rw [hp.head]; exact head_two hc
  have ht : ∀ r : Plot, r.head = p.head → r.bytes.take 2 = p.head.take 2 := by
    intro r hr
    simp only [Plot.bytes, hr, List.append_assoc]
    rw [List.take_append_of_le_length hh]
  rintro ⟨h1, h2⟩
  obtain ⟨h3, h4⟩ := hs
  simp only [hb] at h1 h2 h3 h4
  rw [ht (p.replace e.cls i q style color) rfl, List.length_drop] at h2
  rw [ht p rfl, List.length_drop] at h4
  omega

/-- C60, the part that holds: the length field stays in step if the new equation has as many tokens as the
old one. Missing: other equations, see `C60_length_false`. -/
theorem C60_length_partial (p : Plot) (e : Ent) (hc : e.cls ∈ plotClasses) (hp : p.Fits e.cls)
    (hb : e.body = ⟨true, p.bytes⟩) (i : Nat) (q old : PlotEq) (ho : p.eqs[i]? = some old)
    (heq : q.tokens.length = old.tokens.length) (hs : InStep e) (style color : UInt8) :
    ∃ e', setEquation i ⟨[style], [color], q.bytes⟩ e = ⟨.ok (), e', []⟩ ∧ InStep e' := by
  have hi : i < equationCount e.cls := by
    rw [← hp.eqs]
    rcases Nat.lt_or_ge i p.eqs.length with h | h
    · exact h
    · rw [List.getElem?_eq_none h] at ho; exact absurd ho (by simp)
  refine ⟨_, setEquation_plot hc hp hb hi q style color, ?_⟩
  have hl := length_plot p hp i q old ho style color
  have hh : 2 ≤ p.head.length := by rw [hp.head]; exact head_two hc
  have ht : ∀ r : Plot, r.head = p.head → r.bytes.take 2 = p.head.take 2 := by
    intro r hr
    simp only [Plot.bytes, hr, List.append_assoc]
    rw [List.take_append_of_le_length hh]
  obtain ⟨h3, h4⟩ := hs
  simp only [hb] at h3 h4
  rw [ht p rfl, List.length_drop] at h4
  refine ⟨by simp only; omega, ?_⟩
  simp only
  rw [ht (p.replace e.cls i q style color) rfl, List.length_drop]
  omega

/-- The sample database is in step; after replacing `X2T` by two more tokens it is two bytes too long. -/
example :
    let e := (setEquation 3 ⟨[6], [16], (PlotEq.mk 0x23 [0x54, 0x0D]).bytes⟩ sampleParam).st
    InStep sampleParam ∧ ¬ InStep e ∧ fromLE (e.body.bytes.take 2) + 4 = e.body.bytes.length := by
  decide +kernel

/-! ### C61 – a fresh graphed equation -/

/-- C61 is false of the code: a new equation has a length of one but no token, so that storing it into a
database takes the flags of the following equation as its token; all further equations are displaced. -/
theorem C61_fresh_false :
    freshEquation = ⟨[0x00], [0x00], [0x03, 0x01, 0x00]⟩ ∧ freshEquation.data ≠ [] ∧
    ∃ e', setEquation 1 freshEquation sampleParam = ⟨.ok (), e', []⟩ ∧
      ((getEquations e')[1]?).map GEq.body = some [0x03, 0x01, 0x00, 0x03] ∧
      ∀ k, 1 < k → k < 12 → ((getEquations e')[k]?).map GEq.body ≠ ((getEquations sampleParam)[k]?).map GEq.body := by
  refine ⟨by decide +kernel, by decide +kernel, _, rfl, by decide +kernel, ?_⟩
  have : ∀ k < 12, 1 < k → ((getEquations (setEquation 1 freshEquation sampleParam).st)[k]?).map GEq.body ≠
    ((getEquations sampleParam)[k]?).map GEq.body := by decide +kernel
  exact fun k h1 h2 => this k h2 h1

/-- C61, the part that holds: once an equation of any length has been loaded into it, also an empty one, a new
equation is selected, has the tokens of that equation, and can be stored into any database without disturbing
the others. Missing: equations nothing has been loaded into, see `C61_fresh_false`. -/
theorem C61_fresh_partial (src : Ent) (hs : InStep src) (hlen : src.body.bytes.length < 65538) :
    loadEquation freshEquation src = ⟨[0x00], [0x00], (PlotEq.mk 0x03 (src.body.bytes.drop 2)).bytes⟩ ∧
    ∀ (p : Plot) (e : Ent) (i : Nat), e.cls ∈ plotClasses → p.Fits e.cls → e.body = ⟨true, p.bytes⟩ →
      i < equationCount e.cls →
      ∃ e', setEquation i (loadEquation freshEquation src) e = ⟨.ok (), e', []⟩ ∧
        ∀ k, ((getEquations e')[k]?).map GEq.body = if k = i then
          some ([0x03] ++ src.body.bytes) else ((getEquations e)[k]?).map GEq.body := by
  have hload : loadEquation freshEquation src =
      ⟨[0x00], [0x00], (PlotEq.mk 0x03 (src.body.bytes.drop 2)).bytes⟩ := by
    have hf : freshEquation = ⟨[0x00], [0x00], [0x03, 0x01, 0x00]⟩ := by decide +kernel
    obtain ⟨h1, h2⟩ := hs
    have hb : src.body.bytes = toLE 2 (src.body.bytes.drop 2).length ++ src.body.bytes.drop 2 := by
      rw [← h2]
      have : (src.body.bytes.take 2).length = 2 := by simp; omega
      conv => lhs; rw [← List.take_append_drop 2 src.body.bytes]
      congr 1
      have h := toLE_fromLE (src.body.bytes.take 2)
      rw [this] at h
      exact h.symm
    unfold loadEquation PlotEq.bytes
    rw [hf]
    simp only [GEq.mk.injEq, true_and]
    conv => lhs; rw [hb]
    rfl
  have hbody : (PlotEq.mk 0x03 (src.body.bytes.drop 2)).bytes = [0x03] ++ src.body.bytes := by
    have h := congrArg GEq.body hload
    simp only at h
    rw [← h]
    have hf : freshEquation = ⟨[0x00], [0x00], [0x03, 0x01, 0x00]⟩ := by decide +kernel
    simp [loadEquation, hf]
  refine ⟨hload, fun p e i hc hp hb hi => ?_⟩
  have hq : (PlotEq.mk 0x03 (src.body.bytes.drop 2)).tokens.length < 65536 := by simp; omega
  have hfit := replace_fits hp i _ hq 0x00 0x00
  rw [hload]
  refine ⟨_, setEquation_plot hc hp hb hi _ 0x00 0x00, fun k => ?_⟩
  rw [getEquations_plot hc hp (by rw [hb]),
    getEquations_plot (e := { e with body := ⟨true, (p.replace e.cls i _ 0x00 0x00).bytes⟩ }) hc hfit rfl,
    plotEquations_at, plotEquations_at]
  by_cases hki : k = i
  · rw [if_pos hki, hki, if_pos hi]
    simp only [Option.map_some, Plot.replace, List.map_set, List.getD_eq_getElem?_getD]
    rw [List.getElem?_set_self (by simp [hp.eqs]; exact hi), ← hbody]; rfl
  · rw [if_neg hki]
    by_cases hk : k < equationCount e.cls
    · rw [if_pos hk, if_pos hk]
      simp only [Option.map_some, Plot.replace, List.map_set, List.getD_eq_getElem?_getD]
      rw [List.getElem?_set_ne (fun h => hki h.symm)]
    · rw [if_neg hk, if_neg hk]

/-- The empty equation and an equation of two tokens loaded into a new graphed equation. -/
example :
    let src : Bytes → Ent := fun d => ⟨.equation, [0x0D, 0x00], [0x03], List.replicate 8 0x41, [0], [0], ⟨true, d⟩⟩
    InStep (src [0, 0]) ∧ (loadEquation freshEquation (src [0, 0])).body = [0x03, 0, 0] ∧
    (loadEquation freshEquation (src [2, 0, 0x58, 0x0D])).body = [0x03, 2, 0, 0x58, 0x0D] := by decide +kernel

/-! ### C73 – numbers and equations of a graph database do not disturb each other -/

/-- C73: storing a number leaves all the equations with their styles and colours, and the colour settings,
as they were. -/
theorem C73_number (num : Ent → Except PyErr (Int × Bool)) (p : Plot) (e v : Ent) (i : Nat) (name : String)
    (hc : e.cls ∈ plotClasses) (hp : p.Fits e.cls) (hb : e.body = ⟨true, p.bytes⟩)
    (hi : (fieldNames e.cls)[i]? = some name) (hv : v.body.bytes.length = 9) :
    getEquations (setField num name.toList v e).st = getEquations e ∧
    (setField num name.toList v e).st.colorData = e.colorData := by
  have hcg : e.cls ∈ settingsClasses ++ gdbClasses :=
    (by decide : ∀ c ∈ plotClasses, c ∈ settingsClasses ++ gdbClasses) _ hc
  have hil : i < (fieldNames e.cls).length := by
    rcases Nat.lt_or_ge i (fieldNames e.cls).length with h | h
    · exact h
    · rw [List.getElem?_eq_none h] at hi; exact absurd hi (by simp)
  have hhead := hp.head
  have hle : fieldStart e.cls i + 9 ≤ p.head.length := by
    rw [hhead]; simp only [fieldStart]; omega
  have hbl : p.head.length ≤ p.bytes.length := by simp [Plot.bytes]
  rcases setField_step num e v i name hcg hi (by rw [hb]) (by rw [hb]; simp only; omega) hv with ⟨-, h⟩ | ⟨-, h⟩
  · rw [h]; exact ⟨rfl, rfl⟩
  · rw [h]
    obtain ⟨n, hn⟩ : ∃ n, n = p.head.take (fieldStart e.cls i) ++ v.body.bytes ++
        p.head.drop (fieldStart e.cls i + 9) := ⟨_, rfl⟩
    have hsp : e.body.bytes.take (fieldStart e.cls i) ++ v.body.bytes ++
        e.body.bytes.drop (fieldStart e.cls i + 9) = ({ p with head := n } : Plot).bytes := by
      rw [hb, hn]
      simp only [Plot.bytes, List.append_assoc]
      rw [List.take_append_of_le_length (by omega), List.drop_append_of_le_length (by omega)]
    rw [hsp]
    have hfit : ({ p with head := n } : Plot).Fits e.cls :=
      ⟨by rw [← hhead, hn]; simp [hv]; omega, hp.styles, hp.eqs, hp.tokens, hp.tail⟩
    refine ⟨?_, ?_⟩
    · rw [getEquations_plot hc hp (by rw [hb]), getEquations_plot (e := { e with body := ⟨true, ({ p with head := n } : Plot).bytes⟩ }) hc hfit rfl]
      rfl
    · rw [colorData_plot hc hp (by rw [hb]), colorData_plot (e := { e with body := ⟨true, ({ p with head := n } : Plot).bytes⟩ }) hc hfit rfl]

/-- C73: replacing an equation leaves all the numbers, and the modes before them, as they were. -/
theorem C73_equation (p : Plot) (e : Ent) (hc : e.cls ∈ plotClasses) (hp : p.Fits e.cls)
    (hb : e.body = ⟨true, p.bytes⟩) (i : Nat) (hi : i < equationCount e.cls) (q : PlotEq) (style color : UInt8)
    (j : Nat) (hj : j < (fieldNames e.cls).length) :
    fieldBytes e.cls j (setEquation i ⟨[style], [color], q.bytes⟩ e).st.body.bytes =
      fieldBytes e.cls j e.body.bytes ∧
    (setEquation i ⟨[style], [color], q.bytes⟩ e).st.body.bytes.take (firstField e.cls) =
      e.body.bytes.take (firstField e.cls) := by
  rw [setEquation_plot hc hp hb hi q style color, hb]
  have hhead := hp.head
  have hle : fieldStart e.cls j + 9 ≤ p.head.length := by
    rw [hhead]; simp only [fieldStart]; omega
  have hfirst : firstField e.cls ≤ p.head.length := by
    simp only [fieldStart] at hle; omega
  have hh : (p.replace e.cls i q style color).head = p.head := rfl
  refine ⟨?_, ?_⟩
  · simp only [fieldBytes, Plot.bytes, hh, List.append_assoc]
    rw [List.drop_append_of_le_length (by omega), List.drop_append_of_le_length (by omega),
      List.take_append_of_le_length (by simp; omega), List.take_append_of_le_length (by simp; omega)]
  · simp only [Plot.bytes, hh, List.append_assoc]
    rw [List.take_append_of_le_length hfirst, List.take_append_of_le_length hfirst]

/-- `Xmin` and `Tstep` of the sample database around the replacement of an equation. -/
example :
    let x : Ent := ⟨.real, [0x0D, 0x00], [0], List.replicate 8 0x41, [0], [0],
      ⟨true, [0x00, 0x80, 0x25, 0, 0, 0, 0, 0, 0]⟩⟩
    let num : Ent → Except PyErr (Int × Bool) := fun _ => .ok (2, false)
    let e := (setField num "Tstep".toList x sampleParam).st
    let e' := (setEquation 0 ⟨[6], [16], (PlotEq.mk 0x23 [0x54, 0x0D]).bytes⟩ e).st
    getEquations e = getEquations sampleParam ∧ e.body ≠ sampleParam.body ∧
    fieldBytes .param 8 e'.body.bytes = x.body.bytes := by decide +kernel

end Verif
