import Verif.Proofs.GdbWhole

/-! Helper lemmas for loading dictionaries into graph databases: the whole. -/

namespace Verif
open Spec
namespace Ent
variable {V : Type} [LinearOrder V]

theorem lastFor_append {α : Type} (key : Str) (xs ys : List (Str × α)) :
    lastFor key (xs ++ ys) = (lastFor key ys).or (lastFor key xs) := by
  induction xs with
  | nil => simp [lastFor]
  | cons kv xs ih =>
    obtain ⟨k, v⟩ := kv
    simp only [List.cons_append, lastFor, ih, Option.or_assoc]

theorem drop_set_lt {α : Type} (l : List α) {k n : Nat} (h : k < n) (a : α) : (l.set k a).drop n = l.drop n := by
  apply List.ext_getElem? 
  intro i
  rw [List.getElem?_drop, List.getElem?_drop, List.getElem?_set_ne (by omega)]

theorem fieldBytes_set {c : Cls} (hc : c ∈ plotClasses) (h : Bytes) {k : Nat} (hk : k < 7) (b : UInt8) (i : Nat) :
    fieldBytes c i (h.set k b) = fieldBytes c i h := by
  have h7 : firstField c = 7 := (by decide : ∀ c ∈ plotClasses, firstField c = 7) _ hc
  unfold fieldBytes fieldStart
  rw [drop_set_lt _ (by omega)]

theorem getD_set_ne {l : Bytes} {j k : Nat} (h : k ≠ j) (a : UInt8) : (l.set k a).getD j 0 = l.getD j 0 := by
  simp only [List.getD_eq_getElem?_getD, List.getElem?_set_ne h]

theorem getD_set_self {l : Bytes} {k : Nat} (h : k < l.length) (a : UInt8) : (l.set k a).getD k 0 = a := by
  simp [List.getD_eq_getElem?_getD, h]

theorem getD_of_take {l m : Bytes} (h : l.take 7 = m.take 7) {k : Nat} (hk : k < 7) : l.getD k 0 = m.getD k 0 := by
  have := congrArg (fun x => x[k]?) h
  simp only [List.getElem?_take, hk, if_true] at this
  rw [List.getD_eq_getElem?_getD, List.getD_eq_getElem?_getD, this]

theorem mode_table : ∀ c ∈ plotClasses, modeByte (some (some (plotMode c).1.toList)) = (plotMode c).2 ∧
    ((plotMode c).1 = "Sequence" → (plotMode c).2 = 0x80) := by decide +kernel

theorem blank_head (c : Cls) (m : UInt8) : (blankPlot c m).head.take 4 = toLE 2 (emptySize c) ++ [0x00, m] ∧
    (blankPlot c m).head.drop 7 = List.replicate (9 * (fieldNames c).length) 0x00 ∧
    (blankPlot c m).head.getD 4 0 = 0 ∧ (blankPlot c m).head.getD 5 0 = 0 ∧ (blankPlot c m).head.getD 6 0 = 0 ∧
    (blankPlot c m).head.getD 3 0 = m := by
  simp only [blankPlot, toLE, List.append_assoc]
  exact ⟨rfl, rfl, rfl, rfl, rfl, rfl⟩

theorem putShowExpr_run {p : Plot} {e : Ent} (hc : e.cls ∈ plotClasses) (hp : p.Fits e.cls)
    (h6 : p.head.getD 6 0 = 0) (se : Option Bool) :
    putShowExpr se (onPlot e p) = ⟨.ok (), onPlot e { p with head := p.head.set 6 (extByte se none) }, []⟩ := by
  rcases se with _ | b
  · rw [head_self (by have := length_plot_head hc hp; omega) (b := extByte none none) (by rw [h6]; rfl)]
    rfl
  · exact orExt_run hc hp h6 (show_table b) (by simp)

theorem checkSequence_run {J : Type} {d : GdbDict J} {e e' : Ent} (hc : e.cls ∈ plotClasses) (hd : KnownGdb e.cls d)
    (hs : d.seqSettings ≠ none → (plotMode e.cls).1 = "Sequence") : checkSequence d e' = ⟨.ok (), e', []⟩ := by
  obtain ⟨h1, h2⟩ := mode_table _ hc
  unfold checkSequence
  rw [if_neg]
  · rfl
  · rintro ⟨h3, h4⟩
    rw [hd.mode, h1] at h3
    rcases h4 with h | h
    · obtain ⟨s, hx⟩ := Option.ne_none_iff_exists'.mp h
      exact h3 (h2 (hd.form s hx).1)
    · exact h3 (h2 (hs h))

theorem known_form {J : Type} {c : Cls} {d : GdbDict J} (hd : KnownGdb c d) : KnownGdb c { d with extSeq := none } :=
  ⟨hd.mode, hd.format, by simp, hd.numbers, hd.curves, hd.colors⟩

/-- The class after the settings of colours are looked for. -/
theorem class_run (env : Env V) {J : Type} {d : GdbDict J} {p : Plot} {e : Ent} (hc : e.cls ∈ plotClasses)
    (hd : ∀ cd, d.color = some cd → colored e.cls = true) (hp : p.Fits e.cls)
    (hm : p.head.getD 3 0 = (plotMode e.cls).2) (ht : p.tail.isSome = colored e.cls) {f : Unit → PyM Ent Unit} :
    (do widenClass d; let u ← coerce env; f u : PyM Ent Unit) (onPlot e p) = f () (onPlot e p) := by
  unfold widenClass
  rcases hcol : d.color with _ | cd
  · rw [if_neg (by simp), PyM.bind_ok (show (pure () : PyM Ent Unit) (onPlot e p) = ⟨.ok (), onPlot e p, []⟩ from rfl),
      PyM.bind_ok (coerce_plot env hc hp hm ht)]
    rfl
  · rw [if_pos (by simp), PyM.bind_ok (show setClass .gdb (onPlot e p) = ⟨.ok (), { onPlot e p with cls := .gdb }, []⟩
        from rfl), PyM.bind_ok (coerce_color env hc hp hm (hd cd hcol))]
    rfl

/-- Everything up to the parts that depend on the class, whatever warnings the settings of sequences give. -/
theorem begin_run (env : Env V) (nm : Bytes) {J : Type} {io : NumIO J} {eq : Str → PyM Unit Ent} {d : GdbDict J}
    {e : Ent} {val : J → Ent} {tok : Str → Bytes} {ws : Str → List Warn} (hc : e.cls ∈ plotClasses)
    (hd : KnownGdb e.cls { d with extSeq := none }) {wq : List Warn}
    (hq : ∀ e', checkSequence d e' = ⟨.ok (), e', wq⟩)
    (hnum : ∀ kv ∈ d.window ++ d.settings, Converts io val kv.2)
    (heq : ∀ kv ∈ d.equations, ∀ t, kv.2.expr = some t → Parses eq tok ws t) :
    ∃ p5 : Plot, loadGdbDict env nm io eq d e =
        ⟨(loadSpecific d (onPlot e p5)).res, (loadSpecific d (onPlot e p5)).st,
          wq ++ (d.window ++ d.settings).flatMap (numberWarns io val) ++
          (d.equations.flatMap fun kv => ws (kv.2.expr.getD [])) ++ (loadSpecific d (onPlot e p5)).warns⟩ ∧
      p5.Fits e.cls ∧ p5.head.getD 6 0 = extByte d.showExpr none ∧ p5.tail.isSome = colored e.cls ∧
      (∀ t, p5.tail = some t → t.settings = [0, 0, 0, 0, 0]) ∧
      p5.head.take 4 = toLE 2 (emptySize e.cls) ++ [0x00, (plotMode e.cls).2] ∧
      (∀ k < 8, ((p5.head.getD 4 0).toNat.testBit k) = formatBit k d.format false) ∧
      p5.head.getD 5 0 = 0 ∧
      (∀ (i : Nat) (n : String), (fieldNames e.cls)[i]? = some n → fieldBytes e.cls i p5.head =
        ((lastFor n.toList (d.window ++ d.settings)).map fun j => (val j).body.bytes).getD (List.replicate 9 0)) ∧
      (∀ (i : Nat) (n : String), (curveNames e.cls)[i]? = some n →
        p5.eqs[i]? = some (((lastFor n.toList d.equations).map (saidCurve tok)).getD ⟨0x00, []⟩)) ∧
      (∀ (i : Nat) (n : String), (curveNames e.cls)[i * sharing e.cls]? = some n →
        p5.styles[i]? = some (((lastFor n.toList d.equations).map fun q => codeIn graphStyles q.style).getD 0x00)) ∧
      (∀ t, p5.tail = some t → ∀ (i : Nat) (n : String), (curveNames e.cls)[i * sharing e.cls]? = some n →
        t.colors[i]? = some (((lastFor n.toList d.equations).map fun q => codeIn graphColors q.color).getD 0x00)) := by
  obtain ⟨hmode, -⟩ := mode_table _ hc
  rw [← hd.mode] at hmode
  obtain ⟨b0, hb0⟩ : ∃ b0, b0 = blankPlot e.cls (plotMode e.cls).2 := ⟨_, rfl⟩
  have hfit0 : b0.Fits e.cls := by rw [hb0]; exact blank_fits hc _
  obtain ⟨bh1, bh2, bh4, bh5, bh6, bh3⟩ := blank_head e.cls (plotMode e.cls).2
  rw [← hb0] at bh1 bh2 bh3 bh4 bh5 bh6
  have hlen0 := length_plot_head hc hfit0
  -- formats
  obtain ⟨b4, f1, f2⟩ := formats_run hc d.format hd.format b0 hfit0
  obtain ⟨p1, hp1⟩ : ∃ p1, p1 = ({ b0 with head := b0.head.set 4 b4 } : Plot) := ⟨_, rfl⟩
  rw [← hp1] at f1
  have hfit1 : p1.Fits e.cls := by rw [hp1]; exact head_fits hfit0 (by simp)
  have p1h : p1.head = b0.head.set 4 b4 := by rw [hp1]
  -- showExpr
  have g1 := putShowExpr_run hc hfit1 (by rw [p1h, getD_set_ne (by omega), bh6]) d.showExpr
  obtain ⟨p2, hp2⟩ : ∃ p2, p2 = ({ p1 with head := p1.head.set 6 (extByte d.showExpr none) } : Plot) := ⟨_, rfl⟩
  rw [← hp2] at g1
  have hfit2 : p2.Fits e.cls := by rw [hp2]; exact head_fits hfit1 (by simp)
  have p2h : p2.head = (b0.head.set 4 b4).set 6 (extByte d.showExpr none) := by rw [hp2, p1h]
  have p2d : p2.head.drop 7 = List.replicate (9 * (fieldNames e.cls).length) 0x00 := by
    rw [p2h, drop_set_lt _ (by omega), drop_set_lt _ (by omega), bh2]
  have hzero := zero_fields hc p2d
  have hreals : HoldsReals e.cls p2.head := fun i n hi =>
    ⟨zeroEnt, zero_real, by rw [hzero i n hi]; rfl⟩
  -- numbers
  obtain ⟨hw, n1, n2, n3, n4, n5⟩ := numbers_run env nm (io := io) (val := val) hc d.window
    (fun kv h => ⟨hd.numbers kv (List.mem_append_left _ h), hnum kv (List.mem_append_left _ h)⟩) p2 hfit2 hreals
  have hfit3 := head_fits hfit2 n2
  obtain ⟨hv, m1, m2, m3, m4, m5⟩ := numbers_run env nm (io := io) (val := val) hc d.settings
    (fun kv h => ⟨hd.numbers kv (List.mem_append_right _ h), hnum kv (List.mem_append_right _ h)⟩) _ hfit3 n4
  have hfit4 := head_fits hfit3 m2
  simp only at m1 m2 m3 m5 hfit4
  -- equations
  obtain ⟨p5, q1, q2, q3, q4, q5, q6, q7, q8⟩ := equations_run hc d.equations
    (fun kv h => ⟨hd.curves kv h, heq kv h⟩) _ hfit4
  simp only at q3 q4 q5 q6 q7 q8
  have htake : p5.head.take 7 = p2.head.take 7 := by rw [q3, m3, n3]
  have htail2 : p2.tail = b0.tail := by rw [hp2, hp1]
  have hst2 : p2.styles = b0.styles ∧ p2.eqs = b0.eqs := by rw [hp2, hp1]; exact ⟨rfl, rfl⟩
  have h5len := length_plot_head hc q2
  have h53 : p5.head.getD 3 0 = (plotMode e.cls).2 := by
    rw [getD_of_take htake (by omega), p2h, getD_set_ne (by omega), getD_set_ne (by omega), bh3]
  have h56 : p5.head.getD 6 0 = extByte d.showExpr none := by
    rw [getD_of_take htake (by omega), p2h, getD_set_self (by simp; omega)]
  have hb0t : b0.tail = if colored e.cls then some ⟨[0, 0, 0], List.replicate (styleCount e.cls) 0x00, [0, 0, 0, 0, 0]⟩
      else none := by rw [hb0]; rfl
  have h5t : p5.tail.isSome = colored e.cls := by
    rw [q4, htail2, hb0t]
    cases colored e.cls <;> rfl
  have h5z : ∀ t, p5.tail = some t → t.settings = [0, 0, 0, 0, 0] := by
    intro t ht
    have hcol : colored e.cls = true := by rw [← h5t, ht]; rfl
    have : tailSettings p5 = [0, 0, 0, 0, 0] := by
      rw [q5]
      simp only [tailSettings, htail2, hb0t, hcol, if_true]
    simpa only [tailSettings, ht] using this
  refine ⟨p5, ?_, q2, h56, h5t, h5z, ?_, ?_, ?_, ?_, ?_, ?_, ?_⟩
  · unfold loadGdbDict
    rw [clear_run hc, hmode, ← hb0, PyM.bind_ok f1, PyM.bind_ok g1, PyM.bind_ok (hq _),
      PyM.bind_ok n1, PyM.bind_ok m1, PyM.bind_ok q1, class_run env (d := d) hc (fun cd h => (hd.colors cd h).1) q2 h53 h5t]
    simp
  · rw [← bh1]
    have h4 := congrArg (List.take 4) htake
    simp only [List.take_take, p2h] at h4
    rw [show min 4 7 = 4 from rfl] at h4
    rw [h4, List.take_set_of_le (by omega), List.take_set_of_le (by omega)]
  · intro k hk
    rw [getD_of_take htake (by omega), p2h, getD_set_ne (by omega), getD_set_self (by omega), f2 k hk, bh4]
    simp
  · rw [getD_of_take htake (by omega), p2h, getD_set_ne (by omega), getD_set_ne (by omega), bh5]
  · intro i n hi
    rw [q3, m5 i n hi, n5 i n hi, hzero i n hi, lastFor_append]
    rcases lastFor n.toList d.settings with _ | j <;> simp
  · intro i n hi
    have hlt := (curve_index hc hi).1
    rw [q6 i n hi, hst2.2, hb0]
    simp only [blankPlot, List.getElem?_replicate, hlt, if_true]
    rcases lastFor n.toList d.equations with _ | q <;> simp
  · intro i n hi
    have hlt := (curve_index hc hi).1
    obtain ⟨-, -, -, -, hsh, hcount, -⟩ := plot_counts hc
    have hlt' : i < styleCount e.cls := by
      rw [hcount] at hlt
      exact Nat.lt_of_mul_lt_mul_right hlt
    rw [q7 i n hi, hst2.1, hb0]
    simp only [blankPlot, List.getElem?_replicate, hlt', if_true]
    rcases lastFor n.toList d.equations with _ | q <;> simp
  · intro t ht i n hi
    have h : colored e.cls = true := by rw [← h5t, ht]; rfl
    have hlt := (curve_index hc hi).1
    obtain ⟨-, -, -, -, hsh, hcount, -⟩ := plot_counts hc
    have hlt' : i < styleCount e.cls := by
      rw [hcount] at hlt
      exact Nat.lt_of_mul_lt_mul_right hlt
    have h8 := q8 i n hi (by rw [htail2, hb0t, h]; rfl)
    simp only [tailColors, ht, htail2, hb0t, h, if_true, List.getElem?_replicate, hlt'] at h8
    rw [h8]
    rcases lastFor n.toList d.equations with _ | q <;> simp

/-- Everything up to the parts that depend on the class. -/
theorem start_run (env : Env V) (nm : Bytes) {J : Type} {io : NumIO J} {eq : Str → PyM Unit Ent} {d : GdbDict J}
    {e : Ent} {val : J → Ent} {tok : Str → Bytes} {ws : Str → List Warn} (hc : e.cls ∈ plotClasses)
    (hd : KnownGdb e.cls d) (hs : d.seqSettings ≠ none → (plotMode e.cls).1 = "Sequence")
    (hnum : ∀ kv ∈ d.window ++ d.settings, Converts io val kv.2)
    (heq : ∀ kv ∈ d.equations, ∀ t, kv.2.expr = some t → Parses eq tok ws t) :
    ∃ p5 : Plot, loadGdbDict env nm io eq d e =
        ⟨(loadSpecific d (onPlot e p5)).res, (loadSpecific d (onPlot e p5)).st,
          (d.window ++ d.settings).flatMap (numberWarns io val) ++
          (d.equations.flatMap fun kv => ws (kv.2.expr.getD [])) ++ (loadSpecific d (onPlot e p5)).warns⟩ ∧
      p5.Fits e.cls ∧ p5.head.getD 6 0 = extByte d.showExpr none ∧ p5.tail.isSome = colored e.cls ∧
      (∀ t, p5.tail = some t → t.settings = [0, 0, 0, 0, 0]) ∧
      p5.head.take 4 = toLE 2 (emptySize e.cls) ++ [0x00, (plotMode e.cls).2] ∧
      (∀ k < 8, ((p5.head.getD 4 0).toNat.testBit k) = formatBit k d.format false) ∧
      p5.head.getD 5 0 = 0 ∧
      (∀ (i : Nat) (n : String), (fieldNames e.cls)[i]? = some n → fieldBytes e.cls i p5.head =
        ((lastFor n.toList (d.window ++ d.settings)).map fun j => (val j).body.bytes).getD (List.replicate 9 0)) ∧
      (∀ (i : Nat) (n : String), (curveNames e.cls)[i]? = some n →
        p5.eqs[i]? = some (((lastFor n.toList d.equations).map (saidCurve tok)).getD ⟨0x00, []⟩)) ∧
      (∀ (i : Nat) (n : String), (curveNames e.cls)[i * sharing e.cls]? = some n →
        p5.styles[i]? = some (((lastFor n.toList d.equations).map fun q => codeIn graphStyles q.style).getD 0x00)) ∧
      (∀ t, p5.tail = some t → ∀ (i : Nat) (n : String), (curveNames e.cls)[i * sharing e.cls]? = some n →
        t.colors[i]? = some (((lastFor n.toList d.equations).map fun q => codeIn graphColors q.color).getD 0x00)) := by
  have h := begin_run env nm hc (known_form hd) (fun e' => checkSequence_run (e' := e') hc hd hs) hnum heq
  rwa [List.nil_append] at h

/-- The database a dictionary describes, and the warnings due, when its settings of sequences `x`, `q` are the ones that
count. -/
theorem whole_run (env : Env V) (nm : Bytes) {J : Type} {io : NumIO J} {eq : Str → PyM Unit Ent} {d : GdbDict J}
    {e : Ent} {val : J → Ent} {tok : Str → Bytes} {ws : Str → List Warn} (hc : e.cls ∈ plotClasses)
    {x q : Option Str} (hd : KnownGdb e.cls { d with extSeq := x, seqSettings := q })
    (hs : KnownSeq e.cls { d with extSeq := x, seqSettings := q }) {wq : List Warn}
    (hq : ∀ e', checkSequence d e' = ⟨.ok (), e', wq⟩)
    (hsp : ∀ p, loadSpecific d (onPlot e p) = loadSpecific { d with extSeq := x, seqSettings := q } (onPlot e p))
    (hnum : ∀ kv ∈ d.window ++ d.settings, Converts io val kv.2)
    (heq : ∀ kv ∈ d.equations, ∀ t, kv.2.expr = some t → Parses eq tok ws t) :
    ∃ p, loadGdbDict env nm io eq d e = ⟨.ok (), onPlot e p,
        wq ++ (d.window ++ d.settings).flatMap (numberWarns io val) ++
          d.equations.flatMap fun kv => ws (kv.2.expr.getD [])⟩ ∧
      Says e.cls { d with extSeq := x, seqSettings := q } (fun j => (val j).body.bytes) tok p := by
  obtain ⟨p, hrun, hfit, h6, ht, hz, htake, hformat, h5, hnumbers, hcurves, hstyles, hcolors⟩ :=
    begin_run env nm hc ⟨hd.mode, hd.format, by simp, hd.numbers, hd.curves, hd.colors⟩ hq hnum heq
  have hlen := length_plot_head hc hfit
  rw [hsp, loadSpecific_run hd hs hc hfit h6 h5 ht hz] at hrun
  refine ⟨⟨(p.head.set 6 (extByte d.showExpr x)).set 5 (seqByte q d.seqMode), p.styles, p.eqs,
      p.tail.map fun t => ⟨[0x38, 0x34, 0x43], t.colors, colorBytes d.color⟩⟩, ?_, ?_⟩
  · rw [hrun, List.append_nil]
  · refine ⟨⟨by simpa using hfit.head, hfit.styles, hfit.eqs, hfit.tokens, ?_⟩, ?_, ?_, ?_, ?_, ?_, hcurves, hstyles,
      ?_, ?_⟩
    · intro t ht
      rcases hpt : p.tail with _ | t5
      · rw [hpt] at ht; simp at ht
      · simp only [hpt, Option.map_some, Option.some.injEq] at ht
        rw [← ht]
        refine ⟨rfl, (hfit.tail t5 hpt).2.1, ?_⟩
        rcases d.color with _ | cd <;> rfl
    · simp only
      rw [List.take_set_of_le (by omega), List.take_set_of_le (by omega), htake]
    · intro k hk
      simp only
      rw [getD_set_ne (by omega), getD_set_ne (by omega), hformat k hk]
    · simp only
      rw [getD_set_self (by simp; omega)]
    · simp only
      rw [getD_set_ne (by omega), getD_set_self (by omega)]
    · intro i n hi
      simp only
      rw [fieldBytes_set hc _ (by omega), fieldBytes_set hc _ (by omega), hnumbers i n hi]
    · intro h
      rw [h] at ht
      have : p.tail = none := by simpa using ht
      simp [this]
    · intro h
      rw [h] at ht
      obtain ⟨t, ht⟩ := Option.isSome_iff_exists.mp ht
      exact ⟨⟨[0x38, 0x34, 0x43], t.colors, colorBytes d.color⟩, by simp only [ht, Option.map_some], rfl, rfl,
        hcolors t ht⟩

/-- The database a dictionary describes, and the warnings due. -/
theorem loadGdbDict_run (env : Env V) (nm : Bytes) {J : Type} {io : NumIO J} {eq : Str → PyM Unit Ent} {d : GdbDict J}
    {e : Ent} {val : J → Ent} {tok : Str → Bytes} {ws : Str → List Warn} (hc : e.cls ∈ plotClasses)
    (hd : KnownGdb e.cls d) (hs : KnownSeq e.cls d)
    (hnum : ∀ kv ∈ d.window ++ d.settings, Converts io val kv.2)
    (heq : ∀ kv ∈ d.equations, ∀ t, kv.2.expr = some t → Parses eq tok ws t) :
    ∃ p, loadGdbDict env nm io eq d e = ⟨.ok (), onPlot e p,
        (d.window ++ d.settings).flatMap (numberWarns io val) ++
          d.equations.flatMap fun kv => ws (kv.2.expr.getD [])⟩ ∧
      Says e.cls d (fun j => (val j).body.bytes) tok p := by
  have h := whole_run env nm (x := d.extSeq) (q := d.seqSettings) hc hd hs
    (fun e' => checkSequence_run (e' := e') hc hd fun h => (hs h).1) (fun _ => rfl) hnum heq
  rwa [List.nil_append] at h

end Ent
end Verif
