import Verif.Proofs.GdbEq

/-! Helper lemmas for the dictionaries written for graph databases. -/

namespace Verif
open Spec
namespace Ent
variable {V : Type} [LinearOrder V]

/-- The classes whose dictionaries can load back. -/
def backClasses : List Cls := [.func, .param, .polar]

theorem back_plot {c : Cls} (h : c ∈ backClasses) : c ∈ plotClasses :=
  (by decide : ∀ c ∈ backClasses, c ∈ plotClasses) c h

theorem back_colored {c : Cls} (h : c ∈ backClasses) : colored c = true :=
  (by decide : ∀ c ∈ backClasses, colored c = true) c h

/-! ### Format -/

/-- The format settings of a byte. -/
def formatNames (n : Nat) : List Str :=
  match (formatOut (flagsGet [UInt8.ofNat n]) ()).res with
  | .ok l => l
  | .error _ => []

theorem formatOut_table : ∀ n : Nat, n < 256 →
    formatOut (flagsGet [UInt8.ofNat n]) () = ⟨.ok (formatNames n), (), []⟩ ∧
    (∀ s ∈ formatNames n, ∃ f ∈ formatBits, s = f.1.toList) ∧
    (n < 128 → ∀ k < 8, formatBit k (formatNames n) false = n.testBit k) := by decide +kernel

/-! ### Reading the bytes of modes and colours -/

theorem flags_head {p : Plot} {e : Ent} (hc : e.cls ∈ plotClasses) (hp : p.Fits e.cls) {k : Nat} (hk : k < 7) :
    viewGet (flagsViewAt (k : Int) (some ((k + 1 : Nat) : Int))) (onPlot e p) = .ok (flagsGet [p.head.getD k 0]) := by
  have h61 := length_plot_head hc hp
  have hkh : k < p.head.length := by omega
  have hkl := head_lt p hkh
  have hb : (flagsViewAt (k : Int) (some ((k + 1 : Nat) : Int))).slice.bounds p.bytes.length = (k, k + 1) :=
    bounds_nat (by omega) (by omega)
  show wrapIndexError (flagsConv.get (getSlice p.bytes _)) = _
  rw [getSlice_one hkl hb, head_get p hkh hkl, List.getD_eq_getElem?_getD, List.getElem?_eq_getElem hkh]
  rfl

theorem settings_get {α : Type} {v : View α} {p : Plot} {t : ColorPart} {e : Ent} {j : Nat}
    (hs : ∀ n, 5 ≤ n → v.slice.bounds n = (n - 5 + j, n - 5 + j + 1)) (hj : j < 5) (ht : t.settings.length = 5) :
    viewGet v (onPlot e (withTail p t)) = wrapIndexError (v.conv.get [t.settings.getD j 0]) := by
  have hlen : (withTail p t).bytes.length = (beforeSettings p t).length + 5 := by
    rw [withTail_bytes, List.length_append, ht]
  have hk : (beforeSettings p t).length + j < (withTail p t).bytes.length := by omega
  have hb := hs (withTail p t).bytes.length (by omega)
  rw [hlen, Nat.add_sub_cancel, ← hlen] at hb
  have hget : (withTail p t).bytes[(beforeSettings p t).length + j] = t.settings.getD j 0 := by
    simp only [withTail_bytes]
    rw [List.getElem_append_right (by omega), List.getD_eq_getElem?_getD, List.getElem?_eq_getElem (by omega)]
    simp
  show wrapIndexError (v.conv.get (getSlice (withTail p t).bytes _)) = _
  rw [getSlice_one hk hb, hget]

/-- The colours in the dictionary. -/
def colorOf (g a l b d : UInt8) : ColorDict :=
  ⟨some ((graphColors[g.toNat]?).map String.toList), some ((graphColors[a.toNat]?).map String.toList),
    some (b.toNat : Int), some ((lineStyles[l.toNat]?).map String.toList), some (d.toNat.testBit 0 == false)⟩

theorem colorsOut_run {p : Plot} {t : ColorPart} {e : Ent} {g a l b d : UInt8} (ht : t.settings = [g, a, l, b, d]) :
    colorsOut (onPlot e (withTail p t)) () = ⟨.ok (colorOf g a l b d), (), []⟩ := by
  have h5 : t.settings.length = 5 := by rw [ht]; rfl
  have hlast : ∀ n, 5 ≤ n → colorFlagsView.slice.bounds n = (n - 5 + 4, n - 5 + 4 + 1) := by
    intro n hn
    rw [show colorFlagsView.slice.bounds n = _ from bounds_last (n := n) (by omega)]
    congr 1 <;> omega
  have hg : viewGet gridView (onPlot e (withTail p t)) = .ok (g.toNat : Int) := by
    rw [settings_get (j := 0) (bounds_five (j := 0) (by omega)) (by omega) h5, ht]; rfl
  have ha : viewGet axesView (onPlot e (withTail p t)) = .ok (a.toNat : Int) := by
    rw [settings_get (j := 1) (bounds_five (j := 1) (by omega)) (by omega) h5, ht]; rfl
  have hl : viewGet lineView (onPlot e (withTail p t)) = .ok (l.toNat : Int) := by
    rw [settings_get (j := 2) (bounds_five (j := 2) (by omega)) (by omega) h5, ht]; rfl
  have hb : viewGet borderView (onPlot e (withTail p t)) = .ok (b.toNat : Int) := by
    rw [settings_get (j := 3) (bounds_five (j := 3) (by omega)) (by omega) h5, ht]; rfl
  have hd : viewGet colorFlagsView (onPlot e (withTail p t)) = .ok (flagsGet [d]) := by
    rw [settings_get (j := 4) hlast (by omega) h5, ht]; rfl
  unfold colorsOut
  simp only [hg, ha, hl, hb, hd, flagsContains_byte d (show 0 < 8 by omega), PyM.bind_run, PyM.ofExcept_run,
    PyM.pure_run, color_name _ (show g.toNat < 256 from g.toNat_lt), color_name _ (show a.toNat < 256 from a.toNat_lt),
    line_name _ (show l.toNat < 256 from l.toNat_lt), colorOf]
  simp

/-! ### Numbers -/

/-- The numbers in the dictionary. -/
def numbersOf {J : Type} (js : String → J) (names : List String) : List (Str × J) :=
  names.map fun n => (n.toList, js n)

theorem keys_table : ∀ c ∈ backClasses,
    windowKeys = ((fieldNames c).take 6).map (fun n => (n.toList, n.toList, decide (n = "Xres"))) ∧
    numberKeys c = ((fieldNames c).drop 6).map (fun n => (n.toList, n.toList, decide (n = "Xres"))) := by
  decide +kernel

theorem numbersOut_run (env : Env V) (nm : Bytes) {J : Type} {io : NumIO J} {val : J → Ent} {js : String → J} {p : Plot}
    {e : Ent} (hc : e.cls ∈ plotClasses) (hp : p.Fits e.cls)
    (hnum : ∀ (i : Nat) (n : String), (fieldNames e.cls)[i]? = some n →
      ∃ x, Carried io val (n = "Xres") x (js n) ∧ fieldBytes e.cls i p.head = x.body.bytes)
    {names : List String} (hn : ∀ n ∈ names, n ∈ fieldNames e.cls) :
    mapW (numberOut env nm io (onPlot e p)) (names.map fun n => (n.toList, n.toList, decide (n = "Xres"))) () =
      ⟨.ok (numbersOf js names), (), []⟩ := by
  induction names with
  | nil => rfl
  | cons n names ih =>
    obtain ⟨i, hi⟩ := List.mem_iff_getElem?.mp (hn n (by simp))
    obtain ⟨x, hx, hf⟩ := hnum i n hi
    obtain ⟨y, hy, hsame⟩ := C58_read env nm (onPlot e p) x i n (plot_gdb hc) hi hx.elem
      (by rw [← hf]; exact fieldBytes_head hp hi)
    have hout := hx.out y hsame
    have h1 : numberOut env nm io (onPlot e p) (n.toList, n.toList, decide (n = "Xres")) () =
        ⟨.ok (n.toList, js n), (), []⟩ := by
      unfold numberOut
      rw [PyM.bind_ok hy, hout, PyM.bind_ok (PyM.ofExcept_run _ _)]
      rfl
    simp only [List.map_cons, mapW]
    rw [PyM.bind_ok h1, PyM.bind_ok (ih fun m hm => hn m (by simp [hm]))]
    rfl

theorem lastFor_numbers {J : Type} (js : String → J) {names : List String} {n : String} (h : n ∈ names) :
    lastFor n.toList (numbersOf js names) = some (js n) := by
  induction names with
  | nil => cases h
  | cons m names ih =>
    simp only [numbersOf, List.map_cons, lastFor]
    by_cases hmem : n ∈ names
    · rw [show lastFor n.toList (names.map fun n => (n.toList, js n)) = some (js n) from ih hmem]
      rfl
    · have hm : n = m := by
        rcases List.mem_cons.mp h with h | h
        · exact h
        · exact absurd h hmem
      subst hm
      have : lastFor n.toList (names.map fun n => (n.toList, js n)) = none := by
        clear ih h
        induction names with
        | nil => rfl
        | cons k names ih =>
          simp only [List.map_cons, lastFor]
          rw [ih fun h => hmem (by simp [h]), if_neg]
          · rfl
          · intro hk
            exact hmem (by simp [String.toList_inj.mp hk])
      rw [this]
      simp

/-! ### Equations -/

/-- The dictionary of an equation without tokens. -/
def emptyDict (g : GEq) : EqDict :=
  ⟨some ((graphStyles[(g.style.headD 0).toNat]?).map String.toList),
    if g.color.headD 0 = 0x00 then none else some ((graphColors[(g.color.headD 0).toNat]?).map String.toList),
    some ⟨some ((g.body.headD 0).toNat.testBit 5), some ((g.body.headD 0).toNat.testBit 6),
      some ((g.body.headD 0).toNat.testBit 7)⟩, some []⟩

theorem empty_bytes (fl : UInt8) : (PlotEq.mk fl []).bytes = [fl, 0, 0] := by simp [PlotEq.bytes, toLE]

theorem lastFor_zip {α : Type} {names : List Str} (hnd : names.Nodup) (vs : List α) {i : Nat} {k : Str} {v : α}
    (hi : names[i]? = some k) (hv : vs[i]? = some v) : lastFor k (names.zip vs) = some v := by
  induction names generalizing vs i with
  | nil => simp at hi
  | cons n names ih =>
    rcases vs with _ | ⟨w, vs⟩
    · simp at hv
    · simp only [List.zip_cons_cons, lastFor]
      rcases i with _ | i
      · simp only [List.getElem?_cons_zero, Option.some.injEq] at hi hv
        subst hi hv
        have : ∀ (l : List Str) (us : List α), n ∉ l → lastFor n (l.zip us) = none := by
          intro l
          induction l with
          | nil => intros; rfl
          | cons m l ihl =>
            intro us hm
            rcases us with _ | ⟨u, us⟩
            · rfl
            · simp only [List.zip_cons_cons, lastFor]
              rw [ihl us fun h => hm (by simp [h]), if_neg fun h => hm (by simp [h])]
              rfl
        rw [this names vs (List.nodup_cons.mp hnd).1]
        simp
      · simp only [List.getElem?_cons_succ] at hi hv
        rw [ih (List.nodup_cons.mp hnd).2 vs hi hv]
        rfl

theorem names_table : ∀ c ∈ plotClasses, equationNames c = (curveNames c).map String.toList ∧
    (equationNames c).Nodup ∧ (curveNames c).length = equationCount c := by decide +kernel

/-! ### The whole dictionary -/

/-- The dictionary of a database. -/
def dictOf {J : Type} (c : Cls) (p : Plot) (js : String → J) (cd : ColorDict) : GdbDict J where
  mode := some (some (plotMode c).1.toList)
  format := formatNames (p.head.getD 4 0).toNat
  showExpr := some ((p.head.getD 6 0).toNat.testBit 0 == false)
  extSeq := none
  seqSettings := none
  seqMode := none
  window := numbersOf js ((fieldNames c).take 6)
  settings := numbersOf js ((fieldNames c).drop 6)
  equations := (equationNames c).zip ((plotEquations p c).map emptyDict)
  color := some cd

theorem back_sub : ∀ c ∈ backClasses, c.isSub .monoSeq = false ∧ c.isSub .gdb = true := by decide

theorem gdbDict_run (env : Env V) (nm : Bytes) {J : Type} {io : NumIO J} {val : J → Ent} {js : String → J} {p : Plot}
    {e : Ent} (hc : e.cls ∈ backClasses) (hp : PlainPlot e.cls p)
    (hnum : ∀ (i : Nat) (n : String), (fieldNames e.cls)[i]? = some n →
      ∃ x, Carried io val (n = "Xres") x (js n) ∧ fieldBytes e.cls i p.head = x.body.bytes)
    {t : ColorPart} (ht : p.tail = some t) {g a l b d : UInt8} (hset : t.settings = [g, a, l, b, d]) :
    gdbDict env nm io (onPlot e p) () = ⟨.ok (dictOf e.cls p js (colorOf g a l b d)), (), []⟩ := by
  have hc' := back_plot hc
  have hfit := hp.fits
  obtain ⟨hs1, hs2⟩ := back_sub _ hc
  have h3 : p.head.getD 3 0 = (plotMode e.cls).2 := by
    have := congrArg (fun l => l.getD 3 0) hp.start
    simp only [List.getD_eq_getElem?_getD, List.getElem?_take, show 3 < 4 by omega, if_true] at this
    rw [List.getD_eq_getElem?_getD, this]
    simp [toLE]
  have hmode : modeName (onPlot e p) () = ⟨.ok (some (plotMode e.cls).1.toList), (), []⟩ := by
    have hid := modeId_plot hc' hfit
    rw [h3] at hid
    unfold modeName
    rw [hid]
    revert hc
    generalize e.cls = c
    intro hc
    exact (by decide +kernel : ∀ c ∈ backClasses, (if ((plotMode c).2.toNat = 0x10) then
      (pure (some "Function".toList) : PyM Unit (Option Str)) else if (plotMode c).2.toNat = 0x40 then
      pure (some "Parametric".toList) else if (plotMode c).2.toNat = 0x20 then pure (some "Polar".toList) else
      if (plotMode c).2.toNat = 0x80 then pure (some "Sequence".toList) else do
        PyM.warn .gdbMode
        pure none) () = ⟨.ok (some (plotMode c).1.toList), (), []⟩) c hc
  have hformat := (formatOut_table (p.head.getD 4 0).toNat (show _ < 256 from (p.head.getD 4 0).toNat_lt)).1
  rw [UInt8.ofNat_toNat] at hformat
  have hf4 : viewGet modeFlagsView (onPlot e p) = .ok (flagsGet [p.head.getD 4 0]) :=
    flags_head (k := 4) hc' hfit (by omega)
  have hf6 : viewGet extFlagsView (onPlot e p) = .ok (flagsGet [p.head.getD 6 0]) :=
    flags_head (k := 6) hc' hfit (by omega)
  have hwin := numbersOut_run env nm hc' hfit hnum (names := (fieldNames e.cls).take 6) fun n h => List.mem_of_mem_take h
  have hsetn := numbersOut_run env nm hc' hfit hnum (names := (fieldNames e.cls).drop 6) fun n h => List.mem_of_mem_drop h
  obtain ⟨hk1, hk2⟩ := keys_table _ hc
  rw [← hk1] at hwin
  rw [← hk2] at hsetn
  have heqs : mapW (GEq.dict env) (getEquations (onPlot e p)) () =
      ⟨.ok ((plotEquations p e.cls).map emptyDict), (), []⟩ := by
    rw [getEquations_plot (e := onPlot e p) hc' hfit rfl]
    refine mapW_ok emptyDict _ ?_
    intro q hq
    obtain ⟨k, hk⟩ := List.mem_iff_getElem?.mp hq
    rw [plotEquations_at] at hk
    split at hk
    · next hlt =>
      have hlt' : k < p.eqs.length := by rw [hfit.eqs]; exact hlt
      obtain ⟨htok, -⟩ := hp.eqs p.eqs[k] (List.getElem_mem hlt')
      obtain ⟨fl, htk⟩ : ∃ fl, p.eqs[k] = ⟨fl, []⟩ := ⟨p.eqs[k].flags, by rw [← htok]⟩
      have hb : (p.eqs.map PlotEq.bytes).getD k [] = [fl, 0, 0] := by
        rw [List.getD_eq_getElem?_getD, List.getElem?_map, List.getElem?_eq_getElem hlt', htk]
        simp [empty_bytes]
      rw [hb] at hk
      obtain rfl := Option.some.inj hk
      rw [eqDict_run]
      rfl
    · cases hk
  have hcol : colorsOut (onPlot e p) () = ⟨.ok (colorOf g a l b d), (), []⟩ := by
    have := colorsOut_run (p := p) (e := e) hset
    rwa [show withTail p t = p by rw [withTail, ← ht]] at this
  unfold gdbDict
  rw [PyM.bind_ok hmode, hf4, PyM.bind_ok (PyM.ofExcept_run _ _), PyM.bind_ok hformat, hf6,
    PyM.bind_ok (PyM.ofExcept_run _ _), flagsContains_byte _ (show 0 < 8 by omega),
    PyM.bind_ok (PyM.ofExcept_run _ _), PyM.bind_ok hwin]
  have hcls : (onPlot e p).cls = e.cls := rfl
  simp only [hcls, hs1, hs2, if_true, Bool.false_eq_true, if_false]
  rw [PyM.bind_ok (PyM.pure_run _ _), PyM.bind_ok (PyM.pure_run _ _), PyM.bind_ok hsetn, PyM.bind_ok heqs,
    PyM.bind_ok hcol]
  rfl

end Ent
end Verif
