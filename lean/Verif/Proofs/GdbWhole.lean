import Verif.Proofs.GdbColor

/-! Helper lemmas for loading dictionaries into graph databases: the parts that depend on the class. -/

namespace Verif
open Spec
namespace Ent
variable {V : Type} [LinearOrder V]

/-! ### The magic and the settings of colours -/

theorem magic_table : ∀ c ∈ plotClasses, colored c = true →
    ∃ a b : Nat, magicView c = some (View.mk' none strConv { start := some (-a : Int), stop := some (-b : Int) }) ∧
      b = styleCount c + 5 ∧ a = b + 3 ∧
      viewLength none { start := some (-a : Int), stop := some (-b : Int) } = some 3 := by
  intro c hc
  simp only [plotClasses, List.mem_cons, List.not_mem_nil, or_false] at hc
  rcases hc with rfl | rfl | rfl | rfl | rfl | rfl | rfl | rfl <;> intro h
  · exact absurd h (by decide)
  · exact ⟨18, 15, rfl, rfl, rfl, by decide⟩
  · exact absurd h (by decide)
  · exact ⟨14, 11, rfl, rfl, rfl, by decide⟩
  · exact absurd h (by decide)
  · exact ⟨14, 11, rfl, rfl, rfl, by decide⟩
  · exact absurd h (by decide)
  · exact ⟨11, 8, rfl, rfl, rfl, by decide⟩

theorem magic_put {p : Plot} {t : ColorPart} {e : Ent} {v : View Str} (hc : e.cls ∈ plotClasses)
    (hcol : colored e.cls = true) (h1 : t.magic.length = 3) (h2 : t.colors.length = styleCount e.cls)
    (h3 : t.settings.length = 5) (hv : magicView e.cls = some v) :
    viewPut v "84C".toList (onPlot e (withTail p t)) =
      ⟨.ok (), onPlot e (withTail p { t with magic := [0x38, 0x34, 0x43] }), []⟩ := by
  obtain ⟨a, b, hv', hb, ha, hvl⟩ := magic_table _ hc hcol
  obtain rfl : View.mk' none strConv { start := some (-a : Int), stop := some (-b : Int) } = v := by
    rw [hv'] at hv; exact Option.some.inj hv
  obtain ⟨pre, hpre⟩ : ∃ pre, pre = p.head ++ p.styles ++ p.eqs.flatMap PlotEq.bytes := ⟨_, rfl⟩
  have hbytes : (withTail p t).bytes = pre ++ t.magic ++ (t.colors ++ t.settings) := by
    rw [withTail_bytes, beforeSettings, hpre]; simp
  have hbytes' : (withTail p { t with magic := [0x38, 0x34, 0x43] }).bytes =
      pre ++ [0x38, 0x34, 0x43] ++ (t.colors ++ t.settings) := by
    rw [withTail_bytes, beforeSettings, hpre]; simp
  have hlen : (withTail p t).bytes.length = pre.length + 3 + b := by
    rw [hbytes]; simp only [List.length_append, h1, h2, h3]; omega
  have hbd : ({ start := some (-a : Int), stop := some (-b : Int) } : Slice).bounds (withTail p t).bytes.length =
      (pre.length, pre.length + 3) := by
    rw [bounds_neg (by omega) (by omega) (by omega), hlen]
    congr 1 <;> omega
  have hput : setSlice (withTail p t).bytes { start := some (-a : Int), stop := some (-b : Int) } [0x38, 0x34, 0x43] =
      (withTail p { t with magic := [0x38, 0x34, 0x43] }).bytes := by
    unfold setSlice
    rw [hbd, hbytes, hbytes']
    simp [h1]
  refine viewPut_ok ?_
  have hraw : setRaw strConv (some 3) (getSlice (withTail p t).bytes { start := some (-a : Int), stop := some (-b : Int) })
      "84C".toList () = ⟨.ok [0x38, 0x34, 0x43], (), []⟩ := by
    unfold setRaw
    rw [PyM.bind_ok (a := [0x38, 0x34, 0x43]) (s' := ()) (w := []) (by show PyM.ofExcept (latin1Encode _) () = _; decide +kernel),
      fitWidth_eq (n := 3) (x := [0x38, 0x34, 0x43]) rfl]
    rfl
  rw [← hvl] at hraw
  rw [show (onPlot e (withTail p t)).body = ⟨true, (withTail p t).bytes⟩ from rfl,
    view_put_ok (v := View.mk' none strConv { start := some (-a : Int), stop := some (-b : Int) }) hraw, ← hput]
  rfl

theorem putEnum_run {names : List (Str × Int)} {known : List String} {v : View Int} {start stop : Int}
    (hv : v = enumViewAt names start stop) (hl : v.length = some 1)
    (htab : ∀ n ∈ known, ∃ v ∈ names.map Prod.snd, names.lookup n.toList = some v ∧
      v = ((known.map String.toList).idxOf n.toList : Nat) ∧ (known.map String.toList).idxOf n.toList < 256)
    {x : Option (Option Str)} (hx : x ≠ none → NamedIn known x) {p : Plot} {t : ColorPart} {e : Ent} {j : Nat}
    (hs : ∀ n, 5 ≤ n → v.slice.bounds n = (n - 5 + j, n - 5 + j + 1)) (hj : j < 5) (ht : t.settings.length = 5)
    (h0 : t.settings.getD j 0 = 0) :
    putEnum names v x (onPlot e (withTail p t)) =
      ⟨.ok (), onPlot e (withTail p { t with settings := t.settings.set j (codeIn known x) }), []⟩ := by
  rcases x with _ | s
  · have : t.settings.set j (codeIn known none) = t.settings := by
      rw [show codeIn known none = t.settings.getD j 0 by rw [h0]; rfl, List.getD_eq_getElem?_getD,
        List.getElem?_eq_getElem (by omega)]
      exact List.set_getElem_self _
    rw [this]
    rfl
  · obtain ⟨n, hn, hx⟩ := hx (by simp)
    obtain rfl := Option.some.inj hx
    obtain ⟨w, hw, hlook, hval, hlt⟩ := htab n hn
    have hattr : getAttr names (some n.toList) = .ok w := by
      simp only [getAttr, hlook]
    unfold putEnum
    simp only [hattr]
    rw [PyM.bind_ok (PyM.ofExcept_run _ _), settings_put (j := j) (b := codeIn known (some (some n.toList))) hl hs hj ht]
    · rfl
    · subst hv
      show (enumConv (names.map Prod.snd)).set w (some 1) _ () = _
      exact enumConv_set hw hval hlt _

theorem border_code : ∀ n : Nat, n < 4 → ∃ v ∈ borderColors, pyIndex borderColors n = .ok v ∧ v = ((n + 1 : Nat) : Int) := by
  decide +kernel

theorem bounds_five {j : Nat} (hj : j < 4) (n : Nat) (hn : 5 ≤ n) :
    ({ start := some (-(5 - j : Nat) : Int), stop := some (-(4 - j : Nat) : Int) } : Slice).bounds n =
      (n - 5 + j, n - 5 + j + 1) := by
  rw [bounds_neg (by omega) (by omega) (by omega)]
  congr 1 <;> omega

theorem putBorder_run {x : Option Int} (hx : ∀ n, x = some n → 1 ≤ n ∧ n ≤ 4) {p : Plot} {t : ColorPart} {e : Ent}
    (ht : t.settings.length = 5) (h0 : t.settings.getD 3 0 = 0) :
    putBorder x (onPlot e (withTail p t)) =
      ⟨.ok (), onPlot e (withTail p { t with settings := t.settings.set 3 (UInt8.ofNat (x.getD 0).toNat) }), []⟩ := by
  rcases x with _ | n
  · have : t.settings.set 3 (UInt8.ofNat ((none : Option Int).getD 0).toNat) = t.settings := by
      rw [show UInt8.ofNat ((none : Option Int).getD 0).toNat = t.settings.getD 3 0 by rw [h0]; rfl,
        List.getD_eq_getElem?_getD, List.getElem?_eq_getElem (by omega)]
      exact List.set_getElem_self _
    rw [this]
    rfl
  · obtain ⟨h1, h4⟩ := hx n rfl
    obtain ⟨k, rfl⟩ : ∃ k : Nat, n = (k : Int) + 1 := ⟨(n - 1).toNat, by omega⟩
    obtain ⟨v, hv, hi, hval⟩ := border_code k (by omega)
    unfold putBorder
    simp only [Int.add_sub_cancel, hi]
    rw [PyM.bind_ok (PyM.ofExcept_run _ _),
      settings_put (j := 3) (b := UInt8.ofNat (k + 1)) (by decide) (bounds_five (j := 3) (by omega)) (by omega) ht]
    · rfl
    · exact enumConv_set hv hval (by omega) _

theorem putDetect_run {x : Option Bool} {p : Plot} {t : ColorPart} {e : Ent}
    (ht : t.settings.length = 5) (h0 : t.settings.getD 4 0 = 0) :
    putDetect x (onPlot e (withTail p t)) = ⟨.ok (), onPlot e (withTail p { t with
      settings := t.settings.set 4 (if x = some false then 1 else 0) }), []⟩ := by
  rcases x with _ | b
  · have : t.settings.set 4 (if (none : Option Bool) = some false then 1 else 0) = t.settings := by
      rw [show (if (none : Option Bool) = some false then (1 : UInt8) else 0) = t.settings.getD 4 0 by rw [h0]; rfl,
        List.getD_eq_getElem?_getD, List.getElem?_eq_getElem (by omega)]
      exact List.set_getElem_self _
    rw [this]
    rfl
  · unfold putDetect
    rw [settings_flags (b := if some b = some false then 1 else 0) ht]
    rw [h0]
    exact (by decide +kernel : ∀ b : Bool, flagsSet (flagsUpdate (flagsGet [0]) [(0, !b)]) =
      .ok [if some b = some false then 1 else 0]) b

/-- Loading the colours into a database whose settings of colours are zero. -/
theorem loadColors_run {d : Option ColorDict} (hd : ∀ cd, d = some cd → KnownColors cd) {p : Plot} {t : ColorPart}
    {e : Ent} (hc : e.cls ∈ plotClasses) (hcol : colored e.cls = true) (h1 : t.magic.length = 3)
    (h2 : t.colors.length = styleCount e.cls) (h3 : t.settings = [0, 0, 0, 0, 0]) :
    loadColors d (onPlot e (withTail p t)) =
      ⟨.ok (), onPlot e (withTail p ⟨[0x38, 0x34, 0x43], t.colors, colorBytes d⟩), []⟩ := by
  obtain ⟨a, b, hv, -⟩ := magic_table _ hc hcol
  have hm := magic_put (p := p) hc hcol h1 h2 (by rw [h3]; rfl) hv
  have hm' : putMagic (onPlot e (withTail p t)).cls (onPlot e (withTail p t)) =
      ⟨.ok (), onPlot e (withTail p { t with magic := [0x38, 0x34, 0x43] }), []⟩ := by
    rw [putMagic, show (onPlot e (withTail p t)).cls = e.cls from rfl, hv]
    exact hm
  unfold loadColors
  rw [PyM.bind_ok (PyM.get_run _), PyM.bind_ok hm', h3]
  rcases d with _ | d
  · rfl
  · obtain ⟨hg, ha, hl, hb⟩ := hd d rfl
    simp only
    rw [PyM.bind_ok (putEnum_run (v := gridView) (known := graphColors) (j := 0) rfl (by decide) colors_table hg
        (bounds_five (j := 0) (by omega)) (by omega) rfl rfl),
      PyM.bind_ok (putEnum_run (v := axesView) (known := graphColors) (j := 1) rfl (by decide) colors_table ha
        (bounds_five (j := 1) (by omega)) (by omega) rfl rfl),
      PyM.bind_ok (putBorder_run hb rfl rfl),
      PyM.bind_ok (putEnum_run (v := lineView) (known := lineStyles) (j := 2) rfl (by decide) lines_table hl
        (bounds_five (j := 2) (by omega)) (by omega) rfl rfl),
      putDetect_run rfl rfl]
    rfl

/-! ### Parametric and sequence databases -/

theorem eachM_silent {α : Type} {f : α → PyM Ent Unit} {e : Ent} (xs : List α)
    (h : ∀ x ∈ xs, f x e = ⟨.ok (), e, []⟩) : eachM f xs e = ⟨.ok (), e, []⟩ := by
  induction xs with
  | nil => rfl
  | cons x xs ih =>
    unfold eachM
    rw [PyM.bind_ok (h x (by simp)), ih (fun y hy => h y (List.mem_cons_of_mem _ hy))]
    rfl

theorem pyIndex_nat {α : Type} {l : List α} {k : Nat} {x : α} (h : l[k]? = some x) : pyIndex l (k : Int) = .ok x := by
  unfold pyIndex
  simp only [show ¬((k : Int) < 0) by omega, if_false, Int.toNat_natCast, h]

/-- The components of a curve always agree: they share their style and colour. -/
theorem loadComponents_run {p : Plot} {e : Ent} (hc : e.cls = .monoParam ∨ e.cls = .param) (hp : p.Fits e.cls) :
    loadComponents (onPlot e p) = ⟨.ok (), onPlot e p, []⟩ := by
  have hcls : e.cls ∈ plotClasses := by rcases hc with h | h <;> rw [h] <;> decide
  have hget : getEquations (onPlot e p) = plotEquations p e.cls := getEquations_plot hcls hp rfl
  have hsh : sharing e.cls = 2 := by rcases hc with h | h <;> rw [h] <;> rfl
  have hcount : equationCount e.cls = 12 := by rcases hc with h | h <;> rw [h] <;> rfl
  have hnum : (gdbCounts (onPlot e p).cls).2.2 = 6 := by
    show (gdbCounts e.cls).2.2 = 6
    rcases hc with h | h <;> rw [h] <;> rfl
  unfold loadComponents
  rw [PyM.bind_ok (PyM.get_run _), hnum, hget]
  rw [eachM_silent]
  · rfl
  intro i hi
  have hi6 : i < 6 := List.mem_range.mp hi
  have h0 := plotEquations_at p e.cls (2 * i)
  have h1 := plotEquations_at p e.cls (2 * i + 1)
  rw [if_pos (by omega), hsh] at h0 h1
  rw [show (2 * i + 1) / 2 = i by omega] at h1
  rw [show 2 * i / 2 = i by omega] at h0
  rw [pyIndex_nat h0, pyIndex_nat h1]
  simp only [wrapIndexError, PyM.bind_run, PyM.ofExcept_run, ne_eq, not_true_eq_false, if_false]
  rfl

/-- Setting the byte of extended settings to what it is. -/
theorem head_self {p : Plot} {k : Nat} (hk : k < p.head.length) {b : UInt8} (h : p.head.getD k 0 = b) :
    ({ p with head := p.head.set k b } : Plot) = p := by
  have : p.head.set k b = p.head := by
    rw [← h, List.getD_eq_getElem?_getD, List.getElem?_eq_getElem hk]
    exact List.set_getElem_self _
  rw [this]

theorem orExt_run {p : Plot} {e : Ent} (hc : e.cls ∈ plotClasses) (hp : p.Fits e.cls) {s : FlagItems} {a b : UInt8}
    (ha : p.head.getD 6 0 = a) (h : flagsSet (flagsUpdate (flagsGet [a]) s) = .ok [b]) (hs : ∀ kv ∈ s, kv.1 < 8) :
    orFlags extFlagsView s (onPlot e p) = ⟨.ok (), onPlot e { p with head := p.head.set 6 b }, []⟩ :=
  orFlags_value (k := 6) hc hp (by omega) (by rw [ha]; exact h) hs

theorem show_table : ∀ b : Bool, flagsSet (flagsUpdate (flagsGet [0x00]) [(0, !b)]) = .ok [extByte (some b) none] := by
  decide +kernel

theorem ext_tables : ∀ se ∈ [none, some false, some true],
    flagsSet (flagsUpdate (flagsGet [extByte se none]) [(1, false), (2, false)]) =
      .ok [extByte se (some "SEQ(n)".toList)] ∧
    flagsSet (flagsUpdate (flagsGet [extByte se none]) [(1, true), (2, false)]) =
      .ok [extByte se (some "SEQ(n+1)".toList)] ∧
    flagsSet (flagsUpdate (flagsGet [extByte se none]) [(1, false), (2, true)]) =
      .ok [extByte se (some "SEQ(n+2)".toList)] := by
  decide +kernel

/-- The form of sequences. -/
def putForm : Option Str → PyM Ent Unit
  | some s =>
    if s = "SEQ(n)".toList then orFlags extFlagsView [(1, false), (2, false)]
    else if s = "SEQ(n+1)".toList then orFlags extFlagsView [(1, true), (2, false)]
    else if s = "SEQ(n+2)".toList then orFlags extFlagsView [(1, false), (2, true)]
    else pure ()
  | none => pure ()

theorem putForm_run {form : Option Str} (hf : ∀ s, form = some s → ∃ n ∈ seqForms, s = n.toList) {p : Plot} {e : Ent}
    (hc : e.cls ∈ plotClasses) (hp : p.Fits e.cls) {se : Option Bool} (h6 : p.head.getD 6 0 = extByte se none) :
    putForm form (onPlot e p) = ⟨.ok (), onPlot e { p with head := p.head.set 6 (extByte se form) }, []⟩ := by
  have hse : se ∈ [none, some false, some true] := by
    rcases se with _ | b
    · simp
    · cases b <;> simp
  obtain ⟨t0, t1, t2⟩ := ext_tables se hse
  have hlen : 6 < p.head.length := by have := length_plot_head hc hp; omega
  unfold putForm
  rcases form with _ | s
  · rw [head_self hlen h6]
    rfl
  · obtain ⟨n, hn, rfl⟩ := hf s rfl
    simp only [seqForms, List.mem_cons, List.not_mem_nil, or_false] at hn
    rcases hn with rfl | rfl | rfl
    · simp only [if_true]
      exact orExt_run hc hp h6 t0 (by decide)
    · simp only [show ("SEQ(n+1)".toList = "SEQ(n)".toList) = False by decide, if_false, if_true]
      exact orExt_run hc hp h6 t1 (by decide)
    · simp only [show ("SEQ(n+2)".toList = "SEQ(n)".toList) = False by decide,
        show ("SEQ(n+2)".toList = "SEQ(n+1)".toList) = False by decide, if_false, if_true]
      exact orExt_run hc hp h6 t2 (by decide)

/-- The mode of sequences. -/
def putSeqMode (settings mode : Option Str) : PyM Ent Unit :=
  match settings with
  | some _ => do
    let s ← PyM.ofExcept (getKey mode)
    match seqModes.lookup s with
    | some f => orFlags seqFlagsView f
    | none => PyM.warn .gdbSeqMode
  | none => pure ()

theorem seq_table : ∀ m ∈ seqModeCodes, ∃ f, seqModes.lookup m.1.toList = some f ∧ (∀ kv ∈ f, kv.1 < 8) ∧
    flagsSet (flagsUpdate (flagsGet [0x00]) f) = .ok [m.2] ∧
    ((seqModeCodes.find? fun m' => some m'.1.toList = some m.1.toList).map Prod.snd).getD 0x00 = m.2 := by
  decide +kernel

theorem putSeqMode_run {settings mode : Option Str}
    (hm : settings ≠ none → ∃ m ∈ seqModeCodes, mode = some m.1.toList) {p : Plot} {e : Ent}
    (hc : e.cls ∈ plotClasses) (hp : p.Fits e.cls) (h5 : p.head.getD 5 0 = 0x00) :
    putSeqMode settings mode (onPlot e p) =
      ⟨.ok (), onPlot e { p with head := p.head.set 5 (seqByte settings mode) }, []⟩ := by
  have hlen : 5 < p.head.length := by have := length_plot_head hc hp; omega
  unfold putSeqMode
  rcases settings with _ | s
  · rw [head_self hlen (b := seqByte none mode) (by rw [h5]; rfl)]
    rfl
  · obtain ⟨m, hmem, rfl⟩ := hm (by simp)
    obtain ⟨f, hlook, hf, hset, hcode⟩ := seq_table m hmem
    simp only [getKey]
    rw [PyM.bind_ok (PyM.ofExcept_run _ _)]
    simp only [hlook]
    have := orFlags_value (e := e) (k := 5) hc hp (by omega) (by rw [h5]; exact hset) hf
    rw [show seqByte (some s) (some m.1.toList) = m.2 by
      unfold seqByte; rw [if_neg (by simp)]; exact hcode]
    rw [show orFlags seqFlagsView f (onPlot e p) = _ from this]
    rfl

theorem loadSequence_eq {J : Type} (d : GdbDict J) {e e' : Ent} (h : putForm d.extSeq e = ⟨.ok (), e', []⟩) :
    loadSequence d e = putSeqMode d.seqSettings d.seqMode e' := by
  unfold loadSequence
  rcases hx : d.extSeq with _ | s
  · rw [hx] at h
    have : e = e' := congrArg Out.st h
    rw [this]
    rfl
  · rw [hx] at h
    unfold putForm at h
    simp only at h ⊢
    split at h
    · next hs => rw [if_pos hs, PyM.bind_ok h]; rfl
    · next hs =>
      rw [if_neg hs]
      split at h
      · next hs => rw [if_pos hs, PyM.bind_ok h]; rfl
      · next hs =>
        rw [if_neg hs]
        split at h
        · next hs => rw [if_pos hs, PyM.bind_ok h]; rfl
        · next hs =>
          rw [if_neg hs]
          have : e = e' := congrArg Out.st h
          rw [this]
          rfl

theorem loadSequence_run {J : Type} {d : GdbDict J}
    (hm : d.seqSettings ≠ none → ∃ m ∈ seqModeCodes, d.seqMode = some m.1.toList)
    (hf : ∀ s, d.extSeq = some s → ∃ n ∈ seqForms, s = n.toList) {p : Plot} {e : Ent} (hc : e.cls ∈ plotClasses)
    (hp : p.Fits e.cls) {se : Option Bool} (h6 : p.head.getD 6 0 = extByte se none) (h5 : p.head.getD 5 0 = 0x00) :
    loadSequence d (onPlot e p) = ⟨.ok (), onPlot e { p with
      head := (p.head.set 6 (extByte se d.extSeq)).set 5 (seqByte d.seqSettings d.seqMode) }, []⟩ := by
  rw [loadSequence_eq d (putForm_run hf hc hp h6)]
  refine putSeqMode_run (p := { p with head := p.head.set 6 (extByte se d.extSeq) }) hm hc (head_fits hp (by simp)) ?_
  simp only [List.getD_eq_getElem?_getD] at h5 ⊢
  rw [List.getElem?_set_ne (by omega)]
  exact h5

/-- The parts that depend on the class. -/
theorem loadSpecific_run {J : Type} {d : GdbDict J} {p : Plot} {e : Ent} (hd : KnownGdb e.cls d)
    (hs : KnownSeq e.cls d) (hc : e.cls ∈ plotClasses) (hp : p.Fits e.cls) {se : Option Bool}
    (h6 : p.head.getD 6 0 = extByte se none) (h5 : p.head.getD 5 0 = 0x00) (ht : p.tail.isSome = colored e.cls)
    (hz : ∀ t, p.tail = some t → t.settings = [0, 0, 0, 0, 0]) :
    loadSpecific d (onPlot e p) = ⟨.ok (), onPlot e ⟨(p.head.set 6 (extByte se d.extSeq)).set 5
      (seqByte d.seqSettings d.seqMode), p.styles, p.eqs,
      p.tail.map fun t => ⟨[0x38, 0x34, 0x43], t.colors, colorBytes d.color⟩⟩, []⟩ := by
  have hlen : 6 < p.head.length := by have := length_plot_head hc hp; omega
  have hmono : colored e.cls = false → p.tail = none := by
    intro h; rw [h] at ht; simpa using ht
  have hother : (plotMode e.cls).1 ≠ "Sequence" →
      (p.head.set 6 (extByte se d.extSeq)).set 5 (seqByte d.seqSettings d.seqMode) = p.head := by
    intro h
    have : d.extSeq = none := by
      rcases hx : d.extSeq with _ | s
      · rfl
      · exact absurd (hd.form s hx).1 h
    have hnone : d.seqSettings = none := by
      rcases hx : d.seqSettings with _ | s
      · rfl
      · exact absurd (hs (by rw [hx]; simp)).1 h
    rw [this, hnone, show p.head.set 6 (extByte se none) = p.head from congrArg Plot.head (head_self hlen h6)]
    exact congrArg Plot.head (head_self (by omega) (b := seqByte none d.seqMode) (by rw [h5]; rfl))
  have hforms : ∀ s, d.extSeq = some s → ∃ n ∈ seqForms, s = n.toList := fun s h => (hd.form s h).2
  have hcolors : ∀ q : Plot, q.tail = p.tail → colored e.cls = true →
      loadColors d.color (onPlot e q) = ⟨.ok (), onPlot e { q with
        tail := p.tail.map fun t => ⟨[0x38, 0x34, 0x43], t.colors, colorBytes d.color⟩ }, []⟩ := by
    intro q hq hcol
    rw [hcol] at ht
    obtain ⟨t, hpt⟩ := Option.isSome_iff_exists.mp ht
    have hq' : q = withTail q t := by rw [withTail, ← hpt, ← hq]
    obtain ⟨t1, t2, t3⟩ := hp.tail t hpt
    rw [hq', loadColors_run (fun cd h => (hd.colors cd h).2) hc hcol t1 t2 (hz t hpt), hpt]
    rfl
  have hstay : (plotMode e.cls).1 ≠ "Sequence" → colored e.cls = false →
      (⟨(p.head.set 6 (extByte se d.extSeq)).set 5
      (seqByte d.seqSettings d.seqMode), p.styles, p.eqs,
        p.tail.map fun t => ⟨[0x38, 0x34, 0x43], t.colors, colorBytes d.color⟩⟩ : Plot) = p := by
    intro h1 h2
    rw [hother h1, hmono h2]
    simp only [Option.map_none]
    rw [← hmono h2]
  unfold loadSpecific
  rw [PyM.bind_ok (PyM.get_run _), show (onPlot e p).cls = e.cls from rfl]
  have hcls := hc
  simp only [plotClasses, List.mem_cons, List.not_mem_nil, or_false] at hcls
  rcases hcls with h | h | h | h | h | h | h | h
  · rw [hstay (by rw [h]; decide) (by rw [h]; rfl), h]
    rfl
  · rw [hother (by rw [h]; decide)]
    have := hcolors p rfl (by rw [h]; rfl)
    rw [h]
    simp only [this]
    rfl
  · have := loadComponents_run (.inl h) hp
    rw [hstay (by rw [h]; decide) (by rw [h]; rfl), h]
    simp only [this]
    rfl
  · have hcomp := loadComponents_run (.inr h) hp
    rw [hother (by rw [h]; decide)]
    have := hcolors p rfl (by rw [h]; rfl)
    rw [h]
    simp only [PyM.bind_run, hcomp, this]
    rfl
  · rw [hstay (by rw [h]; decide) (by rw [h]; rfl), h]
    rfl
  · rw [hother (by rw [h]; decide)]
    have := hcolors p rfl (by rw [h]; rfl)
    rw [h]
    simp only [this]
    rfl
  · have := loadSequence_run (fun h => (hs h).2) hforms hc hp h6 h5
    rw [show (p.tail.map fun t => (⟨[0x38, 0x34, 0x43], t.colors, colorBytes d.color⟩ : ColorPart)) = p.tail by
      rw [hmono (by rw [h]; rfl)]; rfl]
    rw [h]
    simp only [this]
    rfl
  · have hseq := loadSequence_run (fun h => (hs h).2) hforms hc hp h6 h5
    have := hcolors { p with head := (p.head.set 6 (extByte se d.extSeq)).set 5 (seqByte d.seqSettings d.seqMode) } rfl (by rw [h]; rfl)
    rw [h]
    simp only [PyM.bind_run, hseq, this]
    rfl

end Ent
end Verif
