import Verif.Proofs.LoadFault
import Verif.Proofs.Construct
import Verif.Spec.Reload
/-! Helper lemmas: loading what was written after loading. -/
namespace Verif
namespace Ent
open Spec
variable {V : Type} [LinearOrder V]

/-- A step that changes nothing but the class. -/
def ClassOnly (e : Ent) (o : Out Ent Unit) : Prop := ∃ c, o.st = { e with cls := c }

theorem coerceProgram_class (env : Env V) {e : Ent} {t : UInt8} (ht : e.typeId = [t]) :
    ClassOnly e (coerceProgram env e) := by
  by_cases h : e.cls = .asmProgram ∨ e.cls = .protAsmProgram
  · exact ⟨e.cls, by simp [coerceProgram, PyM.bind_run, h]⟩
  · have h' := not_or.1 h
    rw [coerceProgram_run env ht h'.1 h'.2]
    exact ⟨_, rfl⟩

theorem coerceList_class (e : Ent) : ClassOnly e (coerceList e) := by
  simp only [ClassOnly, coerceList, PyM.bind_run, PyM.get_run, PyM.ofExcept_run]
  rcases byte0 e.data with _ | b
  · exact ⟨e.cls, rfl⟩
  · dsimp only
    split
    · simp only [PyM.ite_run]
      split
      · exact ⟨_, rfl⟩
      · split
        · exact ⟨_, rfl⟩
        · exact ⟨e.cls, rfl⟩
    · exact ⟨e.cls, rfl⟩

theorem coercePicture_class (e : Ent) : ClassOnly e (coercePicture e) := by
  simp only [ClassOnly, coercePicture, PyM.bind_run, PyM.get_run, PyM.ite_run]
  repeat' split
  all_goals exact ⟨_, rfl⟩

theorem coerceColorGDB_class (e : Ent) : ClassOnly e (coerceColorGDB e) := by
  simp only [ClassOnly, coerceColorGDB, PyM.bind_run, PyM.get_run, PyM.ite_run]
  repeat' split
  all_goals exact ⟨_, rfl⟩

theorem coerceMonoGDB_class (e : Ent) : ClassOnly e (coerceMonoGDB e) := by
  simp only [ClassOnly, coerceMonoGDB, PyM.bind_run, PyM.get_run, PyM.ite_run, setClass, PyM.modify_run]
  by_cases h : e.colorData ≠ []
  · rw [if_pos h]
    exact coerceColorGDB_class { e with cls := .gdb }
  · rw [if_neg h]
    repeat' split
    all_goals exact ⟨_, rfl⟩

/-- The classes whose coercion changes more than the class. -/
def retypes : Cls → Bool
  | .complex | .complexFraction | .complexRadical | .complexPi | .complexPiFraction | .graphedEquation => true
  | _ => false

theorem coerceTyped_class (env : Env V) {e : Ent} {t : UInt8} (ht : e.typeId = [t]) (hc : retypes e.cls = false) :
    ClassOnly e (coerceTyped env e) := by
  have hp := coerceProgram_class env ht
  have hl := coerceList_class e
  have hi := coercePicture_class e
  have hm := coerceMonoGDB_class e
  have hg := coerceColorGDB_class e
  have hn : ClassOnly e ((pure () : PyM Ent Unit) e) := ⟨e.cls, rfl⟩
  unfold coerceTyped
  rw [get_then]
  rcases h : e.cls <;> simp only [h, retypes, reduceCtorEq] at hc ⊢ <;> assumption

/-- What becomes of a complex number that has an imaginary part. -/
theorem coerceComplex_full {e : Ent} (h : 10 ≤ e.body.bytes.length) : ∃ w, coerceComplex e =
    ⟨.ok (), { e with typeId := [UInt8.ofNat (imagType e.body.bytes)],
                      cls := (Cls.getType (imagType e.body.bytes)).getD e.cls }, w⟩ := by
  have hlt : imagType e.body.bytes < 64 := Nat.mod_lt _ (by omega)
  have e1 : (((imagType e.body.bytes : Nat) : Int) % 256).toNat = imagType e.body.bytes := by omega
  have e2 : (UInt8.ofNat (imagType e.body.bytes)).toNat = imagType e.body.bytes := by simp; omega
  rcases hc : Cls.getType (imagType e.body.bytes) with _ | c
  · exact ⟨_, by
      simp [coerceComplex, PyM.bind_run, imagSubtype_get h, setTypeId_run, e1,
        getTypeId_one (e := ⟨_, _, [UInt8.ofNat (imagType e.body.bytes)], _, _, _, _⟩) rfl, e2, hc]
      rfl⟩
  · exact ⟨[], by
      simp [coerceComplex, PyM.bind_run, imagSubtype_get h, setTypeId_run, e1,
        getTypeId_one (e := ⟨_, _, [UInt8.ofNat (imagType e.body.bytes)], _, _, _, _⟩) rfl, e2, hc, setClass]⟩

theorem coerceComplex_short {e : Ent} (h : e.body.bytes.length < 10) : (coerceComplex e).res = .error .valueError := by
  simp [coerceComplex, PyM.bind_run, imagSubtype_short h]

/-- What becomes of an equation of a graph database. -/
theorem coerceGraphed_full {e : Ent} {t : UInt8} (ht : e.typeId = [t]) (hb : e.body.mutable = true) :
    ∃ d, coerceGraphed e = ⟨.ok (), { e with typeId := [if t.toNat = 0x23 then 0x03 else t], body := ⟨true, d⟩ }, []⟩ ∧
      (t.toNat ≠ 0x23 → d = e.body.bytes) ∧ (e.body.bytes ≠ [] → d.length = e.body.bytes.length) := by
  unfold coerceGraphed
  rw [PyM.bind_ok (PyM.get_run e), getTypeId_one ht, PyM.bind_ok (PyM.ofExcept_run _ _)]
  by_cases h : t.toNat = 0x23
  · rw [if_pos h]
    obtain ⟨x, hx⟩ := selected_set e.body.bytes
    have hget : viewGet eqFlagsView e =
        .ok (flagsGet (getSlice e.body.bytes { start := some 0, stop := some 1 })) := rfl
    have hput : eqFlagsView.put (flagsUpdate (flagsGet (getSlice e.body.bytes { start := some 0, stop := some 1 }))
        [(5, true)]) e.body =
        ⟨.ok (), ⟨true, setSlice e.body.bytes { start := some 0, stop := some 1 } [x]⟩, []⟩ := by
      have hr : setRaw eqFlagsView.conv eqFlagsView.length (getSlice e.body.bytes eqFlagsView.slice)
          (flagsUpdate (flagsGet (getSlice e.body.bytes { start := some 0, stop := some 1 })) [(5, true)]) () =
          ⟨.ok [x], (), []⟩ := by
        refine setRaw_one (c := flagsConv) ?_
        show (PyM.ofExcept (flagsSet _)) () = _
        rw [hx]; rfl
      simp only [View.put, PyM.bind_run, PyM.get_run, PyM.lift_run, hr, hb, PyM.ite_run, PyM.set_run]
      rfl
    rw [hget, PyM.bind_ok (PyM.ofExcept_run _ _), PyM.bind_ok (viewPut_ok hput), setTypeId_run]
    refine ⟨setSlice e.body.bytes { start := some 0, stop := some 1 } [x], ?_, fun h' => absurd h h', fun hne => ?_⟩
    · rw [if_pos h]; rfl
    · obtain ⟨b, l, he⟩ := List.exists_cons_of_ne_nil hne
      have hb := bounds_nat (a := 0) (b := 1) (n := (b :: l).length) (by omega) (by simp)
      rw [he, show ({ start := some 0, stop := some 1 } : Slice) = Slice.nat 0 1 from rfl, setSlice, hb]
      simp
  · rw [if_neg h]
    refine ⟨e.body.bytes, ?_, fun _ => rfl, fun _ => rfl⟩
    rw [if_neg h, ← ht, ← hb]
    rfl

/-- A step that does not complain about the layout. -/
def Calm (o : Out Ent Unit) : Prop := ∀ w ∈ o.warns, w ∉ layoutWarns ∧ w ∉ frameWarns

theorem coerceProgram_calm (env : Env V) {e : Ent} {t : UInt8} (ht : e.typeId = [t]) : Calm (coerceProgram env e) := by
  by_cases h : e.cls = .asmProgram ∨ e.cls = .protAsmProgram
  · simp [Calm, coerceProgram, PyM.bind_run, h]
  · have h' := not_or.1 h
    rw [coerceProgram_run env ht h'.1 h'.2]
    exact fun _ h => nomatch h

theorem coerceList_calm (e : Ent) : Calm (coerceList e) := by
  simp only [Calm, coerceList, PyM.bind_run, PyM.get_run, PyM.ofExcept_run]
  rcases byte0 e.data with _ | b
  · simp
  · dsimp only
    split
    · simp only [PyM.ite_run]
      split
      · simp [setClass]
      · split <;> simp [setClass, layoutWarns, frameWarns]
    · simp [layoutWarns, frameWarns]

theorem coercePicture_calm (e : Ent) : Calm (coercePicture e) := by
  simp only [Calm, coercePicture, PyM.bind_run, PyM.get_run, PyM.ite_run]
  repeat' split
  all_goals simp [setClass, layoutWarns, frameWarns]

theorem coerceColorGDB_calm (e : Ent) : Calm (coerceColorGDB e) := by
  simp only [Calm, coerceColorGDB, PyM.bind_run, PyM.get_run, PyM.ite_run]
  repeat' split
  all_goals simp [setClass, layoutWarns, frameWarns]

theorem coerceMonoGDB_calm (e : Ent) : Calm (coerceMonoGDB e) := by
  simp only [Calm, coerceMonoGDB, PyM.bind_run, PyM.get_run, PyM.ite_run, setClass, PyM.modify_run]
  by_cases h : e.colorData ≠ []
  · rw [if_pos h]
    exact coerceColorGDB_calm { e with cls := .gdb }
  · rw [if_neg h]
    repeat' split
    all_goals simp [layoutWarns, frameWarns]

theorem coerceComplex_calm (e : Ent) : Calm (coerceComplex e) := by
  by_cases h : e.body.bytes.length < 10
  · simp [Calm, coerceComplex, PyM.bind_run, imagSubtype_short h]
  · have hlt : imagType e.body.bytes < 64 := Nat.mod_lt _ (by omega)
    have e1 : (((imagType e.body.bytes : Nat) : Int) % 256).toNat = imagType e.body.bytes := by omega
    have e2 : (UInt8.ofNat (imagType e.body.bytes)).toNat = imagType e.body.bytes := by simp; omega
    rcases hc : Cls.getType (imagType e.body.bytes) with _ | c <;>
      simp [Calm, layoutWarns, frameWarns, setClass, coerceComplex, PyM.bind_run, imagSubtype_get (Nat.le_of_not_lt h), setTypeId_run, e1,
        getTypeId_one (e := ⟨_, _, [UInt8.ofNat (imagType e.body.bytes)], _, _, _, _⟩) rfl, e2, hc]

theorem coerceTyped_calm (env : Env V) {e : Ent} {t : UInt8} (ht : e.typeId = [t]) (hb : e.body.mutable = true) :
    Calm (coerceTyped env e) := by
  have hp := coerceProgram_calm env ht
  have hl := coerceList_calm e
  have hi := coercePicture_calm e
  have hm := coerceMonoGDB_calm e
  have hg := coerceColorGDB_calm e
  have hx := coerceComplex_calm e
  have hq : Calm (coerceGraphed e) := by
    obtain ⟨d, h, -⟩ := coerceGraphed_full ht hb
    rw [h]
    exact fun _ h => nomatch h
  have hn : Calm ((pure () : PyM Ent Unit) e) := fun _ h => nomatch h
  unfold coerceTyped
  rw [get_then]
  rcases h : e.cls <;> simp only [] <;> assumption

theorem coerceById_calm (env : Env V) {e : Ent} {t : UInt8} (ht : e.typeId = [t]) (hb : e.body.mutable = true) :
    Calm (coerceById env e) := by
  unfold coerceById
  rw [PyM.bind_ok (PyM.get_run e), getTypeId_one ht, PyM.bind_ok (PyM.ofExcept_run _ _)]
  rcases hc : Cls.getType t.toNat with _ | c
  · simp only [Calm, PyM.ite_run]
    split <;> simp [layoutWarns, frameWarns]
  · have := coerceTyped_calm env (e := { e with cls := c }) ht hb
    simpa [PyM.bind_run, setClass, PyM.modify_run, Calm] using this

theorem coerce_calm (env : Env V) {e : Ent} {t : UInt8} (ht : e.typeId = [t]) (hb : e.body.mutable = true) :
    Calm (coerce env e) := by
  have hr : Calm ((PyM.ofExcept (viewGet subtypeView e) >>= fun t => setTypeId t >>= fun _ => coerceById env) e) := by
    rcases viewGet subtypeView e with x | n
    · simp [Calm, PyM.bind_run]
    · rw [PyM.bind_ok (PyM.ofExcept_run _ _), PyM.bind_ok (setTypeId_run _ _)]
      have := coerceById_calm env (e := { e with typeId := [UInt8.ofNat (n % 256).toNat] }) rfl hb
      simpa [Calm] using this
  have hi := coerceById_calm env ht hb
  have hy := coerceTyped_calm env ht hb
  have hx := coerceComplex_calm e
  have hl := coerceList_calm e
  have hp := coercePicture_calm e
  unfold coerce
  rw [get_then]
  rcases h : e.cls <;> simp only [] <;> assumption

/-- What is left alone by coercion, and that coercing the outcome again in the first class gives the outcome. -/
def Settles (env : Env V) (e e' : Ent) : Prop :=
  (e'.metaLen = e.metaLen ∧ e'.name = e.name ∧ e'.version = e.version ∧ e'.archived = e.archived ∧
    (∃ t, e'.typeId = [t]) ∧ e'.body.mutable = true ∧ e'.body.bytes.length = e.body.bytes.length) ∧
  ∃ w, coerce env { e' with cls := e.cls } = ⟨.ok (), e', w⟩

theorem settles_class (env : Env V) {e e' : Ent} {w : List Warn} {t : UInt8} (ht : e.typeId = [t]) (hb : e.body.mutable = true)
    (h : coerce env e = ⟨.ok (), e', w⟩) (hc : ClassOnly e (coerce env e)) : Settles env e e' := by
  rw [h] at hc
  obtain ⟨c, hc⟩ := hc
  have hc : e' = { e with cls := c } := hc
  refine ⟨?_, w, ?_⟩
  · rw [hc]; exact ⟨rfl, rfl, rfl, rfl, ⟨t, ht⟩, hb, rfl⟩
  · have : ({ e' with cls := e.cls } : Ent) = e := by rw [hc]
    rw [this, h]

theorem coerce_typed (env : Env V) {e : Ent} (hc : e.cls ∉ baseOnly)
    (h : e.cls ≠ .entry ∧ e.cls ≠ .realE ∧ e.cls ≠ .graphRealE ∧ e.cls ≠ .complexE) : coerce env e = coerceTyped env e := by
  unfold coerce
  rw [get_then]
  rcases h' : e.cls <;> simp only [h', baseOnly] at h hc ⊢ <;> simp at h hc

theorem coerce_entry (env : Env V) {e : Ent} (h : e.cls = .entry) : coerce env e = coerceById env e := by
  unfold coerce
  rw [get_then, h]

theorem coerceById_some (env : Env V) {e : Ent} {t : UInt8} {c : Cls} (ht : e.typeId = [t]) (hc : Cls.getType t.toNat = some c) :
    coerceById env e = coerceTyped env { e with cls := c } := by
  unfold coerceById
  rw [PyM.bind_ok (PyM.get_run e), getTypeId_one ht, PyM.bind_ok (PyM.ofExcept_run _ _), hc]
  simp [PyM.bind_run, setClass, PyM.modify_run]

theorem coerceById_none (env : Env V) {e : Ent} {t : UInt8} (ht : e.typeId = [t]) (hc : Cls.getType t.toNat = none) :
    ∃ w, coerceById env e = ⟨.ok (), e, w⟩ := by
  unfold coerceById
  rw [PyM.bind_ok (PyM.get_run e), getTypeId_one ht, PyM.bind_ok (PyM.ofExcept_run _ _), hc]
  simp only [PyM.ite_run]
  split <;> exact ⟨_, rfl⟩

theorem retypes_type {n : Nat} {c : Cls} (h : Cls.getType n = some c) :
    retypes c = true ↔ n = 0x23 ∨ n ∈ complexTypes := by
  unfold Cls.getType at h
  split at h <;> first | (injection h with h; subst h; decide) | cases h

/-- The coercion of a complex number, by its class. -/
theorem coerceTyped_complex (env : Env V) {e : Ent} {n : Nat} (hn : n ∈ complexTypes) (hc : Cls.getType n = some e.cls) :
    coerceTyped env e = coerceComplex e := by
  unfold coerceTyped
  rw [get_then]
  simp only [complexTypes, List.mem_cons, List.not_mem_nil, or_false] at hn
  rcases hn with rfl | rfl | rfl | rfl | rfl <;> simp only [Cls.getType, Option.some.injEq] at hc <;> rw [← hc]

/-- An entry of the base class. -/
theorem settles_entry (env : Env V) {e e' : Ent} {w : List Warn} {t : UInt8} (ht : e.typeId = [t]) (hb : e.body.mutable = true)
    (hc : e.cls = .entry) (hs : Steady .entry t.toNat e.body.bytes) (h : coerce env e = ⟨.ok (), e', w⟩) : Settles env e e' := by
  obtain ⟨h23, hx⟩ := hs
  have hid := coerce_entry env hc
  rcases hg : Cls.getType t.toNat with _ | c
  · obtain ⟨w', h'⟩ := coerceById_none env ht hg
    exact settles_class env ht hb h ⟨e.cls, by rw [hid, h']⟩
  · have h1 : coerce env e = coerceTyped env { e with cls := c } := hid.trans (coerceById_some env ht hg)
    by_cases hr : retypes c = true
    · have hm : t.toNat ∈ complexTypes := ((retypes_type hg).1 hr).resolve_left h23
      rw [h1, coerceTyped_complex env (e := { e with cls := c }) hm hg] at h
      by_cases hl : e.body.bytes.length < 10
      · have := coerceComplex_short (e := { e with cls := c }) hl
        rw [h] at this
        cases this
      · obtain ⟨w2, h2⟩ := coerceComplex_full (e := { e with cls := c }) (Nat.le_of_not_lt hl)
        rw [h2] at h
        have h3 := congrArg Out.st h
        dsimp only at h3
        have himag := hx hm
        obtain ⟨c', hc'⟩ : ∃ c', Cls.getType (imagType e.body.bytes) = some c' := by
          revert himag
          generalize imagType e.body.bytes = n
          intro himag
          simp only [complexTypes, List.mem_cons, List.not_mem_nil, or_false] at himag
          rcases himag with rfl | rfl | rfl | rfl | rfl <;> exact ⟨_, rfl⟩
        have hlt : imagType e.body.bytes < 64 := Nat.mod_lt _ (by omega)
        have e2 : (UInt8.ofNat (imagType e.body.bytes)).toNat = imagType e.body.bytes := by simp; omega
        rw [hc', Option.getD_some] at h3
        subst h3
        refine ⟨⟨rfl, rfl, rfl, rfl, ⟨_, rfl⟩, hb, rfl⟩, ?_⟩
        have ha := coerce_entry env (e := { e with typeId := [UInt8.ofNat (imagType e.body.bytes)] }) hc
        rw [coerceById_some env (t := UInt8.ofNat (imagType e.body.bytes)) rfl (by rw [e2]; exact hc'),
          coerceTyped_complex env (e := { e with typeId := [UInt8.ofNat (imagType e.body.bytes)], cls := c' }) himag hc'] at ha
        obtain ⟨w3, h4⟩ := coerceComplex_full
          (e := { e with typeId := [UInt8.ofNat (imagType e.body.bytes)], cls := c' }) (Nat.le_of_not_lt hl)
        refine ⟨w3, ?_⟩
        show coerce env { e with typeId := [UInt8.ofNat (imagType e.body.bytes)] } = _
        rw [ha, h4]
        simp only [hc', Option.getD_some]
    · have := coerceTyped_class env (e := { e with cls := c }) ht (by simpa using hr)
      rw [← h1] at this
      exact settles_class env ht hb h this

/-- A number of undetermined kind. -/
theorem settles_real (env : Env V) {e e' : Ent} {w : List Warn} (hb : e.body.mutable = true)
    (hc : e.cls = .realE ∨ e.cls = .graphRealE) (hs : (e.body.bytes.headD 0).toNat % 64 ≠ 0x23) (h : coerce env e = ⟨.ok (), e', w⟩) :
    Settles env e e' := by
  have hrun : ∀ x : Ent, x.cls = e.cls → coerce env x =
      (PyM.ofExcept (viewGet subtypeView x) >>= fun t => setTypeId t >>= fun _ => coerceById env) x := by
    intro x hx
    unfold coerce
    rw [get_then]
    rcases hc with hc | hc <;> simp only [hx, hc]
  rcases hd : e.body.bytes with _ | ⟨b, l⟩
  · rw [hrun e rfl, subtypeView_get, hd] at h
    simp [PyM.bind_run] at h
  · have hlt : b.toNat % 64 < 64 := Nat.mod_lt _ (by omega)
    have e1 : (((b.toNat % 64 : Nat) : Int) % 256).toNat = b.toNat % 64 := by omega
    have e2 : (UInt8.ofNat (b.toNat % 64)).toNat = b.toNat % 64 := by simp; omega
    have hstep : ∀ x : Ent, x.cls = e.cls → x.body = e.body → coerce env x =
        coerceById env { x with typeId := [UInt8.ofNat (b.toNat % 64)] } := by
      intro x hx hxb
      rw [hrun x hx, subtypeView_get, hxb, hd, PyM.bind_ok (PyM.ofExcept_run _ _), PyM.bind_ok (setTypeId_run _ _), e1]
      simp only [List.nil_append, ← hxb]
    rw [hd] at hs
    -- whatever the outcome, it differs from the number in class and type alone
    have hout : ∃ c t, e' = { e with cls := c, typeId := [t] } := by
      rw [hstep e rfl rfl] at h
      rcases hg : Cls.getType (b.toNat % 64) with _ | c
      · obtain ⟨w', h'⟩ := coerceById_none env (e := { e with typeId := [UInt8.ofNat (b.toNat % 64)] }) rfl (by rw [e2]; exact hg)
        rw [h'] at h
        exact ⟨e.cls, _, (congrArg Out.st h).symm⟩
      · rw [coerceById_some env rfl (by rw [e2]; exact hg)] at h
        by_cases hr : retypes c = true
        · have hm : b.toNat % 64 ∈ complexTypes := ((retypes_type hg).1 hr).resolve_left hs
          rw [coerceTyped_complex env (e := { e with typeId := [UInt8.ofNat (b.toNat % 64)], cls := c }) hm hg] at h
          by_cases hl : e.body.bytes.length < 10
          · have := coerceComplex_short (e := { e with typeId := [UInt8.ofNat (b.toNat % 64)], cls := c }) hl
            rw [h] at this
            cases this
          · obtain ⟨w2, h2⟩ := coerceComplex_full (e := { e with typeId := [UInt8.ofNat (b.toNat % 64)], cls := c }) (Nat.le_of_not_lt hl)
            rw [h2] at h
            exact ⟨_, _, (congrArg Out.st h).symm⟩
        · obtain ⟨c', h'⟩ := coerceTyped_class env (e := { e with typeId := [UInt8.ofNat (b.toNat % 64)], cls := c }) rfl (by simpa using hr)
          rw [h] at h'
          exact ⟨c', _, h'⟩
    obtain ⟨c, t, ho⟩ := hout
    refine ⟨?_, w, ?_⟩
    · rw [ho]; exact ⟨rfl, rfl, rfl, rfl, ⟨t, rfl⟩, hb, rfl⟩
    · have hbody : e'.body = e.body := by rw [ho]
      rw [hstep { e' with cls := e.cls } rfl hbody, ← h, hstep e rfl rfl, ho]

/-- A complex number. -/
theorem settles_complex (env : Env V) {e e' : Ent} {w : List Warn} (hb : e.body.mutable = true)
    (hrun : ∀ x : Ent, x.cls = e.cls → coerce env x = coerceComplex x) (h : coerce env e = ⟨.ok (), e', w⟩) : Settles env e e' := by
  rw [hrun e rfl] at h
  by_cases hl : e.body.bytes.length < 10
  · have := coerceComplex_short hl
    rw [h] at this
    cases this
  · obtain ⟨w2, h2⟩ := coerceComplex_full (Nat.le_of_not_lt hl)
    rw [h2] at h
    have h3 := congrArg Out.st h
    dsimp only at h3
    subst h3
    refine ⟨⟨rfl, rfl, rfl, rfl, ⟨_, rfl⟩, hb, rfl⟩, ?_⟩
    obtain ⟨w3, h4⟩ := coerceComplex_full (e := { e with typeId := [UInt8.ofNat (imagType e.body.bytes)] }) (Nat.le_of_not_lt hl)
    exact ⟨w3, (hrun { e with typeId := [UInt8.ofNat (imagType e.body.bytes)] } rfl).trans h4⟩

/-- An equation of a graph database. -/
theorem settles_graphed (env : Env V) {e e' : Ent} {w : List Warn} {t : UInt8} (ht : e.typeId = [t]) (hb : e.body.mutable = true)
    (hrun : ∀ x : Ent, x.cls = e.cls → coerce env x = coerceGraphed x) (hs : t.toNat = 0x23 → e.body.bytes ≠ [])
    (h : coerce env e = ⟨.ok (), e', w⟩) : Settles env e e' := by
  rw [hrun e rfl] at h
  obtain ⟨d, h1, hd, hl⟩ := coerceGraphed_full ht hb
  rw [h1] at h
  have h3 := congrArg Out.st h
  dsimp only at h3
  have hlen : d.length = e.body.bytes.length := by
    by_cases h23 : t.toNat = 0x23
    · exact hl (hs h23)
    · rw [hd h23]
  subst h3
  refine ⟨⟨rfl, rfl, rfl, rfl, ⟨_, rfl⟩, rfl, hlen⟩, ?_⟩
  have hne : (if t.toNat = 0x23 then (0x03 : UInt8) else t).toNat ≠ 0x23 := by
    split
    · decide
    · assumption
  obtain ⟨d', h4, hd', -⟩ := coerceGraphed_full
    (e := { e with typeId := [if t.toNat = 0x23 then 0x03 else t], body := ⟨true, d⟩ }) rfl rfl
  refine ⟨[], (hrun { e with typeId := [if t.toNat = 0x23 then 0x03 else t], body := ⟨true, d⟩ } rfl).trans (h4.trans ?_)⟩
  rw [hd' hne, if_neg hne]

theorem settles (env : Env V) {e e' : Ent} {w : List Warn} {t : UInt8} (ht : e.typeId = [t]) (hb : e.body.mutable = true)
    (hc : e.cls ∉ baseOnly) (hs : Steady e.cls t.toNat e.body.bytes) (h : coerce env e = ⟨.ok (), e', w⟩) : Settles env e e' := by
  by_cases h1 : e.cls = .entry
  · exact settles_entry env ht hb h1 (by rw [h1] at hs; exact hs) h
  by_cases h2 : e.cls = .realE ∨ e.cls = .graphRealE
  · exact settles_real env hb h2 (by rcases h2 with h2 | h2 <;> rw [h2] at hs <;> exact hs) h
  have h2' := not_or.1 h2
  by_cases h3 : e.cls = .complexE
  · refine settles_complex env hb (fun x hx => ?_) h
    unfold coerce
    rw [get_then, hx, h3]
  have hty : ∀ x : Ent, x.cls = e.cls → coerce env x = coerceTyped env x := fun x hx =>
    coerce_typed env (by rw [hx]; exact hc) (by rw [hx]; exact ⟨h1, h2'.1, h2'.2, h3⟩)
  by_cases h4 : e.cls = .graphedEquation
  · refine settles_graphed env ht hb (fun x hx => ?_) (by rw [h4] at hs; exact hs) h
    rw [hty x hx]
    unfold coerceTyped
    rw [get_then, hx, h4]
  by_cases h5 : retypes e.cls = true
  · refine settles_complex env hb (fun x hx => ?_) h
    rw [hty x hx]
    unfold coerceTyped
    rw [get_then, hx]
    rcases h6 : e.cls <;> simp only [h6, retypes, Bool.false_eq_true] at h5 ⊢
    exact absurd h6 h4
  · exact settles_class env ht hb h (by rw [hty e rfl]; exact coerceTyped_class env ht (by simpa using h5))

/-- Loading what an entry with full sections writes, up to coercion; nothing is wrong with the lengths. -/
theorem loadBase_written (env : Env V) {e : Ent} (hw : Sections e) (hfl : e.metaLen = [0x0B, 0x00] → e.version = [0x00] ∧ e.archived = [0x00])
    (hlen : e.body.bytes.length ≤ 65535) (hno : e.metaLen = [0x0D, 0x00] → ¬FlashIsLength e) (e₀ : Ent) :
    ∃ b ws, e.bytes = .ok b ∧ loadBase env b e₀ = after ws
      (finish env { e with cls := e₀.cls, body := ⟨true, e.body.bytes⟩ }) ∧
      ∀ w ∈ ws, w = .archiveFlag ∨ w ∈ checkType e₀ (fromLE e.typeId) := by
  have hlen : e.calcLength ≤ 65535 := hlen
  obtain ⟨b, hb0⟩ : ∃ b, e.bytes = .ok b := ⟨_, bytes_ok hlen⟩
  have hb := hb0
  rw [bytes_ok hlen] at hb
  injection hb with hb
  obtain ⟨t, ht⟩ := length_one hw.typeId
  obtain ⟨n0, n1, n2, n3, n4, n5, n6, n7, hn⟩ := length_eight hw.name
  obtain ⟨v, hv⟩ := length_one hw.version
  obtain ⟨a, ha⟩ := length_one hw.archived
  obtain ⟨l0, l1, hl, hl2⟩ := toLE_two e.calcLength hlen
  have htn : fromLE e.typeId = t.toNat := by rw [ht]; simp [fromLE]
  have htake : e.body.bytes.take (fromLE [l0, l1]) = e.body.bytes := by
    rw [hl2]; exact List.take_length
  have hlenb : e.body.bytes.length = fromLE [l0, l1] := hl2.symm
  rcases hw.metaLen with hm | hm
  · obtain ⟨h1, h2⟩ := hfl hm
    rw [flashBytes_eleven hm, hm, ht, hn, hl] at hb
    simp only [List.cons_append, List.nil_append] at hb
    have hb' : ljust 17 b = 0x0B :: 0x00 :: l0 :: l1 :: t :: n0 :: n1 :: n2 :: n3 :: n4 :: n5 ::
        n6 :: n7 :: l0 :: l1 :: (e.body.bytes ++ List.replicate (2 - e.body.bytes.length) 0) := by
      rw [← hb]; simp [ljust]
    refine ⟨b, checkType e₀ (fromLE e.typeId), hb0, ?_, fun w h => .inr h⟩
    rw [loadBase_flashless env b e₀ _ _ _ _ _ _ _ _ _ _ _ _ _ _ _ _ hb' rfl]
    have htake' : (e.body.bytes ++ List.replicate (2 - e.body.bytes.length) (0 : UInt8)).take
        (fromLE [l0, l1]) = e.body.bytes := by
      rw [← hlenb]; exact List.take_left'  rfl
    rw [htake', htn, hm, ht, hn, h1, h2]
    simp [hlenb]
  · rw [flashBytes_thirteen hm hw.version hw.archived, hm, ht, hn, hl, hv, ha] at hb
    simp only [List.cons_append, List.nil_append] at hb
    have hb' : ljust 17 b = 0x0D :: 0x00 :: l0 :: l1 :: t :: n0 :: n1 :: n2 :: n3 :: n4 :: n5 ::
        n6 :: n7 :: v :: a :: l0 :: l1 :: e.body.bytes := by
      rw [← hb]; simp [ljust]
    have hmis : ¬(fromLE [(0x0D : UInt8), 0x00] = 13 ∧ [v, a] = [l0, l1]) := by
      rintro ⟨-, h⟩
      apply hno hm
      unfold FlashIsLength
      rw [hv, ha]
      show fromLE [v, a] = _
      rw [h, hl2]; rfl
    have : fromLE [(0x0D : UInt8), 0x00] = 13 := rfl
    refine ⟨b, checkType e₀ (fromLE e.typeId) ++ (if a ≠ 0 ∧ a ≠ 0x80 then [.archiveFlag] else []), hb0, ?_, fun w h => ?_⟩
    · rw [loadBase_flash env b e₀ _ _ _ _ _ _ _ _ _ _ _ _ _ _ _ _ _ _ hb' (by decide) hmis]
      rw [htake, htn, hm, ht, hn, hv, ha]
      simp [hlenb, this]
    · rcases List.mem_append.1 h with h | h
      · exact .inr h
      · split at h
        · exact .inl (List.mem_singleton.1 h)
        · cases h

/-- The entry made of bytes that are all there, before coercion. -/
theorem loadBase_all (env : Env V) (data : Bytes) (e₀ : Ent) (h : AllThere data) :
    ∃ (e₁ : Ent) (ws : List Warn), e₁.cls = e₀.cls ∧ Sections e₁ ∧
      (e₁.metaLen = [0x0B, 0x00] → e₁.version = [0x00] ∧ e₁.archived = [0x00]) ∧
      (e₁.metaLen = [0x0D, 0x00] → ¬FlashIsLength e₁) ∧ (∃ t, e₁.typeId = [t] ∧ t.toNat = typeIn data) ∧
      e₁.body = ⟨true, dataIn data⟩ ∧ loadBase env data e₀ = after ws (finish env e₁) := by
  have hl : 17 ≤ (ljust 17 data).length := by simp; omega
  obtain ⟨m0, m1, l0, l1, t, n0, n1, n2, n3, n4, n5, n6, n7, v, a, x0, x1, rest, hd⟩ := length_17 hl
  obtain ⟨hmeta', hall⟩ := h
  have hmeta : metaOf (ljust 17 data) = fromLE [m0, m1] := by rw [hd]; rfl
  have hlen : lengthOf (ljust 17 data) = [l0, l1] := by rw [hd]; rfl
  have hmis : FlashMisread (ljust 17 data) ↔ (fromLE [m0, m1] = 13 ∧ [v, a] = [l0, l1]) := by
    unfold FlashMisread; rw [hmeta, hlen, hd]; rfl
  have ht : typeIn data = t.toNat := by unfold typeIn; rw [hd]; rfl
  rw [hmeta] at hmeta'
  by_cases h11 : fromLE [m0, m1] = 11
  · have hf : dataFrom (ljust 17 data) = 15 := by
      unfold dataFrom; rw [if_pos (Or.inl (by rw [hmeta, h11]))]
    have hmm : ([m0, m1] : Bytes) = [0x0B, 0x00] := fromLE_inj rfl (by rw [h11]; rfl)
    refine ⟨_, _, ?_, ?_, ?_, ?_, ?_, ?_, loadBase_flashless env data e₀ _ _ _ _ _ _ _ _ _ _ _ _ _ v a _ hd h11⟩
    · rfl
    · exact ⟨.inl hmm, rfl, rfl, rfl, rfl⟩
    · exact fun _ => ⟨rfl, rfl⟩
    · intro h; rw [hmm] at h; exact absurd (List.cons.inj (show _ = _ from h)).1 (by decide)
    · exact ⟨t, rfl, ht.symm⟩
    · unfold dataIn; dsimp only; rw [hf, hlen, hd]; rfl
  · have h13 : fromLE [m0, m1] = 13 := hmeta'.resolve_left h11
    by_cases hm : [v, a] = [l0, l1]
    · have hf : dataFrom (ljust 17 data) = 15 := by
        unfold dataFrom; rw [if_pos (Or.inr (hmis.2 ⟨h13, hm⟩))]
      injection hm with h1 h2
      injection h2 with h2 _
      subst h1 h2
      refine ⟨_, _, ?_, ?_, ?_, ?_, ?_, ?_, loadBase_misfire env data e₀ _ _ _ _ _ _ _ _ _ _ _ _ _ _ hd h13⟩
      · rfl
      · exact ⟨.inl rfl, rfl, rfl, rfl, rfl⟩
      · exact fun _ => ⟨rfl, rfl⟩
      · intro h; exact absurd (List.cons.inj (show _ = _ from h)).1 (by decide)
      · exact ⟨t, rfl, ht.symm⟩
      · unfold dataIn; dsimp only; rw [hf, hlen, hd]; rfl
    · have hf : dataFrom (ljust 17 data) = 17 := by
        unfold dataFrom; rw [if_neg (by rw [hmeta]; rintro (h | h); exacts [h11 h, hm (hmis.1 h).2])]
      have hmm : ([m0, m1] : Bytes) = [0x0D, 0x00] := fromLE_inj rfl (by rw [h13]; rfl)
      have hdi : dataIn data = rest.take (fromLE [l0, l1]) := by unfold dataIn; dsimp only; rw [hf, hlen, hd]; rfl
      refine ⟨_, _, ?_, ?_, ?_, ?_, ?_, ?_,
        loadBase_flash env data e₀ _ _ _ _ _ _ _ _ _ _ _ _ _ _ _ _ _ _ hd h11 fun h => hm h.2⟩
      · rfl
      · exact ⟨.inr hmm, rfl, rfl, rfl, rfl⟩
      · intro h; rw [hmm] at h; exact absurd (List.cons.inj (show _ = _ from h)).1 (by decide)
      · intro _ h
        unfold FlashIsLength at h
        rw [← hdi, hall, hlen] at h
        exact hm (fromLE_inj rfl h)
      · exact ⟨t, rfl, ht.symm⟩
      · rw [hdi]

/-- Loading succeeds just when the class can be settled, and then gives the settled entry. -/
theorem load_ok_coerce (env : Env V) {data : Bytes} {e₀ e₁ e : Ent} {ws ws₀ : List Warn} {v : UInt8} (hv : e₁.version = [v])
    (hver : ∀ e', (∃ w, coerce env e₁ = ⟨.ok (), e', w⟩) → e'.version = e₁.version)
    (hb : loadBase env data e₀ = after ws₀ (finish env e₁)) (h : load env data e₀ = ⟨.ok (), e, ws⟩) :
    ∃ w, coerce env e₁ = ⟨.ok (), e, w⟩ := by
  rcases hco : coerce env e₁ with ⟨_ | _, e', w⟩
  · rename_i x
    have : (loadBase env data e₀).res = .error x := by
      rw [hb]
      simp only [after, finish, PyM.bind_error hco]
    have := load_any_error env this
    rw [h] at this
    cases this
  · have hv' := (hver e' ⟨w, hco⟩).trans hv
    have h1 : ∃ w', loadBase env data e₀ = ⟨.ok (), e', w'⟩ := by
      rw [hb]
      unfold finish
      rw [PyM.bind_ok hco]
      simp only [PyM.get_run, PyM.bind_run, checkLoaded, getVersionByte_one hv', PyM.ofExcept_run, PyM.warnAll_run, after]
      exact ⟨_, rfl⟩
    obtain ⟨w', h1⟩ := h1
    obtain ⟨w2, h2, -⟩ := load_any env h1 hv'
    rw [h] at h2
    have := congrArg Out.st h2
    exact ⟨w, by rw [show e = e' from this]⟩

end Ent
end Verif
