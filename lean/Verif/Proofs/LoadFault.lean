import Verif.Proofs.EntryLoad
import Verif.Proofs.GdbDict
import Verif.Spec.LoadFault
/-! Exactly when loading raises. -/
namespace Verif
namespace Ent
open Spec
variable {V : Type} [LinearOrder V]

/-- The result of something that raises `x`. -/
def faultRes : Option PyErr → Except PyErr Unit
  | none => .ok ()
  | some x => .error x

/-- The outcome of a step that may raise `x`, leaves the version alone and does not make the data
longer. -/
def Yields (x : Option PyErr) (e : Ent) (o : Out Ent Unit) : Prop :=
  o.res = faultRes x ∧ o.st.version = e.version ∧ o.st.body.bytes.length ≤ max 1 e.body.bytes.length

theorem get_then {α : Type} (f : Ent → PyM Ent α) (e : Ent) : (PyM.get >>= f) e = f e e := by
  rw [PyM.bind_ok (PyM.get_run e)]
  simp

theorem out_of_res {o : Out Ent Unit} {r : Except PyErr Unit} (h : o.res = r) : o = ⟨r, o.st, o.warns⟩ := by
  subst h; rfl

theorem coerceProgram_yields (env : Env V) {e : Ent} {t : UInt8} (ht : e.typeId = [t]) :
    Yields (if e.cls = .asmProgram ∨ e.cls = .protAsmProgram then some .userWarningError else none) e
      (coerceProgram env e) := by
  by_cases h : e.cls = .asmProgram ∨ e.cls = .protAsmProgram
  · simp [Yields, faultRes, Nat.le_max_right, coerceProgram, PyM.bind_run, h]
  · have h' := not_or.1 h
    rw [coerceProgram_run env ht h'.1 h'.2, if_neg h]
    exact ⟨rfl, rfl, Nat.le_max_right _ _⟩

theorem imagSubtype_short {e : Ent} (h : e.body.bytes.length < 10) :
    viewGet imagSubtypeView e = .error .valueError := by
  have : getSlice e.body.bytes { start := some 9, stop := some 10 } = [] := by
    apply List.eq_nil_of_length_eq_zero
    rw [length_getSlice]
    simp only [Slice.bounds, Slice.indices]
    generalize e.body.bytes.length = n at h
    revert n
    decide +kernel
  simp only [viewGet, View.get, imagSubtypeView, View.mk', this]
  rfl

theorem coerceComplex_yields {e : Ent} :
    Yields (if e.body.bytes.length < 10 then some .valueError else none) e (coerceComplex e) := by
  by_cases h : e.body.bytes.length < 10
  · simp [Yields, faultRes, Nat.le_max_right, coerceComplex, PyM.bind_run, imagSubtype_short h, h]
  · have hlt : imagType e.body.bytes < 64 := Nat.mod_lt _ (by omega)
    have e1 : (((imagType e.body.bytes : Nat) : Int) % 256).toNat = imagType e.body.bytes := by omega
    rw [if_neg h]
    rcases hc : Cls.getType (imagType e.body.bytes) with _ | c
    · have e2 : (UInt8.ofNat (imagType e.body.bytes)).toNat = imagType e.body.bytes := by
        simp; omega
      simp [Yields, faultRes, Nat.le_max_right, coerceComplex, PyM.bind_run, imagSubtype_get (Nat.le_of_not_lt h), setTypeId_run, e1,
        getTypeId_one (e := ⟨_, _, [UInt8.ofNat (imagType e.body.bytes)], _, _, _, _⟩) rfl, e2, hc]
    · rw [coerceComplex_run (Nat.le_of_not_lt h) hc]
      exact ⟨rfl, rfl, Nat.le_max_right _ _⟩

theorem coerceList_yields {e : Ent} (h : dataStart e.cls = 2) :
    Yields (if e.body.bytes.length < 3 then some .indexError else none) e (coerceList e) := by
  by_cases hl : e.body.bytes.length < 3
  · have hd : e.data = [] := by
      unfold data; rw [h]; exact List.drop_eq_nil_of_le (by omega)
    simp [Yields, faultRes, Nat.le_max_right, coerceList, PyM.bind_run, hd, byte0, hl]
  · obtain ⟨l, hd⟩ := data_two h (Nat.le_of_not_lt hl)
    rw [if_neg hl]
    simp only [Yields, coerceList, PyM.bind_run, PyM.get_run, hd, byte0, PyM.ofExcept_run]
    split
    · simp only [PyM.ite_run]
      split
      · exact ⟨rfl, rfl, Nat.le_max_right _ _⟩
      · split <;> exact ⟨rfl, rfl, Nat.le_max_right _ _⟩
    · exact ⟨rfl, rfl, Nat.le_max_right _ _⟩

theorem coercePicture_yields (e : Ent) : Yields none e (coercePicture e) := by
  simp only [Yields, coercePicture, PyM.bind_run, PyM.get_run, PyM.ite_run]
  repeat' split
  all_goals exact ⟨rfl, rfl, Nat.le_max_right _ _⟩

theorem coerceColorGDB_yields (e : Ent) : Yields none e (coerceColorGDB e) := by
  simp only [Yields, coerceColorGDB, PyM.bind_run, PyM.get_run, PyM.ite_run]
  repeat' split
  all_goals exact ⟨rfl, rfl, Nat.le_max_right _ _⟩

theorem coerceMonoGDB_yields (e : Ent) : Yields none e (coerceMonoGDB e) := by
  simp only [Yields, coerceMonoGDB, PyM.bind_run, PyM.get_run, PyM.ite_run, setClass, PyM.modify_run]
  by_cases h : e.colorData ≠ []
  · rw [if_pos h]
    exact coerceColorGDB_yields { e with cls := .gdb }
  · rw [if_neg h]
    repeat' split
    all_goals exact ⟨rfl, rfl, Nat.le_max_right _ _⟩

theorem selected_set (d : Bytes) :
    ∃ x, flagsSet (flagsUpdate (flagsGet (getSlice d { start := some 0, stop := some 1 })) [(5, true)]) =
      .ok [x] := by
  have hs : ∀ kv ∈ ([(5, true)] : FlagItems), kv.1 < 8 := by simp
  rcases d with _ | ⟨b, l⟩
  · obtain ⟨x, hx, -⟩ := flag_step 0 hs
    exact ⟨x, hx⟩
  · obtain ⟨x, hx, -⟩ := flag_step b hs
    have := getSlice_nat (a := 0) (b := 1) (d := b :: l) (by omega) (by simp)
    rw [show ({ start := some 0, stop := some 1 } : Slice) = Slice.nat 0 1 from rfl, this]
    exact ⟨x, hx⟩

theorem coerceGraphed_yields {e : Ent} {t : UInt8} (ht : e.typeId = [t]) (hb : e.body.mutable = true) :
    Yields none e (coerceGraphed e) := by
  unfold coerceGraphed
  rw [PyM.bind_ok (PyM.get_run e), getTypeId_one ht, PyM.bind_ok (PyM.ofExcept_run _ _)]
  by_cases h : t.toNat = 0x23
  · rw [if_pos h]
    obtain ⟨x, hx⟩ := selected_set e.body.bytes
    have hget : viewGet eqFlagsView e =
        .ok (flagsGet (getSlice e.body.bytes { start := some 0, stop := some 1 })) := rfl
    have hput : eqFlagsView.put (flagsUpdate (flagsGet (getSlice e.body.bytes { start := some 0, stop := some 1 }))
        [(5, true)]) e.body =
        ⟨.ok (), ⟨true, setSlice e.body.bytes { start := some 0, stop := some 1 } [x]⟩, []⟩ := by
      have hr : setRaw eqFlagsView.conv eqFlagsView.length (getSlice e.body.bytes eqFlagsView.slice)
          (flagsUpdate (flagsGet (getSlice e.body.bytes { start := some 0, stop := some 1 })) [(5, true)]) () =
          ⟨.ok [x], (), []⟩ := by
        refine setRaw_one (c := flagsConv) ?_
        show (PyM.ofExcept (flagsSet _)) () = _
        rw [hx]; rfl
      simp only [View.put, PyM.bind_run, PyM.get_run, PyM.lift_run, hr, hb, PyM.ite_run, PyM.set_run]
      rfl
    rw [hget, PyM.bind_ok (PyM.ofExcept_run _ _), PyM.bind_ok (viewPut_ok hput), setTypeId_run]
    refine ⟨rfl, rfl, ?_⟩
    show (setSlice e.body.bytes { start := some 0, stop := some 1 } [x]).length ≤ _
    rcases e.body.bytes with _ | ⟨b, l⟩
    · exact Nat.le_refl _
    · have hb := bounds_nat (a := 0) (b := 1) (n := (b :: l).length) (by omega) (by simp)
      rw [show ({ start := some 0, stop := some 1 } : Slice) = Slice.nat 0 1 from rfl, setSlice, hb]
      simp
  · rw [if_neg h]
    exact ⟨rfl, rfl, Nat.le_max_right _ _⟩

/-- What `coerceTyped` may raise, by class. -/
def typedFault (c : Cls) (d : Bytes) : Option PyErr :=
  match c with
  | .complex | .complexFraction | .complexRadical | .complexPi | .complexPiFraction =>
    if d.length < 10 then some .valueError else none
  | .realList | .complexList => if d.length < 3 then some .indexError else none
  | .asmProgram | .protAsmProgram => some .userWarningError
  | _ => none

theorem coerceTyped_yields (env : Env V) {e : Ent} {t : UInt8} (ht : e.typeId = [t])
    (hb : e.body.mutable = true) :
    Yields (typedFault e.cls e.body.bytes) e (coerceTyped env e) := by
  have hp := coerceProgram_yields env ht
  have hx := coerceComplex_yields (e := e)
  have hl := coerceList_yields (e := e)
  have hi := coercePicture_yields e
  have hg := coerceGraphed_yields ht hb
  have hm := coerceMonoGDB_yields e
  have hc := coerceColorGDB_yields e
  have hn : Yields none e ((pure () : PyM Ent Unit) e) := ⟨rfl, rfl, Nat.le_max_right _ _⟩
  unfold coerceTyped
  rw [get_then]
  rcases h : e.cls <;> simp only [h, reduceCtorEq, or_self, or_true, true_or, if_true, if_false, typedFault] at hp ⊢
  all_goals first | assumption | exact hl (by rw [h]; rfl)

theorem typedFault_type {t : Nat} {c : Cls} (h : Cls.getType t = some c) (d : Bytes) :
    typedFault c d = typeFault t d := by
  unfold Cls.getType at h
  split at h <;> first | (injection h with h; subst h; rfl) | cases h

theorem typeFault_none {t : Nat} (h : Cls.getType t = none) (d : Bytes) : typeFault t d = none := by
  unfold typeFault
  rw [if_neg, if_neg]
  · rintro (rfl | rfl | rfl | rfl | rfl) <;> cases h
  · rintro (rfl | rfl) <;> cases h

theorem coerceById_yields (env : Env V) {e : Ent} {t : UInt8} (ht : e.typeId = [t])
    (hb : e.body.mutable = true) :
    Yields (typeFault t.toNat e.body.bytes) e (coerceById env e) := by
  unfold coerceById
  rw [PyM.bind_ok (PyM.get_run e), getTypeId_one ht, PyM.bind_ok (PyM.ofExcept_run _ _)]
  rcases hc : Cls.getType t.toNat with _ | c
  · rw [typeFault_none hc]
    simp only [PyM.ite_run]
    split <;> exact ⟨rfl, rfl, Nat.le_max_right _ _⟩
  · rw [← typedFault_type hc]
    have := coerceTyped_yields env (e := { e with cls := c }) ht hb
    simp only [PyM.bind_run, setClass, PyM.modify_run]
    exact this

/-- What `coerce` may raise, by class, type and data. -/
def coerceFault (c : Cls) (t : Nat) (d : Bytes) : Option PyErr :=
  match c with
  | .entry => typeFault t d
  | .realE | .graphRealE =>
    match d with
    | [] => some .valueError
    | b :: l => typeFault (b.toNat % 64) (b :: l)
  | .complexE => if d.length < 10 then some .valueError else none
  | c => typedFault c d

theorem subtypeView_get {e : Ent} : viewGet subtypeView e =
    match e.body.bytes with
    | [] => .error .valueError
    | b :: _ => .ok ((b.toNat % 64 : Nat) : Int) := by
  rcases h : e.body.bytes with _ | ⟨b, l⟩
  · simp only [viewGet, View.get, subtypeView, View.mk', h]
    rfl
  · have := getSlice_nat (a := 0) (b := 1) (d := b :: l) (by omega) (by simp)
    simp only [viewGet, View.get, subtypeView, View.mk', h]
    rw [show ({ start := some 0, stop := some 1 } : Slice) = Slice.nat 0 1 from rfl, this]
    exact congrArg wrapIndexError (bits6_get b)

theorem coerce_yields (env : Env V) {e : Ent} {t : UInt8} (ht : e.typeId = [t])
    (hb : e.body.mutable = true) (hc : e.cls ∉ baseOnly) :
    Yields (coerceFault e.cls t.toNat e.body.bytes) e (coerce env e) := by
  have hreal : e.cls = .realE ∨ e.cls = .graphRealE →
      Yields (coerceFault e.cls t.toNat e.body.bytes) e (coerce env e) := by
    intro h
    have h1 : coerce env e = (PyM.ofExcept (viewGet subtypeView e) >>= fun t => setTypeId t >>= fun _ => coerceById env) e := by
      unfold coerce
      rw [get_then]
      rcases h with h | h <;> simp only [h]
    have h2 : coerceFault e.cls t.toNat e.body.bytes = match e.body.bytes with
        | [] => some .valueError
        | b :: l => typeFault (b.toNat % 64) (b :: l) := by
      rcases h with h | h <;> rw [h] <;> rfl
    rw [h1, h2, subtypeView_get]
    rcases hd : e.body.bytes with _ | ⟨b, l⟩
    · exact ⟨rfl, rfl, Nat.le_max_right _ _⟩
    · have hlt : b.toNat % 64 < 64 := Nat.mod_lt _ (by omega)
      have e1 : (((b.toNat % 64 : Nat) : Int) % 256).toNat = b.toNat % 64 := by omega
      have e2 : (UInt8.ofNat (b.toNat % 64)).toNat = b.toNat % 64 := by simp; omega
      rw [PyM.bind_ok (PyM.ofExcept_run _ _), PyM.bind_ok (setTypeId_run _ _), e1]
      have := coerceById_yields env (e := { e with typeId := [UInt8.ofNat (b.toNat % 64)] }) rfl hb
      rw [e2] at this
      simpa [Yields, faultRes, hd] using this
  have hi := coerceById_yields env ht hb
  have hy := coerceTyped_yields env ht hb
  have hx := coerceComplex_yields (e := e)
  have hr : e.cls = .realE ∨ e.cls = .graphRealE ∨ ¬(e.cls = .realE ∨ e.cls = .graphRealE) := by
    by_cases h1 : e.cls = .realE <;> by_cases h2 : e.cls = .graphRealE <;> simp [h1, h2]
  rcases hr with h | h | h
  · exact hreal (Or.inl h)
  · exact hreal (Or.inr h)
  · unfold coerce
    rw [get_then]
    rcases h' : e.cls <;> simp only [h', coerceFault, typedFault, or_true, true_or, not_true_eq_false] at hy h ⊢ <;>
      first | assumption | exact absurd h' (fun h' => hc (by rw [h']; decide))

theorem finish_yields (env : Env V) {e : Ent} {t v : UInt8} (ht : e.typeId = [t]) (hv : e.version = [v])
    (hb : e.body.mutable = true) (hc : e.cls ∉ baseOnly) :
    Yields (coerceFault e.cls t.toNat e.body.bytes) e (finish env e) := by
  obtain ⟨h1, h2⟩ := coerce_yields env ht hb hc
  unfold finish
  rcases hx : coerceFault e.cls t.toNat e.body.bytes with _ | x
  · rw [hx] at h1
    have hv2 := h2.1.trans hv
    have h3 : coerce env e = ⟨.ok (), (coerce env e).st, (coerce env e).warns⟩ := out_of_res h1
    rw [PyM.bind_ok h3, PyM.bind_run]
    simp only [PyM.get_run, PyM.bind_run, checkLoaded, getVersionByte_one hv2, PyM.ofExcept_run,
      PyM.warnAll_run]
    exact ⟨rfl, h2⟩
  · rw [hx] at h1
    have h3 : coerce env e = ⟨.error x, (coerce env e).st, (coerce env e).warns⟩ := out_of_res h1
    rw [PyM.bind_error h3]
    exact ⟨rfl, h2⟩

theorem coerceFault_load (c : Cls) (b : Bytes) :
    coerceFault c (typeIn b) (dataIn b) = loadFault c b := by
  cases c <;> rfl

theorem type_byte (b : Bytes) : ((ljust 17 b).drop 4).take 1 = [(ljust 17 b).getD 4 0] := by
  have hl : 17 ≤ (ljust 17 b).length := by simp; omega
  generalize ljust 17 b = d at hl
  rcases d with _ | ⟨a, _ | ⟨b, _ | ⟨c, _ | ⟨d, _ | ⟨e, l⟩⟩⟩⟩⟩ <;> first | rfl | (simp at hl)

theorem dataIn_length (data : Bytes) : (dataIn data).length ≤ 65535 := by
  unfold dataIn
  refine Nat.le_trans (List.length_take_le _ _) ?_
  have hl : 17 ≤ (ljust 17 data).length := by simp; omega
  unfold lengthOf
  generalize ljust 17 data = d at hl
  rcases d with _ | ⟨a, _ | ⟨b, _ | ⟨c, _ | ⟨d, l⟩⟩⟩⟩ <;> try (simp at hl; done)
  have h1 := c.toNat_lt
  have h2 := d.toNat_lt
  simp [fromLE]
  omega

theorem loadBase_yields (env : Env V) (data : Bytes) {e₀ : Ent} (hc : e₀.cls ∉ baseOnly) :
    (loadBase env data e₀).res = faultRes (loadFault e₀.cls data) ∧
      (∃ v, (loadBase env data e₀).st.version = [v]) ∧ (loadBase env data e₀).st.body.bytes.length ≤ 65535 := by
  obtain ⟨e₁, ws, v, a, h0, hv, -, -, -, htid, hbody, -, -, -, hl⟩ := loadBase_shape env data e₀
  rw [type_byte] at htid
  have hf := finish_yields env htid hv (by rw [hbody]) (by rw [h0]; exact hc)
  have hd : e₁.body.bytes = dataIn data := by rw [hbody]; rfl
  rw [hd, h0, show ((ljust 17 data).getD 4 0).toNat = typeIn data from rfl, coerceFault_load] at hf
  rw [hl]
  refine ⟨hf.1, ⟨v, hf.2.1.trans hv⟩, Nat.le_trans hf.2.2 ?_⟩
  rw [hd]
  exact Nat.max_le.2 ⟨by omega, dataIn_length data⟩

theorem checkList_ok (e : Ent) : ∃ ws, checkList e = ⟨.ok (), e, ws⟩ := by
  simp only [checkList, PyM.bind_run, PyM.get_run, PyM.ite_run]
  split <;> exact ⟨_, rfl⟩

theorem load_yields (env : Env V) (data : Bytes) {e₀ : Ent} (hc : e₀.cls ∉ baseOnly) :
    (load env data e₀).res = faultRes (loadFault e₀.cls data) ∧
      (load env data e₀).st.body.bytes.length ≤ 65535 := by
  obtain ⟨hb, ⟨v, hv⟩, hn⟩ := loadBase_yields env data hc
  have hl := out_of_res hb
  revert hl hv hn
  generalize (loadBase env data e₀).st = e'
  generalize (loadBase env data e₀).warns = ws
  intro hn hv hl
  unfold load
  rw [get_then]
  rcases hx : loadFault e₀.cls data with _ | x <;> rw [hx] at hl <;> simp only [faultRes] at hl
  · obtain ⟨w1, h1, -⟩ := checkSized_run e'
    obtain ⟨w2, h2, -⟩ := checkMatrix_run e'
    obtain ⟨w3, h3, -⟩ := checkTokens_run env hv
    obtain ⟨w4, h4⟩ := checkList_ok e'
    rcases h : e₀.cls <;>
      simp only [PyM.bind_run, PyM.get_run, hl, h1, h2, h3, h4, List.nil_append, PyM.ite_run]
    all_goals first | exact ⟨rfl, hn⟩ | (split <;> exact ⟨rfl, hn⟩)
  · rcases h : e₀.cls <;> simp only [PyM.bind_run, hl] <;> exact ⟨rfl, hn⟩

end Ent
end Verif
