import Verif.Proofs.Array
import Verif.Proofs.Group
import Verif.Proofs.EntryLoad
import Verif.Spec.Construct
import Verif.Proofs.GraphColors

/-! Lemmas about new entries, assigned data and copies. -/

namespace Verif
open Spec
namespace Ent
variable {V : Type} [LinearOrder V]

/-! ### New entries -/

theorem clearCalc_sized {c : Cls} (hz : c.isSized = true) (h0 : lengthStart c = 0)
    {k : Nat} (hd : (([0, 0] ++ c.leadingData ++ List.replicate (c.minDataLength -
      (([0, 0] : Bytes) ++ c.leadingData).length) (0 : UInt8)).drop (dataStart c)).length = k) :
    clearCalc c = toLE 2 (c.leadingData.length + k) ++ (c.leadingData ++
      List.replicate (c.minDataLength - (2 + c.leadingData.length)) 0) := by
  unfold clearCalc
  simp only [hz, if_true, h0, hd]
  have := setSlice_nat (a := 0) (b := 2) (d := ([0, 0] ++ c.leadingData ++ List.replicate
    (c.minDataLength - (([0, 0] : Bytes) ++ c.leadingData).length) (0 : UInt8)))
    (v := toLE 2 (c.leadingData.length + k)) (by omega) (by simp)
  refine Eq.trans this ?_
  simp [Nat.add_comm]
  omega

theorem clearFull_cleared {c : Cls} (hc : c ≠ .graphedEquation) : clearFull c = cleared c := by
  have key : ∀ k n, clearFull c = clearCalc c → c.isSized = true → lengthStart c = 0 →
      (dataStart c = 2 + c.leadingData.length) → c.minDataLength = 2 + c.leadingData.length + k →
      n = c.leadingData.length + k →
      toLE 2 n ++ (c.leadingData ++ List.replicate k 0) = cleared c → clearFull c = cleared c := by
    intro k n h1 h2 h3 h4 h5 h6 h7
    rw [h1, clearCalc_sized h2 h3 (k := k), ← h7, h6, h5]
    · rw [Nat.add_sub_cancel_left]
    · rw [h4, h5]
      simp [Nat.add_comm]
      omega
  cases c
  case graphedEquation => exact absurd rfl hc
  case picture =>
    have h1 : clearFull .picture = clearCalc .picture := by
      unfold clearFull; rw [if_neg (by decide), if_neg (by decide)]
    have h7 : toLE 2 21945 ++ (Cls.leadingData .picture ++ List.replicate 21945 0) = cleared .picture := by
      unfold cleared Cls.leadingData; rw [List.nil_append]; rfl
    exact key 21945 21945 h1 (by decide) (by decide) (by decide)
      (by simp [Cls.minDataLength, Cls.leadingData]) (by simp [Cls.leadingData]) h7
  case image =>
    have h1 : clearFull .image = clearCalc .image := by
      unfold clearFull; rw [if_neg (by decide), if_neg (by decide)]
    have h7 : toLE 2 22245 ++ (Cls.leadingData .image ++ List.replicate 22244 0) = cleared .image := by
      unfold cleared Cls.leadingData; rw [List.singleton_append]
    exact key 22244 22245 h1 (by decide) (by decide) (by decide)
      (by simp [Cls.minDataLength, Cls.leadingData]) (by simp [Cls.leadingData]) h7
  all_goals decide +kernel

theorem osVersionByte_initial {env : Env V} (h : InitialOldest env) : osVersionByte env env.initial = 0 := by
  unfold InitialOldest at h
  simp only [List.mem_cons, List.not_mem_nil, or_false, forall_eq_or_imp, forall_eq] at h
  obtain ⟨h0, h1, h2, h3, h4, h5, h6, h7, h8, h9⟩ := h
  simp [osVersionByte, not_le.2 h0, not_le.2 h1, not_le.2 h2, not_le.2 h3, not_le.2 h4, not_le.2 h5,
    not_le.2 h6, not_le.2 h7, not_le.2 h8, not_le.2 h9]

theorem tokenVersion_nil {env : Env V} (h : InitialOldest env) : tokenVersion env env.initial [] = 0 := by
  unfold tokenVersion
  rw [osVersionByte_initial h]
  decide

theorem tokenGetVersion_empty (env : Env V) {e : Ent} (hd : e.data = []) :
    (tokenGetVersion env e []).1 = [] ∧
      (InitialOldest env → (tokenGetVersion env e []).2 = .ok 0) := by
  unfold tokenGetVersion tokenizedVersion
  simp only [List.isEmpty_nil, if_true, hd]
  by_cases h : e.cls = .asmProgram ∨ e.cls = .protAsmProgram
  · simp only [if_pos h]
    exact ⟨trivial, fun hi => congrArg _ (tokenVersion_nil hi)⟩
  · simp only [if_neg h]
    exact ⟨rfl, fun hi => congrArg _ (tokenVersion_nil hi)⟩

/-- The version computed for a cleared entry. -/
theorem version_cleared (env : Env V) {e : Ent} (hc : e.cls ≠ .graphedEquation)
    (hm : e.metaLen = [0x0D, 0x00]) (hv : e.version.length = 1) (ha : e.archived.length = 1)
    (hb : e.body.bytes = cleared e.cls) :
    ∃ ws v, getVersion env e [] = (ws, .ok v) ∧ (∀ w ∈ ws, w ∉ corruption) ∧
      (e.cls ∉ gdbClasses → InitialOldest env → UInt8.ofNat v = blankVersion e.cls ∧ ws = []) := by
  have htok : getVersion env e [] = tokenGetVersion env e [] → e.data = [] → blankVersion e.cls = 0 →
      ∃ ws v, getVersion env e [] = (ws, .ok v) ∧ (∀ w ∈ ws, w ∉ corruption) ∧
      (e.cls ∉ gdbClasses → InitialOldest env → UInt8.ofNat v = blankVersion e.cls ∧ ws = []) := by
    intro h1 h2 h3
    obtain ⟨h4, h5⟩ := tokenGetVersion_empty env h2
    refine ⟨_, _, h1, ?_, ?_⟩
    · intro w hw
      have hw' : w ∈ (tokenGetVersion env e []).1 := hw
      rw [h4] at hw'; simp at hw'
    · intro _ hi
      have := h5 hi
      unfold tokenGetVersion at this h4
      simp only [Except.ok.injEq] at this
      exact ⟨by rw [this, h3]; rfl, h4⟩
  have hpure : ∀ v, getVersion env e [] = ([], .ok v) → UInt8.ofNat v = blankVersion e.cls →
      ∃ ws v, getVersion env e [] = (ws, .ok v) ∧ (∀ w ∈ ws, w ∉ corruption) ∧
      (e.cls ∉ gdbClasses → InitialOldest env → UInt8.ofNat v = blankVersion e.cls ∧ ws = []) :=
    fun v h1 h2 => ⟨[], v, h1, by simp, fun _ _ => ⟨h2, rfl⟩⟩
  have hgdb : getVersion env e [] = ((gdbGetVersion env e []).1, .ok (gdbGetVersion env e []).2) →
      e.cls ∈ gdbClasses →
      ∃ ws v, getVersion env e [] = (ws, .ok v) ∧ (∀ w ∈ ws, w ∉ corruption) ∧
      (e.cls ∉ gdbClasses → InitialOldest env → UInt8.ofNat v = blankVersion e.cls ∧ ws = []) := by
    intro h1 h2
    refine ⟨_, _, h1, ?_, fun h => absurd h2 h⟩
    intro w hw
    unfold gdbGetVersion at hw
    simp only [List.mem_flatMap, List.mem_map, exists_exists_and_eq_and] at hw
    obtain ⟨b, -, hb⟩ := hw
    exact decode_warns _ _ _ w hb
  have hd : e.data = (cleared e.cls).drop (dataStart e.cls) := by unfold data; rw [hb]
  have hgv : getVersion env e [] = getVersionN env (e.body.bytes.length + 0 + 1) e [] := rfl
  obtain ⟨c, hcls⟩ : ∃ c, e.cls = c := ⟨_, rfl⟩
  cases c
  case graphedEquation => exact absurd hcls hc
  case group =>
    refine hpure 0 ?_ (by rw [hcls]; rfl)
    have hdd : e.data = [] := by rw [hd, hcls]; decide
    have hu := ungroup_ok env [] (by simp) (g := e)
      (by rw [flashBytes_thirteen hm hv ha]; intro h; have := congrArg List.length h; simp [hv, ha] at this)
      [] (by rw [if_pos rfl, hdd]; rfl)
    rw [hgv]; unfold getVersionN
    simp only [hcls, hu]
    rfl
  all_goals
    first
    | (refine htok ?_ ?_ ?_
       · rw [hgv]; unfold getVersionN; simp only [hcls]; done
       · rw [hd, hcls]; decide
       · rw [hcls]; rfl)
    | (refine hgdb ?_ ?_
       · rw [hgv]; unfold getVersionN; simp only [hcls]; done
       · rw [hcls]; decide)
    | (refine hpure (Cls.versions e.cls).head! ?_ ?_
       · rw [hgv]; unfold getVersionN; simp only [hcls]; rfl
       · rw [hcls]; rfl)
    | (refine hpure (blankVersion e.cls).toNat ?_ (by simp)
       rw [hgv]; unfold getVersionN; simp only [hcls, hd]; rfl)

theorem blank_cleared {c : Cls} (h : c.isSub .gdb = false) : blank c = cleared c := by
  unfold blank
  rw [if_neg]
  intro hm
  have : ∀ c ∈ [Cls.gdb, .func, .param, .polar, .seq], c.isSub .gdb = true := by decide
  rw [this c hm] at h
  exact absurd h (by simp)

/-- The colours are set in a cleared colour graph database. -/
theorem setColors_blank {e : Ent} (h : e.cls.isSub .gdb = true) (hb : e.body = ⟨true, cleared e.cls⟩) :
    setColors e = ⟨.ok (), { e with body := ⟨true, blank e.cls⟩ }, []⟩ := by
  have htab : ∀ c : Cls, c.isSub .gdb = true → cleared c = (toLE 2 (blankSize c - 2) ++ List.replicate (blankSize c - 7) 0) ++ [0, 0, 0, 0, 0] ∧
      blank c = (toLE 2 (blankSize c - 2) ++ List.replicate (blankSize c - 7) 0) ++ [0x0D, 0x03, 0, 0, 0] := by
    intro c hg
    cases c <;> first | (exact absurd hg (by decide)) | decide +kernel
  obtain ⟨h1, h2⟩ := htab _ h
  rw [h1] at hb
  rw [h2]
  exact setColors_run h hb

theorem new_colors (env : Env V) {c : Cls} {a : NewArgs} {d : Bytes} {load : PyM Ent Unit} {e e' : Ent}
    {ws : List Warn} (hb : newBase c a = .ok e) (hcls : e'.cls = c) (hbd : e'.body = ⟨true, cleared c⟩)
    (hr : newRest env a d load e = ⟨.ok (), e', ws⟩) :
    (new env c a d load) () = ⟨.ok { e' with body := ⟨true, blank c⟩ }, (), ws⟩ := by
  by_cases hg : c.isSub .gdb = true
  · have := setColors_blank (e := e') (by rw [hcls]; exact hg) (by rw [hbd, hcls])
    rw [hcls] at this
    simp [new, newInit, hb, PyM.bind_run, hr, hg, this, hcls]
  · rw [blank_cleared (by simpa using hg), ← hbd]
    exact new_run env (by simpa using hg) hb hr

/-- A new entry without data. -/
theorem new_blank (env : Env V) {c : Cls} (hc : c ≠ .graphedEquation) (a : NewArgs)
    (hf : a.forFlash = true) :
    ∃ v ws, (new env c a []) () = ⟨.ok ⟨c, [0x0D, 0x00], [UInt8.ofNat (c.typeId.getD 0xFF)], a.name, [v],
        [if a.archived = some true then 0x80 else 0x00], ⟨true, blank c⟩⟩, (), ws⟩ ∧
      (∀ w ∈ ws, w ∉ corruption) ∧
      (∀ n, a.version = some n → v = UInt8.ofNat n ∧ ws = []) ∧
      (a.version = none → c ∉ gdbClasses → InitialOldest env → v = blankVersion c ∧ ws = []) := by
  have harch : (if a.archived.getD false = true then (0x80 : UInt8) else 0x00) =
      if a.archived = some true then 0x80 else 0x00 := by
    rcases a.archived with _ | _ | _ <;> rfl
  have hbase : newBase c a = .ok ⟨c, [0x0D, 0x00], [UInt8.ofNat (c.typeId.getD 0xFF)], a.name,
      [UInt8.ofNat (a.version.getD 0)], [if a.archived = some true then 0x80 else 0x00], ⟨true, []⟩⟩ := by
    unfold newBase initMeta
    rw [hf]
    simp only [if_true, harch]
  rcases hver : a.version with _ | n
  · obtain ⟨ws, v, hg, hw, hs⟩ := version_cleared env (e := ⟨c, [0x0D, 0x00],
      [UInt8.ofNat (c.typeId.getD 0xFF)], a.name, [UInt8.ofNat (a.version.getD 0)],
      [if a.archived = some true then 0x80 else 0x00], ⟨true, cleared c⟩⟩) hc rfl rfl rfl rfl
    refine ⟨UInt8.ofNat v, ws, ?_, hw, by simp, fun _ => hs⟩
    have hvv : UInt8.ofNat ((v : Int) % 256).toNat = UInt8.ofNat v := by
      apply UInt8.toNat_inj.1; simp; omega
    have hrest : newRest env a [] (pure ()) ⟨c, [0x0D, 0x00],
        [UInt8.ofNat (c.typeId.getD 0xFF)], a.name, [UInt8.ofNat (a.version.getD 0)],
        [if a.archived = some true then 0x80 else 0x00], ⟨true, []⟩⟩ = ⟨.ok (), ⟨c, [0x0D, 0x00],
        [UInt8.ofNat (c.typeId.getD 0xFF)], a.name, [UInt8.ofNat v],
        [if a.archived = some true then 0x80 else 0x00], ⟨true, cleared c⟩⟩, ws⟩ := by
      simp only [newRest, PyM.bind_run, PyM.modify_run, clearFull_cleared hc, ne_eq, not_true_eq_false, if_false, hver,
        if_true, PyM.pure_run, PyM.get_run, PyM.warnAll_run, PyM.ofExcept_run, setVersion_run]
      simp only [hver] at hg
      rw [hg]
      simp [metaLength, fromLE, hvv]
    exact new_colors env hbase rfl rfl hrest
  · refine ⟨UInt8.ofNat n, [], ?_, by simp, by simp, by simp⟩
    have hrest : newRest env a [] (pure ()) ⟨c, [0x0D, 0x00],
        [UInt8.ofNat (c.typeId.getD 0xFF)], a.name, [UInt8.ofNat (a.version.getD 0)],
        [if a.archived = some true then 0x80 else 0x00], ⟨true, []⟩⟩ = ⟨.ok (), ⟨c, [0x0D, 0x00],
        [UInt8.ofNat (c.typeId.getD 0xFF)], a.name, [UInt8.ofNat n],
        [if a.archived = some true then 0x80 else 0x00], ⟨true, cleared c⟩⟩, []⟩ := by
      simp only [newRest, PyM.bind_run, PyM.modify_run, clearFull_cleared hc, ne_eq, not_true_eq_false, if_false, hver,
        PyM.pure_run]
      simp
    exact new_colors env hbase rfl rfl hrest

/-! ### Assigned data -/

/-- Assigning data to a sized entry, the data starting `k` bytes after the length. -/
theorem setData_gen {gv : GetVersion} {value : Bytes} {e : Ent} {d : Bytes} {ws : List Warn} {v k : Nat}
    (hz : e.cls.isSized = true) (h1 : lengthStart e.cls = 0) (h2 : dataStart e.cls = 2 + k)
    (hb : e.body = ⟨true, d⟩) (hd : 2 + k ≤ d.length) (hn : value.length < 65536)
    (hg : gv { e with body := ⟨true, toLE 2 value.length ++ d.drop 2⟩ } value = (ws, .ok v)) :
    setData gv value e = ⟨.ok (), { e with
        version := [UInt8.ofNat v]
        body := ⟨true, (toLE 2 value.length ++ (d.drop 2).take k) ++ value⟩ },
      ws ++ if e.metaLength = 11 then [.flashlessVersion] else []⟩ := by
  have hp := dataPut_ok (e := { e with
      version := [UInt8.ofNat v]
      body := ⟨true, toLE 2 value.length ++ d.drop 2⟩ }) (value := value) rfl
      (by simp [h2]; omega) e.cls rfl
  have ht : (toLE 2 value.length ++ d.drop 2).take (2 + k) = toLE 2 value.length ++ (d.drop 2).take k := by
    rw [List.take_append, length_toLE, Nat.add_sub_cancel_left,
      List.take_of_length_le (by simp [length_toLE])]
  rw [h2] at hp
  simp only [ht] at hp
  have hm : ({ e with body := ⟨true, toLE 2 value.length ++ d.drop 2⟩ } : Ent).metaLength =
      e.metaLength := rfl
  simp only [setData, PyM.bind_run, PyM.get_run, hz, if_true, setLength_ok h1 hb (by omega) hn,
    updateVersion_ok hg, hm]
  rw [hp]
  simp

/-- The classes whose version is the same for every content, and that version. -/
theorem getVersion_fixed (env : Env V) {e : Ent} (d : Bytes) (hc : fixedVersion e.cls = true) :
    ∃ v, getVersion env e d = ([], .ok v) ∧ UInt8.ofNat v = blankVersion e.cls := by
  rw [getVersion_eq]; unfold getVersionN
  obtain ⟨c, hcls⟩ : ∃ c, e.cls = c := ⟨_, rfl⟩
  rw [hcls] at hc
  cases c
  all_goals
    first
    | exact absurd hc (by decide)
    | (simp only [hcls]; exact ⟨_, rfl, rfl⟩)

/-- The length of a graphed equation, behind its flag byte. -/
theorem setLength_graphed {e : Ent} {n : Nat} {f : UInt8} {d : Bytes} (hc : e.cls = .graphedEquation)
    (hb : e.body = ⟨true, f :: d⟩) (hd : 2 ≤ d.length) (hn : n < 65536) :
    setLength n e = ⟨.ok (), { e with body := ⟨true, f :: (toLE 2 n ++ d.drop 2)⟩ }, []⟩ := by
  have hs : (lengthView e.cls).slice = Slice.nat 1 3 := by rw [hc]; rfl
  have hl : (lengthView e.cls).length = some 2 := by rw [hc]; rfl
  have hput : (lengthView e.cls).put (n : Int) e.body = ⟨.ok (), ⟨true, f :: (toLE 2 n ++ d.drop 2)⟩, []⟩ := by
    rw [hb]
    have h1 : setRaw (lengthView e.cls).conv (lengthView e.cls).length
        (getSlice (f :: d) (lengthView e.cls).slice) (n : Int) () = ⟨.ok (toLE 2 n), (), []⟩ := by
      rw [hl]
      refine setRaw_eq (n := 2) ?_ (length_toLE 2 n)
      show (PyM.ofExcept (intToBytesLE (n : Int) 2) : PyM Unit Bytes) () = _
      rw [intToBytesLE_ok (by have : 256 ^ 2 = 65536 := rfl; omega)]
      rfl
    rw [view_put_ok h1, hs, setSlice_nat (by omega) (by simp; omega)]
    rfl
  simp only [setLength, PyM.bind_run, PyM.get_run]
  rw [viewPut_ok hput]
  simp

theorem setLength_graphed_overflow {e : Ent} {n : Nat} (hc : e.cls = .graphedEquation) (hn : 65536 ≤ n) :
    setLength n e = ⟨.error .overflowError, e, []⟩ := by
  have hl : (lengthView e.cls).length = some 2 := by rw [hc]; rfl
  have hput : (lengthView e.cls).put (n : Int) e.body = ⟨.error .overflowError, e.body, []⟩ := by
    refine view_put_error ?_
    rw [hl]
    unfold setRaw
    rw [PyM.bind_error]
    show (PyM.ofExcept (intToBytesLE (n : Int) 2) : PyM Unit Bytes) () = _
    rw [intToBytesLE_overflow (by have : 256 ^ 2 = 65536 := rfl; omega)]
    rfl
  simp only [setLength, PyM.bind_run, PyM.get_run]
  rw [viewPut_error hput]
  simp


/-- The version can be computed, groups and short complex numbers apart. -/
theorem getVersion_total (env : Env V) {e : Ent} (d : Bytes) (hg : e.cls ≠ .group)
    (hc : e.cls ∈ complexClasses ∨ e.cls = .complexE → 10 ≤ (if d = [] then e.data else d).length) 
    (hl : plainData e.cls = false) : ∃ ws v, getVersion env e d = (ws, .ok v) := by
  have hif : (if d.isEmpty then e.data else d) = if d = [] then e.data else d := by
    rcases d with _ | ⟨b, bs⟩ <;> rfl
  by_cases hcx : e.cls ∈ complexClasses ∨ e.cls = .complexE
  · rw [getVersion_complex env d hcx, hif]
    have hl := hc hcx
    generalize (if d = [] then e.data else d) = x at hl
    unfold complexVersion
    rw [List.getElem?_eq_getElem (show 0 < x.length by omega), List.getElem?_eq_getElem (show 9 < x.length by omega)]
    simp only
    split
    · exact ⟨_, _, rfl⟩
    · split <;> exact ⟨_, _, rfl⟩
  · rw [getVersion_eq]; unfold getVersionN
    obtain ⟨c, hcls⟩ : ∃ c, e.cls = c := ⟨_, rfl⟩
    rw [hcls] at hg hcx hl
    cases c
    all_goals
      first
      | exact absurd rfl hg
      | exact absurd hl (by decide)
      | exact absurd (by decide) hcx
      | (simp only [hcls]; exact ⟨_, _, rfl⟩)

/-! ### Copies -/

theorem coerce_settled (env : Env V) {e : Ent} {t : UInt8} (ht : e.typeId = [t]) (hs : Settled env e) :
    coerce env e = ⟨.ok (), e, []⟩ := by
  obtain ⟨hty, hs⟩ := hs
  have htn : fromLE e.typeId = t.toNat := by rw [ht]; simp [fromLE]
  rw [htn] at hty
  have heta : ∀ c, e.cls = c → ({ e with cls := c } : Ent) = e := by
    rintro c rfl; rfl
  rcases hs with h | ⟨h, ha⟩ | ⟨h, hl, hi⟩ | ⟨h, hl, hi⟩ | ⟨h, hl, hi⟩ | ⟨h, hl⟩ | ⟨h, hl⟩ | ⟨h, hl⟩ |
    ⟨h, hl⟩ | ⟨h, hl, hcd⟩
  · exact coerce_plain env h
  · have hrun : coerce env e = coerceProgram env e := by
      rcases h with h | h <;> simp [coerce, coerceTyped, PyM.bind_run, h]
    rw [hrun, coerceProgram_run env ht (by rcases h with h | h <;> rw [h] <;> decide)
      (by rcases h with h | h <;> rw [h] <;> decide), ha]
    rw [heta]
    rcases h with h | h <;> rw [h] at hty ⊢ <;> injection hty with hty <;> rw [← hty] <;> rfl
  · have hrun : coerce env e = coerceComplex e := by
      simp only [complexClasses, List.mem_cons, List.not_mem_nil, or_false] at h
      rcases h with h | h | h | h | h <;> simp [coerce, coerceTyped, PyM.bind_run, h]
    obtain ⟨t', h1, h2, h3, -⟩ := complex_class h
    have e1 : t' = imagType e.body.bytes := Option.some.inj (h1.symm.trans hi)
    have e2 : t' = t.toNat := Option.some.inj (h1.symm.trans hty)
    rw [hrun, coerceComplex_run hl (by rw [← e1]; exact h2), ← e1, e2]
    have : [UInt8.ofNat t.toNat] = e.typeId := by rw [ht]; simp
    rw [this]
  · have hrun : coerce env e = coerceTyped env e := by simp [coerce, PyM.bind_run, h]
    have h1 : (1 : Nat) = t.toNat := by rw [h] at hty; exact Option.some.inj hty
    have hr : coerceTyped env e = coerceList e := by simp [coerceTyped, PyM.bind_run, h]
    have hd : dataStart e.cls = 2 := by rw [h]; rfl
    have : ∃ c, Cls.getType ((e.body.bytes.getD 2 0).toNat % 32) = some c ∧ c.isSub .realE = true := by
      revert hi
      generalize (e.body.bytes.getD 2 0).toNat % 32 = n
      intro hm
      simp only [List.mem_cons, List.not_mem_nil, or_false] at hm
      rcases hm with rfl | rfl | rfl | rfl <;> exact ⟨_, rfl, by decide⟩
    obtain ⟨c, hc, hs⟩ := this
    rw [hrun, hr, (coerceList_run hd hl hc).1 hs, heta _ h]
  · have hrun : coerce env e = coerceTyped env e := by simp [coerce, PyM.bind_run, h]
    have hr : coerceTyped env e = coerceList e := by simp [coerceTyped, PyM.bind_run, h]
    have hd : dataStart e.cls = 2 := by rw [h]; rfl
    have : ∃ c, Cls.getType ((e.body.bytes.getD 2 0).toNat % 32) = some c ∧ c.isSub .realE = false ∧
        c.isSub .complexE = true := by
      revert hi
      generalize (e.body.bytes.getD 2 0).toNat % 32 = n
      intro hm
      simp only [List.mem_cons, List.not_mem_nil, or_false] at hm
      rcases hm with rfl | rfl | rfl | rfl | rfl <;> exact ⟨_, rfl, by decide⟩
    obtain ⟨c, hc, hs, hs2⟩ := this
    rw [hrun, hr, (coerceList_run hd hl hc).2 hs hs2, heta _ h]
  · have hrun : coerce env e = coercePicture e := by simp [coerce, coerceTyped, PyM.bind_run, h]
    rw [hrun, coercePicture_run (by rw [h]; rfl), hl, if_pos (by decide), heta _ h]
  · have hrun : coerce env e = coercePicture e := by simp [coerce, coerceTyped, PyM.bind_run, h]
    rw [hrun, coercePicture_run (by rw [h]; rfl), hl, if_neg (by decide), if_pos (by decide), heta _ h]
  · have hrun : coerce env e = coercePicture e := by simp [coerce, coerceTyped, PyM.bind_run, h]
    rw [hrun, coercePicture_run (by rw [h]; rfl), hl, if_neg (by decide), if_neg (by decide),
      if_pos (by decide), heta _ h]
  · have hlen : 4 ≤ e.body.bytes.length := by
      by_contra hlen
      rw [List.getD, List.getElem?_eq_none (by omega)] at hl
      simp only [List.mem_cons, List.not_mem_nil, or_false] at h
      rcases h with h | h | h | h <;> rw [h] at hl <;> exact absurd hl (by decide)
    have hmode := modeId_eq e hlen
    rw [hl] at hmode
    simp only [List.mem_cons, List.not_mem_nil, or_false] at h
    rcases h with h | h | h | h
    all_goals
      rw [h] at hmode
      simp only [coerce, coerceTyped, coerceColorGDB, PyM.bind_run, PyM.get_run, setClass, PyM.modify_run,
        PyM.ite_run, h, hmode, modeByte]
      simp [heta _ h]
  · have hlen : 4 ≤ e.body.bytes.length := by
      by_contra hlen
      rw [List.getD, List.getElem?_eq_none (by omega)] at hl
      simp only [List.mem_cons, List.not_mem_nil, or_false] at h
      rcases h with h | h | h | h <;> rw [h] at hl <;> exact absurd hl (by decide)
    have hmode := modeId_eq e hlen
    rw [hl] at hmode
    simp only [List.mem_cons, List.not_mem_nil, or_false] at h
    rcases h with h | h | h | h
    all_goals
      rw [h] at hmode
      simp only [coerce, coerceTyped, coerceMonoGDB, PyM.bind_run, PyM.get_run, setClass, PyM.modify_run,
        PyM.ite_run, h, hmode, modeByte, hcd]
      simp [heta _ h]

theorem checkList_run (e : Ent) :
    ∃ ws, checkList e = ⟨.ok (), e, ws⟩ ∧ ∀ w ∈ ws, w ∉ corruption := by
  simp only [checkList, PyM.bind_run, PyM.get_run, PyM.ite_run]
  split
  · exact ⟨_, rfl, by simp [corruption]⟩
  · exact ⟨_, rfl, by simp⟩

set_option linter.unusedSimpArgs false in
/-- Loading is the base method followed by harmless checks, whatever the class. -/
theorem load_any (env : Env V) {data : Bytes} {e₀ e' : Ent} {ws : List Warn} {v : UInt8}
    (hb : loadBase env data e₀ = ⟨.ok (), e', ws⟩) (hv : e'.version = [v]) :
    ∃ ws', load env data e₀ = ⟨.ok (), e', ws ++ ws'⟩ ∧ ∀ w ∈ ws', w ∉ corruption := by
  obtain ⟨w1, h1, c1⟩ := checkSized_run e'
  obtain ⟨w2, h2, c2⟩ := checkMatrix_run e'
  obtain ⟨w3, h3, c3⟩ := checkTokens_run env hv
  obtain ⟨w4, h4, c4⟩ := checkList_run e'
  have c13 : ∀ w ∈ w1 ++ w3, w ∉ corruption := by
    intro w hw
    rcases List.mem_append.1 hw with h | h
    exacts [c1 w h, c3 w h]
  rcases hc : e₀.cls
  all_goals
    simp only [load, PyM.bind_run, PyM.get_run, hc, hb, h1, h2, h3, h4, PyM.ite_run, PyM.pure_run, List.nil_append]
    first
    | exact ⟨_, rfl, c1⟩
    | exact ⟨_, rfl, c2⟩
    | exact ⟨_, rfl, c4⟩
    | exact ⟨_, rfl, c13⟩
    | (by_cases hp : e'.cls = .asmProgram ∨ e'.cls = .protAsmProgram
       · simp only [if_pos hp]; exact ⟨w1, by simp, c1⟩
       · simp only [if_neg hp]; exact ⟨_, rfl, c13⟩)
    | exact ⟨[], by simp⟩

set_option linter.unusedSimpArgs false in
/-- What the base method raises, loading raises. -/
theorem load_any_error (env : Env V) {data : Bytes} {e₀ : Ent} {x : PyErr}
    (hb : (loadBase env data e₀).res = .error x) : (load env data e₀).res = .error x := by
  obtain ⟨r, e', ws, hr⟩ : ∃ r e' ws, loadBase env data e₀ = ⟨r, e', ws⟩ := ⟨_, _, _, rfl⟩
  rw [hr] at hb
  simp only at hb
  subst hb
  rcases hc : e₀.cls
  all_goals simp only [load, PyM.bind_run, PyM.get_run, hc, hr]

/-- What coercion raises, copying raises. -/
theorem copy_error (env : Env V) {e : Ent} (hw : WF e)
    (hno : e.metaLen = [0x0D, 0x00] → ¬FlashIsLength e) (hq : e.cls ≠ .graphedEquation) {x : PyErr}
    (hco : (coerce env { e with body := ⟨true, e.body.bytes⟩ }).res = .error x) :
    (copyEnt env e ()).res = .error x := by
  obtain ⟨v₀, w₀, hnew, -⟩ := new_blank env hq { name := env.unnamed } rfl
  have hb := bytes_ok (e := e) hw.length
  have hbase := loadBase_bytes env hw hno hb ⟨e.cls, [0x0D, 0x00], [UInt8.ofNat (e.cls.typeId.getD 0xFF)],
    env.unnamed, [v₀], [if (none : Option Bool) = some true then 0x80 else 0x00], ⟨true, blank e.cls⟩⟩
  have hfin : (finish env { e with body := ⟨true, e.body.bytes⟩ }).res = .error x := by
    unfold finish
    rw [PyM.bind_run]
    rcases hcc : coerce env { e with body := ⟨true, e.body.bytes⟩ } with ⟨r, e', ws⟩
    rw [hcc] at hco
    simp only at hco
    subst hco
    rfl
  have hl := load_any_error env (x := x) (data := e.metaLen ++ toLE 2 e.calcLength ++ e.typeId ++ e.name ++
      e.flashBytes ++ toLE 2 e.calcLength ++ e.body.bytes)
    (e₀ := ⟨e.cls, [0x0D, 0x00], [UInt8.ofNat (e.cls.typeId.getD 0xFF)],
    env.unnamed, [v₀], [if (none : Option Bool) = some true then 0x80 else 0x00], ⟨true, blank e.cls⟩⟩)
    (by rw [hbase]; exact hfin)
  simp only [copyEnt, PyM.bind_run, hnew, hb, PyM.ofExcept_run]
  generalize hgen : load env _ _ = o at hl ⊢
  obtain ⟨r, e', ws⟩ := o
  simp only at hl
  subst hl
  rfl

end Ent
end Verif
