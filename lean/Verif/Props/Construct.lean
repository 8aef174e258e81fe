import Verif.Proofs.Construct
import Verif.Spec.Sample

/-! New entries, assigned data and copies. -/

namespace Verif
open Spec Ent
variable {V : Type} [LinearOrder V]

/-- **C75** A new entry is blank: for every class but graphed equations, every name, version and
archived flag, the constructor succeeds, and the entry has the type of its class, flash bytes, the
given name and flags, and the blank data of its kind. A version not given is that of the
kind, except for graph databases, which compute it from their blank equations. -/
theorem C75_blank (env : Env V) (c : Cls) (hc : c ≠ .graphedEquation) (a : NewArgs)
    (hf : a.forFlash = true) :
    ∃ v ws, (new env c a []) () = ⟨.ok ⟨c, [0x0D, 0x00], [UInt8.ofNat (c.typeId.getD 0xFF)], a.name, [v],
        [if a.archived = some true then 0x80 else 0x00], ⟨true, blank c⟩⟩, (), ws⟩ ∧
      (∀ n, a.version = some n → v = UInt8.ofNat n ∧ ws = []) ∧
      (a.version = none → c ∉ gdbClasses → InitialOldest env → v = blankVersion c ∧ ws = []) := by
  obtain ⟨v, ws, h1, -, h2, h3⟩ := new_blank env hc a hf
  exact ⟨v, ws, h1, h2, h3⟩

example : InitialOldest sampleEnv := by unfold InitialOldest; decide

example : ((new sampleEnv .complexRadical { name := [0x41, 0, 0, 0, 0, 0, 0, 0] } []) ()).res.toOption =
    some ⟨.complexRadical, [0x0D, 0x00], [0x1D], [0x41, 0, 0, 0, 0, 0, 0, 0], [0x10], [0x00],
      ⟨true, [0x0C, 0, 0, 0, 0, 0, 0, 0, 0, 0x1D, 0, 0, 0, 0, 0, 0, 0, 0]⟩⟩ := by decide +kernel

/-- A new colour graph database of function mode ends with its colours: the grid is medium grey and the axes black. -/
example : ((new sampleEnv .func { name := [0x61, 0, 0, 0, 0, 0, 0, 0], version := some 3 } []) ()).res.toOption =
    some ⟨.func, [0x0D, 0x00], [0x08], [0x61, 0, 0, 0, 0, 0, 0, 0], [0x03], [0x00],
      ⟨true, [126, 0] ++ List.replicate 121 0 ++ [0x0D, 0x03, 0, 0, 0]⟩⟩ := by decide +kernel

/-- **C76, what holds** Assigning data: afterwards the data read back are those assigned, what
precedes them is the length of the data or stays, and nothing else changes but the version. The
version of kinds with a fixed version becomes that; lists and matrices keep theirs. Excluded are
data whose version as that of a group raises (see `C26_raise_false`), graphed equations (see `C76_graphed_false`), and
data of complex numbers that end before the tenth byte. -/
theorem C76_assign_partial (env : Env V) (e : Ent) (old d : Bytes) (hb : e.body = ⟨true, old⟩)
    (hold : dataStart e.cls ≤ old.length)
    (hg : e.cls = .group → ∃ v, (getVersion env { e with body := ⟨true, toLE 2 d.length ++ old.drop 2⟩ } d).2 = .ok v)
    (hq : e.cls ≠ .graphedEquation)
    (hc : e.cls ∈ complexClasses ∨ e.cls = .complexE → 10 ≤ (if d = [] then old else d).length)
    (hn : e.cls.isSized = true → d.length ≤ 65535) :
    ∃ v ws, assignData env d e = ⟨.ok (), { e with
        version := v, body := ⟨true, dataPrefix e.cls old d ++ d⟩ }, ws⟩ ∧
      Ent.data { e with version := v, body := ⟨true, dataPrefix e.cls old d ++ d⟩ } = d ∧
      (fixedVersion e.cls = true → v = [blankVersion e.cls]) ∧
      (plainData e.cls = true → v = e.version ∧ ws = []) := by
  by_cases hp : plainData e.cls = true
  · have hs : dataStart e.cls = 2 := by
      revert hp; cases e.cls <;> decide
    have hpre : dataPrefix e.cls old d = old.take 2 := by
      revert hp; cases e.cls <;> first | exact fun _ => rfl | exact fun h => absurd h (by decide)
    have hput := dataPut_ok (value := d) hb hold e.cls rfl
    rw [hs] at hput
    refine ⟨e.version, [], ?_, ?_, ?_, fun _ => ⟨rfl, rfl⟩⟩
    · unfold assignData
      rw [PyM.bind_run, PyM.get_run]
      simp only [hp, if_true, hput, hpre, List.nil_append]
    · show (dataPrefix e.cls old d ++ d).drop (dataStart e.cls) = d
      rw [hs, hpre, List.drop_left' (by rw [List.length_take]; omega)]
    · intro h
      have : ∀ c : Cls, fixedVersion c = true → plainData c = true → False := by
        intro c; cases c <;> decide
      exact absurd hp (this e.cls h)
  · have hp' : plainData e.cls = false := by simpa using hp
    have hfix : ∀ {ws v} (x : Ent), x.cls = e.cls → getVersion env x d = (ws, .ok v) →
        fixedVersion e.cls = true → [UInt8.ofNat v] = [blankVersion e.cls] := by
      intro ws v x hx hv hf
      obtain ⟨v', h1, h2⟩ := getVersion_fixed env (e := x) d (by rw [hx]; exact hf)
      rw [h1] at hv
      injection hv with _ hv
      injection hv with hv
      rw [← hv, h2, hx]
    by_cases hz : e.cls.isSized = true
    · obtain ⟨k, hk, hpre⟩ : ∃ k, dataStart e.cls = 2 + k ∧
          dataPrefix e.cls old d = toLE 2 d.length ++ (old.drop 2).take k := by
        have : ∀ c : Cls, c.isSized = true → c ≠ .graphedEquation → ∃ k, dataStart c = 2 + k ∧
            dataPrefix c old d = toLE 2 d.length ++ (old.drop 2).take k := by
          intro c hz hq
          cases c
          case graphedEquation => exact absurd rfl hq
          case image => exact ⟨1, rfl, rfl⟩
          all_goals
            first
            | exact absurd hz (by decide)
            | exact ⟨0, rfl, (List.append_nil _).symm⟩
        exact this e.cls hz hq
      obtain ⟨ws, v, hv⟩ : ∃ ws v, getVersion env { e with body := ⟨true, toLE 2 d.length ++ old.drop 2⟩ } d =
          (ws, .ok v) := by
        by_cases hgr : e.cls = .group
        · obtain ⟨v, hv⟩ := hg hgr
          exact ⟨_, v, Prod.ext rfl hv⟩
        refine getVersion_total env
          (e := { e with body := ⟨true, toLE 2 d.length ++ old.drop 2⟩ }) d hgr
          (fun h => ?_) hp'
        exact (by
          have h : e.cls ∈ complexClasses ∨ e.cls = .complexE := h
          exact absurd hz (by
            simp only [complexClasses, List.mem_cons, List.not_mem_nil, or_false] at h
            rcases h with (h | h | h | h | h) | h <;> rw [h] <;> decide))
      have hset := setData_gen (gv := getVersion env) hz (by simp [lengthStart, hq]) hk hb (by omega)
        (by have := hn hz; omega) hv
      refine ⟨[UInt8.ofNat v], ws ++ if e.metaLength = 11 then [.flashlessVersion] else [], ?_, ?_,
        hfix { e with body := ⟨true, toLE 2 d.length ++ old.drop 2⟩ } rfl hv,
        fun h => absurd h hp⟩
      · unfold assignData
        rw [PyM.bind_run, PyM.get_run]
        simp only [hp', Bool.false_eq_true, if_false, hset, hpre, List.nil_append]
      · show (dataPrefix e.cls old d ++ d).drop (dataStart e.cls) = d
        rw [hpre, hk, List.drop_left' (by
          rw [List.length_append, length_toLE, List.length_take, List.length_drop]; omega)]
    · have hz' : e.cls.isSized = false := by simpa using hz
      have hs : dataStart e.cls = 0 := by
        revert hz' hp'; cases e.cls <;> decide
      have hpre : dataPrefix e.cls old d = [] := by
        revert hp' hz'; cases e.cls <;>
          first | exact fun _ _ => rfl | exact fun h => absurd h (by decide) | exact fun _ h => absurd h (by decide)
      have hdat : e.data = old := by unfold data; rw [hs, hb]; rfl
      obtain ⟨ws, v, hv⟩ := getVersion_total env (e := e) d
        (fun h => absurd hz' (by rw [h]; decide)) (by rw [hdat]; exact hc) hp'
      have hput := dataPut_ok (e := { e with version := [UInt8.ofNat v] }) (value := d) (d := old) hb
        (by simp [hs]) e.cls rfl
      rw [hs] at hput
      refine ⟨[UInt8.ofNat v], ws ++ if e.metaLength = 11 then [.flashlessVersion] else [], ?_, ?_,
        hfix e rfl hv, fun h => absurd h hp⟩
      rotate_left
      · show (dataPrefix e.cls old d ++ d).drop (dataStart e.cls) = d
        rw [hpre, hs]; rfl
      · unfold assignData setData
        rw [PyM.bind_run, PyM.get_run]
        simp only [hp', hz', Bool.false_eq_true, if_false, PyM.bind_run, PyM.get_run,
          updateVersion_ok hv, hput, hpre]
        simp

/-- **C76, data too long** Sized entries take at most 65535 bytes; more raises `OverflowError` and
changes nothing. -/
theorem C76_too_long (env : Env V) (e : Ent) (d : Bytes) (hz : e.cls.isSized = true)
    (hq : e.cls ≠ .graphedEquation) (hn : 65535 < d.length) :
    assignData env d e = ⟨.error .overflowError, e, []⟩ := by
  have hp : plainData e.cls = false := by
    revert hz; cases e.cls <;> decide
  have h := setLength_overflow (e := e) (n := d.length) (by simp [lengthStart, hq]) (by omega)
  unfold assignData setData
  simp only [PyM.bind_run, PyM.get_run, hp, hz, Bool.false_eq_true, if_false, if_true, h]
  rfl

/-- **C76, complex numbers too short** Data of a complex number that end before the tenth byte raise
`IndexError` and change nothing. -/
theorem C76_complex_short (env : Env V) (e : Ent) (d : Bytes)
    (hc : e.cls ∈ complexClasses ∨ e.cls = .complexE) (hd : d ≠ []) (hn : d.length < 10) :
    assignData env d e = ⟨.error .indexError, e, []⟩ := by
  have hv : getVersion env e d = ([], .error .indexError) := by
    rw [getVersion_complex env d hc]
    have : d.isEmpty = false := by rcases d with _ | _ <;> simp at hd ⊢
    rw [this]
    unfold complexVersion
    simp only [Bool.false_eq_true, if_false]
    rw [List.getElem?_eq_none (show d.length ≤ 9 by omega)]
    split
    · rename_i h; cases h
    · rfl
  have h1 : plainData e.cls = false ∧ e.cls.isSized = false := by
    simp only [complexClasses, List.mem_cons, List.not_mem_nil, or_false] at hc
    rcases hc with (h | h | h | h | h) | h <;> rw [h] <;> decide
  unfold assignData setData
  simp only [PyM.bind_run, PyM.get_run, h1.1, h1.2, Bool.false_eq_true, if_false,
    updateVersion_error hv]
  rfl

/-- **C76 and C26 fail for graphed equations** Their data overlap the length: whatever is assigned overwrites the upper
byte of the length, so that the length never counts the bytes that follow it. -/
theorem C76_graphed_false (env : Env V) (e : Ent) (f : UInt8) (old d : Bytes) (hc : e.cls = .graphedEquation)
    (hb : e.body = ⟨true, f :: old⟩) (hold : 2 ≤ old.length) (hn : d.length ≤ 65535) :
    ∃ v ws, assignData env d e = ⟨.ok (), { e with
        version := v, body := ⟨true, f :: UInt8.ofNat d.length :: d⟩ }, ws⟩ ∧
      (d ≠ [] → fromLE ((d.take 1).cons (UInt8.ofNat d.length)) ≠ (d.drop 1).length) := by
  obtain ⟨ws, v, hv⟩ := getVersion_total env (e := { e with body := ⟨true, f :: (toLE 2 d.length ++ old.drop 2)⟩ }) d
    (by show e.cls ≠ _; rw [hc]; decide) (fun h => by
      have h : e.cls ∈ complexClasses ∨ e.cls = .complexE := h
      rw [hc] at h
      exact absurd h (by decide)) (by show plainData e.cls = false; rw [hc]; rfl)
  obtain ⟨l0, l1, hl, hl2⟩ := toLE_two d.length (by omega)
  have h0 : l0 = UInt8.ofNat d.length := by
    apply UInt8.toNat_inj.1
    simp only [fromLE] at hl2
    have := l0.toNat_lt
    simp
    omega
  refine ⟨[UInt8.ofNat v], ws ++ if e.metaLength = 11 then [.flashlessVersion] else [], ?_, ?_⟩
  · unfold assignData setData
    have hset := setLength_graphed (e := e) (n := d.length) hc hb hold (by omega)
    have hput := dataPut_ok (e := { e with
        version := [UInt8.ofNat v], body := ⟨true, f :: (toLE 2 d.length ++ old.drop 2)⟩ }) (value := d)
      (d := f :: (toLE 2 d.length ++ old.drop 2)) rfl (by
        have : dataStart e.cls = 2 := by rw [hc]; rfl
        simp [this]
        omega) e.cls rfl
    have hs : dataStart e.cls = 2 := by rw [hc]; rfl
    have hp : plainData e.cls = false := by rw [hc]; rfl
    have hz : e.cls.isSized = true := by rw [hc]; rfl
    have hm : ({ e with body := ⟨true, f :: (toLE 2 d.length ++ old.drop 2)⟩ } : Ent).metaLength = e.metaLength := rfl
    rw [PyM.bind_run, PyM.get_run]
    simp only [hp, hz, Bool.false_eq_true, if_false, if_true, PyM.bind_run, PyM.get_run, hset,
      updateVersion_ok hv, hm]
    rw [hput]
    simp [hs, hl, h0]
  · intro hne h
    obtain ⟨x, xs, rfl⟩ := List.exists_cons_of_ne_nil hne
    simp [fromLE] at h
    omega

/-- **C76, graphed equations, data too long**: more than 65535 bytes raise `OverflowError` and change nothing. -/
theorem C76_graphed_too_long (env : Env V) (e : Ent) (d : Bytes) (hc : e.cls = .graphedEquation) (hn : 65535 < d.length) :
    assignData env d e = ⟨.error .overflowError, e, []⟩ := by
  have hp : plainData e.cls = false := by rw [hc]; rfl
  have hz : e.cls.isSized = true := by rw [hc]; rfl
  unfold assignData setData
  simp only [PyM.bind_run, PyM.get_run, hp, hz, Bool.false_eq_true, if_false, if_true,
    setLength_graphed_overflow (e := e) (n := d.length) hc (by omega)]
  rfl

/-- The equation of the two tokens `A` and `B`: the length becomes 2 + 256 · 0x41. -/
example : (assignData sampleEnv [0x41, 0x42] ⟨.graphedEquation, [0x0D, 0x00], [0x03], [0x5E, 0x10], [0x01], [0x00],
    ⟨true, [0x23, 1, 0, 0x41]⟩⟩).st.body.bytes = [0x23, 2, 0x41, 0x42] := by decide +kernel

example : (assignData sampleEnv [1, 2, 3] sampleAppVar).st =
    { sampleAppVar with body := ⟨true, [3, 0, 1, 2, 3]⟩ } := by decide +kernel

example : (assignData sampleEnv [1, 2, 3] ⟨.matrix, [0x0D, 0x00], [0x02], [], [0x10], [0x00],
    ⟨true, [4, 5, 6]⟩⟩).st.body = ⟨true, [4, 5, 1, 2, 3]⟩ := by decide +kernel

/-- **C77, what holds** A copy of an entry whose content agrees with its class is made without any
warning of damage, has the same class, sections and data, and equals the entry; flash bytes
that repeat the data length are excluded. -/
theorem C77_copy_partial (env : Env V) (e : Ent) (hw : WF e)
    (hno : e.metaLen = [0x0D, 0x00] → ¬FlashIsLength e) (hs : Settled env e) :
    ∃ ws, copyEnt env e () = ⟨.ok { e with body := ⟨true, e.body.bytes⟩ }, (), ws⟩ ∧
      (∀ w ∈ ws, w ∉ corruption) ∧ eqEnt e { e with body := ⟨true, e.body.bytes⟩ } = .ok true := by
  obtain ⟨t, ht⟩ := length_one hw.typeId
  obtain ⟨v, hv⟩ := length_one hw.version
  have hq : e.cls ≠ .graphedEquation := by
    intro h
    rcases hs.2 with hs | hs | hs | hs | hs | hs | hs | hs | hs | hs <;> rw [h] at hs <;>
      first | exact absurd hs (by decide) | exact absurd hs.1 (by decide)
  obtain ⟨v₀, w₀, hnew, hw₀, -⟩ := new_blank env hq { name := env.unnamed } rfl
  have hb := bytes_ok (e := e) hw.length
  have hco : coerce env { e with cls := e.cls, body := ⟨true, e.body.bytes⟩ } =
      ⟨.ok (), { e with body := ⟨true, e.body.bytes⟩ }, []⟩ :=
    coerce_settled env (e := { e with body := ⟨true, e.body.bytes⟩ }) ht hs
  have hbase := loadBase_bytes env hw hno hb ⟨e.cls, [0x0D, 0x00], [UInt8.ofNat (e.cls.typeId.getD 0xFF)],
    env.unnamed, [v₀], [if (none : Option Bool) = some true then 0x80 else 0x00], ⟨true, blank e.cls⟩⟩
  rw [finish_of_coerce env hco hv (metaLen_iff (show e.metaLen.length = 2 from
    metaLen_length hw.toSections))] at hbase
  have hck : checkType ⟨e.cls, [0x0D, 0x00], [UInt8.ofNat (e.cls.typeId.getD 0xFF)],
    env.unnamed, [v₀], [if (none : Option Bool) = some true then 0x80 else 0x00], ⟨true, blank e.cls⟩⟩
    (fromLE e.typeId) = [] := by
    unfold checkType
    simp only [hs.1, if_true]
  rw [hck] at hbase
  simp only [after, List.nil_append] at hbase
  obtain ⟨ws', hload, hws'⟩ := load_any env hbase hv
  refine ⟨w₀ ++ (loadWarnings e.cls e.metaLen e.version ++ ws'), ?_, ?_, ?_⟩
  · simp only [copyEnt, PyM.bind_run, hnew, hb, PyM.ofExcept_run, hload]
    simp
  · intro w hw
    simp only [List.mem_append] at hw
    rcases hw with h | h | h
    · exact hw₀ w h
    · exact loadWarnings_ok _ _ _ w h
    · exact hws' w h
  · unfold eqEnt
    simp only [if_true, hb, show Ent.bytes { e with body := ⟨true, e.body.bytes⟩ } = e.bytes from rfl]
    simp

/-- **C77 fails for assembly programs**: copying any of them raises. -/
theorem C77_asm_false (env : Env V) (e : Ent) (hw : WF e)
    (hno : e.metaLen = [0x0D, 0x00] → ¬FlashIsLength e)
    (hc : e.cls = .asmProgram ∨ e.cls = .protAsmProgram) :
    (copyEnt env e ()).res = .error .userWarningError := by
  have hq : e.cls ≠ .graphedEquation := by rcases hc with h | h <;> rw [h] <;> decide
  have hco : (coerce env { e with body := ⟨true, e.body.bytes⟩ }).res = .error .userWarningError := by
    rcases hc with h | h <;>
      simp [coerce, coerceTyped, coerceProgram, PyM.bind_run, h]
  exact copy_error env hw hno hq hco

/-- **C77 fails for empty lists**: copying any of them raises. -/
theorem C77_empty_list_false (env : Env V) (e : Ent) (hw : WF e)
    (hno : e.metaLen = [0x0D, 0x00] → ¬FlashIsLength e)
    (hc : e.cls = .realList ∨ e.cls = .complexList) (hb : e.body.bytes.length = 2) :
    (copyEnt env e ()).res = .error .indexError := by
  have hq : e.cls ≠ .graphedEquation := by rcases hc with h | h <;> rw [h] <;> decide
  have hd : Ent.data { e with body := ⟨true, e.body.bytes⟩ } = [] := by
    show e.body.bytes.drop (dataStart e.cls) = []
    have : dataStart e.cls = 2 := by rcases hc with h | h <;> rw [h] <;> rfl
    rw [this]; exact List.drop_eq_nil_of_le (by omega)
  have hco : (coerce env { e with body := ⟨true, e.body.bytes⟩ }).res = .error .indexError := by
    have hr : coerce env { e with body := ⟨true, e.body.bytes⟩ } =
        coerceList { e with body := ⟨true, e.body.bytes⟩ } := by
      rcases hc with h | h <;> simp [coerce, coerceTyped, PyM.bind_run, h]
    rw [hr]
    simp only [coerceList, PyM.bind_run, PyM.get_run, hd, byte0, PyM.ofExcept_run]
  exact copy_error env hw hno hq hco

/-- **C77 fails where the flash bytes repeat the data length**: the copy lacks them. -/
theorem C77_misfire_false : ∃ e : Ent, WF e ∧ Settled sampleEnv e ∧
    ∃ e', (copyEnt sampleEnv e ()).res = .ok e' ∧ eqEnt e e' = .ok false ∧ e'.metaLen ≠ e.metaLen := by
  refine ⟨⟨.appVar, [0x0D, 0x00], [0x15], [0x42, 0, 0, 0, 0, 0, 0, 0], [0x03], [0x00], ⟨true, [0x01, 0x00, 0xAA]⟩⟩,
    ⟨⟨Or.inr rfl, rfl, rfl, rfl, rfl⟩, Or.inl rfl, by decide, by decide⟩, ⟨rfl, Or.inl rfl⟩, ?_⟩
  refine ⟨_, rfl, by decide +kernel, by decide +kernel⟩

/-- **C77 fails where the content disagrees with the class**: an ordinary program that holds the token
`AsmPrgm` is copied as an assembly program. -/
theorem C77_class_false : ∃ e : Ent, WF e ∧ e.cls.typeId = some (fromLE e.typeId) ∧
    ¬FlashIsLength e ∧ ∃ e', (copyEnt sampleEnv e ()).res = .ok e' ∧ e'.cls ≠ e.cls ∧ eqEnt e e' = .ok false := by
  refine ⟨⟨.program, [0x0D, 0x00], [0x05], [0x42, 0, 0, 0, 0, 0, 0, 0], [0x01], [0x00],
    ⟨true, [0x02, 0x00, 0xBB, 0x6D]⟩⟩,
    ⟨⟨Or.inr rfl, rfl, rfl, rfl, rfl⟩, Or.inl rfl, by decide, by decide⟩, rfl, by unfold FlashIsLength; decide, ?_⟩
  refine ⟨_, rfl, by decide +kernel, by decide +kernel⟩

example : Settled sampleEnv sampleProgram := ⟨rfl, Or.inr (Or.inl ⟨Or.inl rfl, by decide +kernel⟩)⟩

example : (copyEnt sampleEnv sampleProgram ()).res.toOption = some sampleProgram := by decide +kernel

end Verif
