import Verif.Spec.Opening
import Verif.Proofs.OpenAny
import Verif.Props.ValueFile

/-! C144: the warnings when an entry that was saved is opened. -/

namespace Verif
open Spec Ent
variable {V : Type} [LinearOrder V]

theorem measured_class {c : Cls} (hc : c ∈ measuredClasses) :
    lengthStart c = 0 ∧ dataStart c = 2 + c.leadingData.length ∧ (c = .image ∨ c.leadingData = []) ∧ c.leadingData.length ≤ 1 := by
  revert hc; cases c <;> decide +kernel

/-- The check of the length field. -/
theorem checkSized_eq {e : Ent} (hc : e.cls ∈ measuredClasses) (hi : e.cls = .image → fromLE (e.body.bytes.take 2) = 22245) :
    checkSized e = ⟨.ok (), e, if e.cls ∈ measuredClasses ∧ fromLE (e.body.bytes.take 2) ≠ e.body.bytes.length - 2 then
      [.sizedLength] else []⟩ := by
  obtain ⟨h1, h2, h3, h4⟩ := measured_class hc
  have hiff : (e.sizedLength ≠ e.cls.leadingData.length + e.data.length) ↔
      (e.cls ∈ measuredClasses ∧ fromLE (e.body.bytes.take 2) ≠ e.body.bytes.length - 2) := by
    unfold Ent.data
    rw [sizedLength_zero h1, h2, List.length_drop]
    simp only [hc, true_and, ne_eq]
    rcases h3 with h3 | h3
    · have := hi h3
      omega
    · rw [h3]
      simp only [List.length_nil]
      omega
  simp only [checkSized, PyM.bind_run, PyM.get_run, PyM.ite_run, PyM.warn_run, PyM.pure_run, hiff]
  split <;> simp

/-- The check of the tokens. -/
theorem checkTokens_eq (env : Env V) {e : Ent} (hc : e.cls ∈ plainTokenClasses) {v : UInt8} (hv : e.version = [v]) :
    checkTokens env e = ⟨.ok (), e, (decode env.initial env.table (e.body.bytes.drop 2)).warns ++
      if fromLE e.version ≠
        tokenVersion env (decode env.initial env.table (e.body.bytes.drop 2)).since (e.body.bytes.drop 2) then [.tokenVersion] else []⟩ := by
  have hd : e.data = e.body.bytes.drop 2 := by
    unfold Ent.data
    rw [show dataStart e.cls = 2 by revert hc; cases e.cls <;> decide]
  have ha : ¬ (e.cls = .asmProgram ∨ e.cls = .protAsmProgram) := by revert hc; cases e.cls <;> decide
  simp only [checkTokens, PyM.bind_run, PyM.get_run, PyM.ofExcept_run, getVersionByte_one hv,
    PyM.warnAll_run, PyM.ite_run, List.nil_append, tokenizedVersion, if_neg ha, hd]
  have h1 : fromLE e.version = v.toNat := by rw [hv]; simp [fromLE]
  rw [h1]
  split <;> simp

/-- The classes that can be settled. -/
def settledClasses : List Cls :=
  measuredClasses ++ complexClasses ++
    [.real, .undefReal, .realFraction, .realRadical, .realPi, .realPiFraction, .matrix, .realList, .complexList]

/-- Loading the bytes of an entry into one of its class: the entry and all warnings. -/
theorem load_exact (env : Env V) {e e₀ : Ent} (hw : WF e) (hno : e.metaLen = [0x0D, 0x00] → ¬FlashIsLength e)
    (hs : Settled env e) {b : Bytes} (hb : e.bytes = .ok b) (hc : e₀.cls = e.cls) :
    load env b e₀ = ⟨.ok (), { e with body := ⟨true, e.body.bytes⟩ }, openingWarnings env e⟩ := by
  obtain ⟨t, ht⟩ := length_one hw.typeId
  obtain ⟨v, hv⟩ := length_one hw.version
  have hco : coerce env { e with cls := e.cls, body := ⟨true, e.body.bytes⟩ } =
      ⟨.ok (), { e with body := ⟨true, e.body.bytes⟩ }, []⟩ :=
    coerce_settled env (e := { e with body := ⟨true, e.body.bytes⟩ }) ht hs
  have hbase := loadBase_bytes env hw hno hb e₀
  rw [hc, finish_of_coerce env hco hv (metaLen_iff (show e.metaLen.length = 2 from metaLen_length hw.toSections))] at hbase
  have hck : checkType e₀ (fromLE e.typeId) = [] := by
    unfold checkType
    simp only [hc, hs.1, if_true]
  rw [hck] at hbase
  simp only [after, List.nil_append] at hbase
  have hi : e.cls = .image → fromLE (e.body.bytes.take 2) = 22245 := by
    intro h
    rcases hs.2 with hs | hs | hs | hs | hs | hs | hs | hs | hs | hs
    case inr.inr.inr.inr.inr.inr.inr.inl => exact hs.2
    all_goals rw [h] at hs; first | exact absurd hs (by decide) | exact absurd hs.1 (by decide)
  have hsized : e.cls ∈ measuredClasses → _ := fun h => checkSized_eq (e := { e with body := ⟨true, e.body.bytes⟩ }) h hi
  have htok : e.cls ∈ plainTokenClasses → _ := fun h => checkTokens_eq env (e := { e with body := ⟨true, e.body.bytes⟩ }) h hv
  have hset : e.cls ∈ settledClasses := by
    rcases hs.2 with hs | hs | hs | hs | hs | hs | hs | hs | hs | hs
    · revert hs; cases e.cls <;> decide
    all_goals (have hs' := hs.1; revert hs'; cases e.cls <;> decide)
  unfold openingWarnings dataWarnings
  rcases h : e.cls
  all_goals first
    | (rw [h] at hset; exact absurd hset (by decide))
    | skip
  all_goals
    rw [h] at hsized htok
    simp only [load, PyM.bind_run, PyM.get_run, hc, h, hbase, List.nil_append]
  all_goals first
    | (have h1 := hsized (by decide)
       have h2 := htok (by decide)
       simp only at h1 h2
       simp only [h1, h2, if_neg (show ¬ (Cls.program = .asmProgram ∨ Cls.program = .protAsmProgram) by decide),
         if_neg (show ¬ (Cls.protProgram = .asmProgram ∨ Cls.protProgram = .protAsmProgram) by decide)]
       simp [plainTokenClasses])
    | (have h1 := hsized (by decide)
       simp only at h1
       simp only [h1]
       simp [plainTokenClasses])
    | (simp [measuredClasses, plainTokenClasses]; done)
    | (simp only [checkList, PyM.bind_run, PyM.get_run, PyM.ite_run, PyM.warn_run, PyM.pure_run, elemLength, calcLength,
         measuredClasses, plainTokenClasses]
       simp [eq_comm (a := fromLE (List.take 2 e.body.bytes))]
       split <;> simp)
    | (simp only [checkMatrix, PyM.bind_run, PyM.get_run, calcLength,
         measuredClasses, plainTokenClasses]
       simp [eq_comm (b := List.length e.body.bytes / 9)]
       split <;> simp)

/-- **C144**: an entry that was saved and is opened with its class is read back with exactly the warnings that are due: those of
making an empty entry of the class, of which there are none outside of graph databases, and those for a version that the class does
not have, for missing flash bytes, and for length fields, tokens and versions that disagree. -/
theorem C144_open (env : OsEnv V) (ord : Model → Nat) (e : Ent) (name filename : Str) (nm : Bytes) (fs : Files)
    (hw : WF e) (hno : e.metaLen = [0x0D, 0x00] → ¬FlashIsLength e) (hs : Settled env.toEnv e) (hne : e.body.bytes ≠ [])
    (hl : e.len < 65536) (hdot : '.' ∉ filename) :
    ∃ fs' ws, e.save env ord name filename none none fs = ⟨.ok (), fs', ws⟩ ∧
      (∀ n, n ≠ pathOf name filename e.cls.extensions.1 → fs' n = fs n) ∧
      openAs env.toEnv e.cls nm (pathOf name filename e.cls.extensions.1) fs' =
        ⟨.ok { e with body := ⟨true, e.body.bytes⟩ }, fs',
          ((new env.toEnv e.cls { name := nm } []) ()).warns ++ openingWarnings env.toEnv e⟩ ∧
      (e.cls ∉ gdbClasses → InitialOldest env.toEnv → ((new env.toEnv e.cls { name := nm } []) ()).warns = []) := by
  have hq : e.cls ≠ .graphedEquation := by
    intro h
    rcases hs.2 with hs | hs | hs | hs | hs | hs | hs | hs | hs | hs <;> rw [h] at hs <;>
      first | exact absurd hs (by decide) | exact absurd hs.1 (by decide)
  obtain ⟨hd, wx, hexp, hwd, -⟩ := C106_export_partial env.toEnv e none none hne (fun _ h => nomatch h) rfl
  have hext' : Var.extension ord ⟨hd, [e], none⟩ = .ok (e.cls.extensions.1, []) := rfl
  obtain ⟨we, hp⟩ := fileName_ok (v := ⟨hd, [e], none⟩) (name := name) (filename := filename) fun _ => ⟨_, hext'⟩
  obtain ⟨wk, hc⟩ := saveCheck_ok env ⟨hd, [e], none⟩ fun hm => absurd rfl hm
  have hse : ∀ x ∈ (⟨hd, [e], none⟩ : Var).entries, Sections x := by
    intro x hx; cases List.mem_singleton.1 hx; exact hw.toSections
  have hsum : ((⟨hd, [e], none⟩ : Var).entries.map Ent.len).sum ≤ 65535 := by simp; omega
  obtain ⟨bs, b, -, hb, -⟩ := (C28_framing ⟨hd, [e], none⟩ hwd hse).1 (by simp; omega)
  obtain ⟨v₀, w₀, hnew, -, -, hw₀⟩ := new_blank env.toEnv hq { name := nm } rfl
  have hb1 := Ent.bytes_ok (e := e) hw.length
  have hload := load_exact env.toEnv hw hno hs hb1
    (e₀ := ⟨e.cls, [0x0D, 0x00], [UInt8.ofNat (e.cls.typeId.getD 0xFF)], nm, [v₀],
      [if (none : Option Bool) = some true then 0x80 else 0x00], ⟨true, blank e.cls⟩⟩) rfl
  have hopen := openFile_bytes env.toEnv hwd (v := ⟨hd, [e], none⟩) rfl hse hb hsum hb1 hload
  have hb2 : 2 ≤ b.length := by
    obtain ⟨region, hr⟩ := entryBytes_ok hse hsum
    have hrl := Var.entryBytes_length hse hr
    rw [bytes_framed hse hr (by omega)] at hb
    injection hb with hb
    rw [← hb]
    simp [length_toLE]
    omega
  have hew : extensionWarns e.cls (pathOf name filename e.cls.extensions.1) = [] := by
    have := extensionWarns_ext (extension_mem hext') ((if filename = [] then name else filename) ++ ['.'])
    rw [← this]
    unfold pathOf
    cases filename <;> simp [hdot]
  refine ⟨fs.write (pathOf name filename e.cls.extensions.1) b, wx ++ (we ++ wk), ?_, ?_, ?_, ?_⟩
  · unfold Ent.save
    simp only [hexp, save_ok hp hc hb fs]
  · intro n hn
    simp [Files.write, hn]
  · unfold openAs
    have hf : fs.write (pathOf name filename e.cls.extensions.1) b (pathOf name filename e.cls.extensions.1) = some b := by simp [Files.write]
    simp only [hf, hnew, hopen, if_neg (Nat.not_lt.2 hb2), hew]
    simp [restWarning]
  · intro h1 h2
    rw [hnew]
    exact (hw₀ rfl h1 h2).2

/-- **C144, silence**: nothing is reported exactly if nothing is unusual. -/
theorem C144_quiet_partial (env : Env V) (e : Ent) : openingWarnings env e = [] ↔ Usual env e := by
  unfold openingWarnings loadWarnings dataWarnings
  constructor
  · intro h
    simp only [List.append_eq_nil_iff, ite_eq_right_iff, List.cons_ne_nil, imp_false, not_and, not_not] at h
    obtain ⟨⟨h1, h2⟩, ⟨⟨⟨h3, h4⟩, h5⟩, h6⟩, h7⟩ := h
    refine ⟨?_, ?_, h3, h4, h5, h6, h7⟩
    · by_cases hv : e.cls.versions = [0x00]
      exacts [Or.inl hv, Or.inr (h1 hv)]
    · intro hm
      simpa using h2 hm
  · intro h
    simp only [List.append_eq_nil_iff, ite_eq_right_iff, List.cons_ne_nil, imp_false, not_and, not_not]
    refine ⟨⟨?_, ?_⟩, ⟨⟨⟨h.length, h.tokens⟩, h.reals⟩, h.complexes⟩, h.sides⟩
    · intro hv
      exact h.version.resolve_left hv
    · intro hm
      simpa using h.flash hm

/-- **C144, assigned tokens**: after data was assigned to a program, string or equation, nothing is unusual exactly if the data are
tokens and the version they need is one that the library knows. -/
theorem C144_assigned_partial (env : Env V) (e : Ent) (old d : Bytes) (hc : e.cls ∈ plainTokenClasses) (hf : e.metaLen = [0x0D, 0x00])
    (hb : e.body = ⟨true, old⟩) (hold : 2 ≤ old.length) (hn : d.length < 65536) (hne : d ≠ []) :
    ∃ e' ws, setData (getVersion env) d e = ⟨.ok (), e', ws⟩ ∧ e'.cls = e.cls ∧ e'.body.bytes = toLE 2 d.length ++ d ∧
      (Usual env e' ↔ (decode env.initial env.table d).warns = [] ∧
        tokenVersion env (decode env.initial env.table d).since d ∈ Cls.tokenVersions) := by
  have hg : getVersion env { e with body := ⟨true, toLE 2 d.length ++ old.drop 2⟩ } d =
      ((decode env.initial env.table d).warns, .ok (tokenVersion env (decode env.initial env.table d).since d)) := by
    have hde : d.isEmpty = false := by rcases d with _ | _ <;> simp at hne ⊢
    have ha : ¬ (e.cls = .asmProgram ∨ e.cls = .protAsmProgram) := by revert hc; cases e.cls <;> decide
    unfold getVersion getVersionN
    have hc' := hc
    simp only [plainTokenClasses, List.mem_cons, List.not_mem_nil, or_false] at hc'
    rcases hc' with h | h | h | h | h <;>
    · simp only [h, tokenGetVersion, tokenizedVersion, hde]
      simp
  have hcls : e.cls.isSized = true ∧ lengthStart e.cls = 0 ∧ dataStart e.cls = 2 ∧ e.cls.versions = Cls.tokenVersions ∧
      e.cls ∉ [Cls.realList, .complexList, .matrix] ∧ e.cls ∈ measuredClasses := by
    revert hc; cases e.cls <;> decide +kernel
  obtain ⟨c1, c2, c3, c4, c5, c6⟩ := hcls
  have hrun := setData_ok c1 c2 c3 hb hold hn hg
  have hle := tokenVersion_le env (decode env.initial env.table d).since d
  have hver : fromLE [UInt8.ofNat (tokenVersion env (decode env.initial env.table d).since d)] =
      tokenVersion env (decode env.initial env.table d).since d := by
    simp [fromLE]
    omega
  simp only [List.mem_cons, List.not_mem_nil, or_false, not_or] at c5
  refine ⟨_, _, hrun, rfl, rfl, ?_⟩
  constructor
  · intro h
    have h1 := (h.tokens hc).1
    have h2 := h.version
    simp only [c4, hver] at h1 h2
    rw [List.drop_left' (length_toLE 2 _)] at h1
    exact ⟨h1, h2.resolve_left (by decide)⟩
  · rintro ⟨h1, h2⟩
    refine ⟨Or.inr (by simp only [c4, hver]; exact h2), ?_, ?_, ?_, fun h => absurd h c5.1, fun h => absurd h c5.2.1,
      fun h => absurd h c5.2.2⟩
    · intro h
      simp only [hf] at h
      exact absurd h (by decide)
    · intro _
      simp only [List.take_left' (length_toLE 2 _), List.length_append, length_toLE]
      rw [fromLE_toLE_of_lt (by simpa using hn)]
      omega
    · intro _
      simp only [List.drop_left' (length_toLE 2 _), hver, h1, true_and]

/-- **C144 is false** of lists and matrices: their numbers of elements are compared with the length of the whole entry instead of the
data, so that a list that says two elements and has sixteen bytes of data, and a matrix that says 1 by 2 and has as many, are not
reported, although both have one element only and seven stray bytes. -/
theorem C144_stray_false (env : Env V) (c : Cls) (hc : c = .realList ∨ c = .matrix) (nm rest : Bytes) (hr : rest.length = 15)
    (e : Ent) (he : e = ⟨c, [0x0D, 0x00], [if c = .matrix then 0x02 else 0x01], nm, [0x00], [0x00],
      ⟨true, (if c = .matrix then [0x02, 0x01] else [0x02, 0x00]) ++ 0x00 :: rest⟩⟩) :
    e.cls.typeId = some (fromLE e.typeId) ∧ openingWarnings env e = [] ∧ e.data.length = 16 := by
  subst he
  have hno : c ∉ measuredClasses ∧ c ∉ plainTokenClasses ∧ c ≠ .complexList ∧ (0 : Nat) ∈ c.versions ∧ dataStart c = 2 ∧
      c.typeId = some (if c = .matrix then 2 else 1) := by
    rcases hc with rfl | rfl <;> decide +kernel
  obtain ⟨h1, h2, h3, h4, h5, h6⟩ := hno
  refine ⟨?_, (C144_quiet_partial env _).2 ⟨Or.inr h4, fun h => absurd (show ([0x0D, 0x00] : Bytes) = [0x0B, 0x00] from h) (by decide),
    fun h => absurd h h1, fun h => absurd h h2, fun h => ?_, fun h => absurd h h3, fun h => ?_⟩, ?_⟩
  · rcases hc with rfl | rfl <;> simp [h6, fromLE]
  · cases (show c = .realList from h)
    simp [hr, fromLE]
  · cases (show c = .matrix from h)
    simp [hr, fromLE]
  · rcases hc with rfl | rfl <;> simp [Ent.data, h5, hr]

/-- A program whose length field is one too large and whose version was changed to 7; a list that says two elements and has one and
seven stray bytes. -/
example : openingWarnings sampleEnv { sampleProgram with version := [0x00] } = [] ∧
    openingWarnings sampleEnv { sampleProgram with
      version := [0x07], body := ⟨true, toLE 2 (sampleProgram.body.bytes.length - 1) ++ sampleProgram.body.bytes.drop 2⟩ } =
      [.versionUnrec, .sizedLength, .tokenVersion] ∧
    (load sampleEnv ([0x0D, 0x00, 0x12, 0x00, 0x01, 0x5D, 0x00, 0, 0, 0, 0, 0, 0, 0x00, 0x00, 0x12, 0x00, 0x02, 0x00] ++
      List.replicate 16 0) sampleList).warns = [] := by decide +kernel

end Verif
