import Verif.Model.HeaderFile
import Verif.Props.VarReload
/-! Headers read from files on their own (C152), the meta section of an entry (C153) and vars without entries (C154). -/
namespace Verif
open Spec Ent
variable {V : Type} [LinearOrder V]

/-! ### C152 – headers of files -/

/-- What a header loads: the first 53 bytes, filled up with zeros. -/
theorem hdr_load_first (data : Bytes) (h : Hdr) : ∃ h', Hdr.load data h = ⟨.ok (), h', []⟩ ∧ h'.Widths ∧
    h'.bytes = data.take 53 ++ List.replicate (53 - data.length) 0 := by
  have hlen : 53 ≤ (ljust 53 data).length := by simp [ljust]; omega
  have hl : (ljust 53 data).take 53 = data.take 53 ++ List.replicate (53 - data.length) 0 := by
    unfold ljust
    rw [List.take_append]
    congr 1
    exact List.take_of_length_le (by simp)
  refine ⟨_, Hdr.load_run data h, ?_, ?_⟩
  · refine ⟨?_, ?_, ?_, ?_⟩ <;> simp only [List.length_take, List.length_drop] <;> omega
  · rw [← hl]
    generalize ljust 53 data = d at hlen
    unfold Hdr.bytes
    simp only
    have h1 : d.take 8 ++ (d.drop 8).take 2 = d.take 10 := (List.take_add (i := 8) (j := 2)).symm
    have h2 : d.take 10 ++ (d.drop 10).take 1 = d.take 11 := (List.take_add (i := 10) (j := 1)).symm
    have h3 : d.take 11 ++ (d.drop 11).take 42 = d.take 53 := (List.take_add (i := 11) (j := 42)).symm
    rw [h1, h2, h3]

/-- The constructor of headers with data: nothing but the data counts. -/
theorem hdr_init_data {data : Bytes} (hd : data ≠ []) : ∃ h, Hdr.init none none [0x1a, 0x0a] none Hdr.defaultComment data Hdr.unset =
    ⟨.ok (), h, []⟩ ∧ h.Widths ∧ h.bytes = data.take 53 ++ List.replicate (53 - data.length) 0 := by
  obtain ⟨h', h1, h2, h3⟩ := hdr_load_first data (Hdr.init none none [0x1a, 0x0a] none Hdr.defaultComment [] Hdr.unset).st
  have hi : Hdr.init none none [0x1a, 0x0a] none Hdr.defaultComment [] Hdr.unset =
      ⟨.ok (), (Hdr.init none none [0x1a, 0x0a] none Hdr.defaultComment [] Hdr.unset).st, []⟩ := by decide +kernel
  have he : data.isEmpty = false := by cases data with | nil => exact absurd rfl hd | cons => rfl
  have hb : Hdr.init none none [0x1a, 0x0a] none Hdr.defaultComment data Hdr.unset =
      (Hdr.init none none [0x1a, 0x0a] none Hdr.defaultComment [] >>= fun _ => Hdr.load data) Hdr.unset := by
    simp only [Hdr.init, he, PyM.bind_run, PyM.set_run, PyM.pure_run, List.isEmpty_nil, Bool.false_eq_true, if_false, if_true]
    rcases Hdr.setMagic (Model.magic (Option.getD none Model.ti83p)) Hdr.unset with ⟨_ | _, s1, w1⟩
    · rfl
    simp only
    rcases Hdr.setExtra [0x1a, 0x0a] s1 with ⟨_ | _, s2, w2⟩
    · rfl
    simp only
    rcases Hdr.setProductId (Option.getD none (Model.productId (Option.getD none Model.ti83p))) s2 with ⟨_ | _, s3, w3⟩
    · rfl
    simp only
    rcases Hdr.setComment Hdr.defaultComment s3 with ⟨_ | _, s4, w4⟩
    · rfl
    simp only [List.append_nil, List.nil_append, List.append_assoc]
  rw [PyM.bind_ok hi] at hb
  exact ⟨h', by rw [hb, h1]; rfl, h2, h3⟩

/-- C152, what a file gives: opening any file that has a byte as a header gives its first 53 bytes, filled up with zeros, without a
warning; an empty file gives the header of a new var, and a missing one `FileNotFoundError`. -/
theorem C152_open (path : Str) (fs : Files) :
    (∀ file, fs path = some file → file ≠ [] → ∃ h, Hdr.openHeader path fs = ⟨.ok h, fs, []⟩ ∧ h.Widths ∧
      h.bytes = file.take 53 ++ List.replicate (53 - file.length) 0) ∧
    (fs path = some [] → Hdr.openHeader path fs =
      ⟨.ok (Hdr.init none none [0x1a, 0x0a] none Hdr.defaultComment [] Hdr.unset).st, fs, []⟩) ∧
    (fs path = none → Hdr.openHeader path fs = ⟨.error .fileNotFoundError, fs, []⟩) := by
  refine ⟨fun file hp hf => ?_, fun hp => ?_, fun hp => ?_⟩
  · obtain ⟨h, h1, h2, h3⟩ := hdr_init_data hf
    refine ⟨h, ?_, h2, h3⟩
    unfold Hdr.openHeader
    simp only [hp, h1]
  · have hi : Hdr.init none none [0x1a, 0x0a] none Hdr.defaultComment [] Hdr.unset =
      ⟨.ok (), (Hdr.init none none [0x1a, 0x0a] none Hdr.defaultComment [] Hdr.unset).st, []⟩ := by decide +kernel
    unfold Hdr.openHeader
    simp only [hp]
    rw [hi]
  · unfold Hdr.openHeader
    simp only [hp]

theorem hdr_bytes_inj {h h' : Hdr} (hw : h.Widths) (hw' : h'.Widths) (he : h.bytes = h'.bytes) : h = h' := by
  have h1 := Hdr.load_bytes hw (h' := Hdr.unset)
  rw [he, Hdr.load_bytes hw'] at h1
  exact (congrArg Out.st h1).symm

/-- C152, the same header: if a file opens as a var, opening it as a header gives the header of that var. -/
theorem C152_var (env : Env V) (me : Var.ModelEnv) (path : Str) (fs : Files) (v : Var) (ws : List Warn)
    (h : Var.openVar env me path fs = ⟨.ok v, fs, ws⟩) : Hdr.openHeader path fs = ⟨.ok v.hdr, fs, []⟩ := by
  rcases hp : fs path with _ | file
  · unfold Var.openVar at h
    simp only [hp] at h
    cases congrArg Out.res h
  · unfold Var.openVar at h
    simp only [hp] at h
    unfold Var.ofData at h
    rw [PyM.bind_ok init_none_run] at h
    by_cases hf : file = []
    · subst hf
      simp only [List.isEmpty_nil, if_true, PyM.pure_run] at h
      have h4 := congrArg Out.res h
      injection h4 with h4
      rw [(C152_open path fs).2.1 hp, ← h4]
    · have he : file.isEmpty = false := by cases file with | nil => exact absurd rfl hf | cons => rfl
      simp only [he, Bool.false_eq_true, if_false, List.nil_append] at h
      obtain ⟨hd, h1, h2, h3⟩ := (C152_open path fs).1 file hp hf
      revert h
      rcases hl : Var.load env me file ⟨(Hdr.init none none [0x1a, 0x0a] none Hdr.defaultComment [] Hdr.unset).st, [], none⟩ with
        ⟨_ | _, v', w'⟩ <;> intro h
      · cases congrArg Out.res h
      · have h4 := congrArg Out.res h
        injection h4 with h4
        subst h4
        obtain ⟨ps, hc, -⟩ := Var.load_cut env me file
          (v := ⟨(Hdr.init none none [0x1a, 0x0a] none Hdr.defaultComment [] Hdr.unset).st, [], none⟩) rfl
        have hb := (C151_pieces env me file _ v' w' hl ps hc).1
        have hw : v'.hdr.Widths := by
          rw [(Var.load_pieces env me hc hl).1]
          refine ⟨?_, ?_, ?_, ?_⟩ <;> simp [ljust] <;> omega
        rw [h1, hdr_bytes_inj h2 hw (h3.trans hb.symm)]

/-- C152, headers of saved vars: whatever the entries of a var, if saving it succeeds, opening the file as a header gives its header. -/
theorem C152_saved (env : OsEnv V) (ord : Model → Nat) (v : Var) (hw : v.hdr.Widths) (name filename ext : Str) (fs fs' : Files)
    (ws : List Warn) (hext : '.' ∉ filename → ∃ we, v.extension ord = .ok (ext, we))
    (h : v.save env ord name filename fs = ⟨.ok (), fs', ws⟩) :
    Hdr.openHeader (pathOf name filename ext) fs' = ⟨.ok v.hdr, fs', []⟩ := by
  obtain ⟨we, hp⟩ := fileName_ok (name := name) hext
  rcases hb : v.bytes with x | b
  · unfold Var.save at h
    simp only [PyM.bind_run, hp, PyM.ofExcept_run, PyM.warnAll_run, hb, PyM.modify_run] at h
    rcases hc : (v.saveCheck env).2 with _ | _ <;> rw [hc] at h <;> cases congrArg Out.res h
  · have hst : fs' = fs.write (pathOf name filename ext) b := by
      unfold Var.save at h
      simp only [PyM.bind_run, hp, PyM.ofExcept_run, PyM.warnAll_run, hb, PyM.modify_run] at h
      rcases hc : (v.saveCheck env).2 with _ | _ <;> rw [hc] at h
      · cases congrArg Out.res h
      · have := (congrArg Out.st h).symm
        simp only at this
        rw [this]
        funext n
        simp only [Files.write]
        split <;> rfl
    have hfile : fs' (pathOf name filename ext) = some b := by rw [hst]; simp [Files.write]
    obtain ⟨rest, hr⟩ : ∃ rest, b = v.hdr.bytes ++ rest := by
      revert hb
      unfold Var.bytes
      repeat' split
      all_goals intro hb
      all_goals try cases hb
      rename_i l _ _ r _ _ c _
      exact ⟨l ++ (r ++ c), by simp only [List.append_assoc]⟩
    have hl := Hdr.bytes_length hw
    have hne : b ≠ [] := by
      intro h0
      have := congrArg List.length (hr.symm.trans h0)
      simp only [List.length_append, List.length_nil] at this
      omega
    obtain ⟨hd, h1, h2, h3⟩ := (C152_open (pathOf name filename ext) fs').1 b hfile hne
    rw [h1]
    have hb53 : b.take 53 ++ List.replicate (53 - b.length) 0 = v.hdr.bytes := by
      rw [hr, ← hl, List.take_left, List.length_append, Nat.sub_eq_zero_of_le (by omega)]
      simp
    rw [hdr_bytes_inj h2 hw (h3.trans hb53)]

/-- C152, borrowed headers: an entry with data that was saved with some header is in a file with that header. -/
theorem C152_borrowed (env : OsEnv V) (ord : Model → Nat) (e : Ent) (hd : Hdr) (hw : hd.Widths) (hne : e.body.bytes ≠ [])
    (name filename : Str) (fs fs' : Files) (ws : List Warn)
    (h : e.save env ord name filename (some hd) none fs = ⟨.ok (), fs', ws⟩) :
    Hdr.openHeader (pathOf name filename e.cls.extensions.1) fs' = ⟨.ok hd, fs', []⟩ := by
  obtain ⟨hd', wx, hexp, hwd, heq⟩ := C106_export_partial env.toEnv e (some hd) none hne
    (fun h hh => by cases hh; exact hw) rfl
  have heq : hd' = hd := heq hd rfl
  subst heq
  unfold Ent.save at h
  rcases hs : Var.save env ord ⟨hd', [e], none⟩ name filename fs with ⟨r, fs'', w'⟩
  simp only [hexp, hs] at h
  have h1 := congrArg Out.res h
  have h2 := congrArg Out.st h
  simp only at h1 h2
  subst h1 h2
  exact C152_saved env ord ⟨hd', [e], none⟩ hwd name filename e.cls.extensions.1 fs _ w' (fun _ => ⟨_, rfl⟩) hs

/-- C152, from a position: `load_from_file` takes 53 bytes, or what is left, from the position of the file and moves it behind them. -/
theorem C152_position (data : Bytes) (pos : Nat) (h : Hdr) : ∃ h', Hdr.loadFromFile ⟨data, pos⟩ h =
      ⟨.ok ⟨data, pos + min 53 (data.length - pos)⟩, h', []⟩ ∧ h'.Widths ∧
    h'.bytes = (data.drop pos).take 53 ++ List.replicate (53 - (data.length - pos)) 0 := by
  obtain ⟨h', h1, h2, h3⟩ := hdr_load_first ((data.drop pos).take 53) h
  refine ⟨h', ?_, h2, ?_⟩
  · unfold Hdr.loadFromFile
    simp only [PyM.bind_run, PyM.get_run, Hdr.len, Stream.read, Stream.peek, h1, PyM.pure_run, List.length_take, List.length_drop,
      List.append_nil]
  · rw [h3, List.take_take, List.length_take, List.length_drop]
    congr 2
    omega

/-- A file of twelve bytes opened as a header, and one with a var behind its header. -/
example : ((Hdr.openHeader ['a'] (fun _ => some (List.replicate 12 0x41))).res.map Hdr.bytes) =
    .ok (List.replicate 12 0x41 ++ List.replicate 41 0) := by decide +kernel

example : ((Hdr.openHeader ['a'] (fun _ => some oddFile)).res.map Hdr.bytes) = .ok (List.replicate 53 0x41) := by decide +kernel

example : (Hdr.loadFromFile ⟨[1, 2, 3] ++ oddFile, 3⟩ Hdr.unset).res = .ok ⟨[1, 2, 3] ++ oddFile, 56⟩ := by decide +kernel

/-! ### C153 – the meta section -/

/-- C153 for the raw container: the meta section that it reports is the part of the bytes of the entry that its length
announces, between the meta length and the length of the data. -/
theorem C153_raw (e : Ent) (hs : Sections e) (hl : e.body.bytes.length ≤ 65535) :
    ∃ m, e.rawMeta = .ok m ∧ m.length = fromLE e.metaLen ∧
      e.bytes = .ok (e.metaLen ++ m ++ toLE 2 e.body.bytes.length ++ e.body.bytes) := by
  have hb := Ent.bytes_ok (e := e) hl
  have hf := Ent.flashBytes_length hs
  have hm := Ent.metaLen_length hs
  have hc : e.calcLength = e.body.bytes.length := rfl
  refine ⟨toLE 2 e.calcLength ++ e.typeId ++ e.name ++ e.flashBytes, ?_, ?_, ?_⟩
  · unfold rawMeta
    rw [hb]
    simp only
    congr 1
    have hlen : (toLE 2 e.calcLength ++ e.typeId ++ e.name ++ e.flashBytes).length = e.metaLength := by
      simp only [List.length_append, length_toLE, hs.typeId, hs.name]
      omega
    have hsplit : e.metaLen ++ toLE 2 e.calcLength ++ e.typeId ++ e.name ++ e.flashBytes ++ toLE 2 e.calcLength ++ e.body.bytes =
        e.metaLen ++ ((toLE 2 e.calcLength ++ e.typeId ++ e.name ++ e.flashBytes) ++ (toLE 2 e.calcLength ++ e.body.bytes)) := by
      simp only [List.append_assoc]
    rw [hsplit]
    generalize toLE 2 e.calcLength ++ e.typeId ++ e.name ++ e.flashBytes = m at hlen
    generalize toLE 2 e.calcLength ++ e.body.bytes = r
    have hg := getSlice_nat (a := 2) (b := e.metaLength + 2) (d := e.metaLen ++ (m ++ r)) (by omega)
      (by simp only [List.length_append, hm, hlen]; omega)
    have hcast : Slice.nat 2 (e.metaLength + 2) = { start := some 2, stop := some ((e.metaLength : Int) + 2) } := by
      simp [Slice.nat]
    rw [hcast] at hg
    refine Eq.trans hg ?_
    rw [← hm, List.drop_left, Nat.add_sub_cancel, ← hlen, List.take_left]
  · simp only [List.length_append, length_toLE, hs.typeId, hs.name]
    have : fromLE e.metaLen = e.metaLength := rfl
    omega
  · rw [hb, hc]
    simp only [List.append_assoc]

/-- C153, the part that holds: the meta section of an entry with flash bytes is that of its raw container. -/
theorem C153_meta_partial (e : Ent) (hs : Sections e) (hl : e.body.bytes.length ≤ 65535) (hm : e.metaLen = [0x0D, 0x00]) :
    e.metaSection = e.rawMeta ∧ ∃ m, e.metaSection = .ok m ∧
      e.bytes = .ok (e.metaLen ++ m ++ toLE 2 e.body.bytes.length ++ e.body.bytes) := by
  obtain ⟨m, h1, h2, h3⟩ := C153_raw e hs hl
  have h4 : e.metaSection = .ok (toLE 2 e.calcLength ++ e.typeId ++ e.name ++ e.version ++ e.archived) := by
    unfold metaSection
    rw [lengthField_ok hl]
  have h5 := Ent.bytes_ok (e := e) hl
  rw [h3, Ent.flashBytes_thirteen hm hs.version hs.archived] at h5
  injection h5 with h5
  have hc : e.calcLength = e.body.bytes.length := rfl
  have h6 : m = toLE 2 e.calcLength ++ e.typeId ++ e.name ++ e.version ++ e.archived := by
    rw [← hc] at h5
    simp only [List.append_assoc] at h5
    have h7 := List.append_cancel_left h5
    have h8 : m ++ (toLE 2 e.calcLength ++ e.body.bytes) =
        (toLE 2 e.calcLength ++ e.typeId ++ e.name ++ e.version ++ e.archived) ++ (toLE 2 e.calcLength ++ e.body.bytes) := by
      simp only [List.append_assoc]; exact h7
    exact List.append_cancel_right h8
  subst h6
  exact ⟨h4.trans h1.symm, _, h4, h3⟩

/-- C153 is false of every entry without flash bytes: the meta section it reports has 13 bytes, two more than it says and writes. -/
theorem C153_flashless_false (e : Ent) (hs : Sections e) (hl : e.body.bytes.length ≤ 65535) (hm : e.metaLen = [0x0B, 0x00]) :
    ∃ m m', e.metaSection = .ok m ∧ e.rawMeta = .ok m' ∧ m.length = 13 ∧ m'.length = 11 ∧ m ≠ m' := by
  obtain ⟨m', h1, h2, -⟩ := C153_raw e hs hl
  have h3 : m'.length = 11 := by rw [h2, hm]; rfl
  have h4 : (toLE 2 e.calcLength ++ e.typeId ++ e.name ++ e.version ++ e.archived).length = 13 := by
    simp only [List.length_append, length_toLE, hs.typeId, hs.name, hs.version, hs.archived]
  refine ⟨toLE 2 e.calcLength ++ e.typeId ++ e.name ++ e.version ++ e.archived, m', ?_, h1, h4, h3, ?_⟩
  · unfold metaSection
    rw [lengthField_ok hl]
  · intro h
    rw [h] at h4
    omega

example : let e : Ent := ⟨.real, [0x0B, 0], [0], [0x41, 0, 0, 0, 0, 0, 0, 0], [0], [0], ⟨true, List.replicate 9 0⟩⟩
    Sections e ∧ e.rawMeta = .ok [9, 0, 0, 0x41, 0, 0, 0, 0, 0, 0, 0] ∧
      e.metaSection = .ok [9, 0, 0, 0x41, 0, 0, 0, 0, 0, 0, 0, 0, 0] :=
  ⟨⟨Or.inl rfl, rfl, rfl, rfl, rfl⟩, by decide +kernel, by decide +kernel⟩

/-! ### C154 – vars without entries -/

/-- C154, clearing: a cleared var has its header and its model, is falsy, and is written as the header and four zero bytes. -/
theorem C154_clear (v : Var) : ∃ v', Var.clear v = ⟨.ok (), v', []⟩ ∧ v'.hdr = v.hdr ∧ v'.model = v.model ∧ v'.entries = [] ∧
    v'.toBool = false ∧ v'.bytes = .ok (v.hdr.bytes ++ [0, 0, 0, 0]) := by
  refine ⟨{ v with entries := [] }, rfl, rfl, rfl, rfl, rfl, ?_⟩
  have h1 : intToBytesLE ((0 : Nat) : Int) 2 = .ok [0, 0] := by decide +kernel
  have h2 : intToBytesLE (((0 &&& 0xFFFF : Nat)) : Int) 2 = .ok [0, 0] := by decide +kernel
  unfold Var.bytes
  have h3 : Var.entryLength { v with entries := [] } = 0 := rfl
  have h4 : Var.checksum { v with entries := [] } = .ok [0, 0] := by
    unfold Var.checksum
    simp only [Var.entrySums]
    exact h2
  rw [h3, h1, h4]
  simp [Var.entryBytes]

/-- C154: a var is truthy exactly if it has an entry. -/
theorem C154_truth (v : Var) : v.toBool = true ↔ ∃ e, e ∈ v.entries := by
  unfold Var.toBool Var.isEmpty
  cases v.entries with
  | nil => simp
  | cons a l => exact ⟨fun _ => ⟨a, by simp⟩, fun _ => rfl⟩

/-- C154, reading back: a file of a header and four zero bytes loads as a var without entries and without a warning. -/
theorem C154_empty (env : Env V) (me : Var.ModelEnv) (h : Hdr) (hw : h.Widths) (v₀ : Var) (hm : v₀.model = none) :
    Var.load env me (h.bytes ++ [0, 0, 0, 0]) v₀ = ⟨.ok (), ⟨h, [], none⟩, []⟩ := by
  have hb : h.bytes ++ [0, 0, 0, 0] = h.bytes ++ toLE 2 ([] : Bytes).length ++ [] ++ [0, 0] := by simp [toLE]
  rw [hb]
  rcases Var.load_framed env me hw (es := []) (region := []) (c := [0, 0]) (fun e he => by cases he) rfl (by simp) rfl v₀ with
    ⟨es', ws, hf, hws, -, hload⟩ | ⟨e, he, -⟩
  · cases hf
    have hw0 : ws = [] := by
      cases ws with
      | nil => rfl
      | cons w ws =>
        rcases hws w (by simp) with ⟨-, f, hf, -⟩ | ⟨e, -, -, he, -⟩
        · cases hf
        · cases he
    subst hw0
    have hck : Var.checksum ⟨h, [], none⟩ = .ok [0, 0] := by
      unfold Var.checksum
      simp only [Var.entrySums]
      decide +kernel
    rw [hload, hm]
    simp [Var.warned, Var.afterLoop, Var.checkModel, PyM.bind_run, hck]
  · cases he

/-- C154, files: `load_var_file` loads what follows the position. -/
theorem C154_position (env : Env V) (me : Var.ModelEnv) (pre data : Bytes) (v₀ : Var) :
    Var.loadVarFile env me ⟨pre ++ data, pre.length⟩ v₀ = Var.load env me data v₀ := by
  unfold Var.loadVarFile
  simp [Stream.readAll]

example : (Var.load sampleEnv ⟨fun _ => 0, id⟩ (List.replicate 53 0x41 ++ [0, 0, 0, 0]) ⟨Hdr.unset, [sampleProgram], none⟩).st.toBool = false ∧
    Var.toBool ⟨Hdr.unset, [sampleProgram], none⟩ = true := by decide +kernel

example : (Var.loadVarFile sampleEnv ⟨fun _ => 0, id⟩ ⟨[7, 7] ++ oddFile, 2⟩ ⟨Hdr.unset, [], none⟩).st.entries.length = 2 := by decide +kernel

end Verif
