import Verif.Proofs.Files
import Verif.Props.Support

/-! Property theorems about saving and opening vars (C105) and entries (C106). -/

namespace Verif
open Spec Ent
variable {V : Type} [LinearOrder V]

/-! ### C105 – files of vars -/

/-- **C105, what holds**: a var of storable entries that fit a file is written to the file meant by the argument, no
other file changes, and opening that file gives the same header and entries without a report of damage. -/
theorem C105_save_open_partial (env : OsEnv V) (me : Var.ModelEnv) (ord : Model → Nat) (v : Var)
    (name filename ext : Str) (fs : Files) (hw : v.hdr.Widths) (hst : ∀ e ∈ v.entries, Storable e)
    (hl : (v.entries.map Ent.len).sum < 65536) (hext : '.' ∉ filename → ∃ we, v.extension ord = .ok (ext, we))
    (hos : v.model ≠ none → ∀ e ∈ v.entries, ∃ os, (getMinOs env e []).2 = .ok os) :
    ∃ fs' ws, v.save env ord name filename fs = ⟨.ok (), fs', ws⟩ ∧
      (∀ n, n ≠ pathOf name filename ext → fs' n = fs n) ∧
      ∃ b, v.bytes = .ok b ∧ fs' (pathOf name filename ext) = some b ∧
      ∃ v' ws', Var.openVar env.toEnv me (pathOf name filename ext) fs' = ⟨.ok v', fs', ws'⟩ ∧ v'.hdr = v.hdr ∧
        List.Forall₂ (fun e e' => SameEntry e e' ∧ e'.cls.typeId = some (fromLE e.typeId)) v.entries v'.entries ∧
        ∀ w ∈ ws', w ∉ varCorruption := by
  obtain ⟨we, hp⟩ := fileName_ok (name := name) hext
  obtain ⟨wc, hc⟩ := saveCheck_ok env v hos
  obtain ⟨b, v', ws, hb, hload, hh, hes, hws⟩ := C27_var_roundtrip_partial env.toEnv me v
    ⟨(Hdr.init none none [0x1a, 0x0a] none Hdr.defaultComment [] Hdr.unset).st, [], none⟩ hw hst hl rfl
  have hfile : (fs.write (pathOf name filename ext) b) (pathOf name filename ext) = some b := by simp [Files.write]
  refine ⟨_, _, save_ok hp hc hb fs, fun n hn => by simp [Files.write, hn], b, hb, hfile, v', ws, ?_, hh, hes, hws⟩
  have hne : b.isEmpty = false := by
    obtain ⟨bs, b', -, hb', hlen, -⟩ := (C28_framing v hw fun e he => (hst e he).wf.toSections).1 (by omega)
    rw [hb] at hb'
    cases hb'
    cases b with
    | nil => simp at hlen; omega
    | cons => rfl
  unfold Var.openVar
  simp only [hfile]
  unfold Var.ofData
  rw [PyM.bind_ok init_none_run]
  simp only [hne, Bool.false_eq_true, if_false, hload, List.nil_append]

/-- **C105 fails for saves that fail**: a var too long for a file raises `OverflowError` after the file was emptied, so
that a file that was there is lost; the empty file then opens as an empty var without any warning. -/
theorem C105_failed_false (env : OsEnv V) (me : Var.ModelEnv) (ord : Model → Nat) (v : Var) (name filename ext : Str)
    (fs : Files) (hw : v.hdr.Widths) (hs : ∀ e ∈ v.entries, Sections e) (hl : 65536 ≤ (v.entries.map Ent.len).sum)
    (hext : '.' ∉ filename → ∃ we, v.extension ord = .ok (ext, we))
    (hos : v.model ≠ none → ∀ e ∈ v.entries, ∃ os, (getMinOs env e []).2 = .ok os) :
    ∃ fs' ws, v.save env ord name filename fs = ⟨.error .overflowError, fs', ws⟩ ∧
      fs' (pathOf name filename ext) = some [] ∧
      ∃ hd, Var.openVar env.toEnv me (pathOf name filename ext) fs' = ⟨.ok ⟨hd, [], none⟩, fs', []⟩ := by
  obtain ⟨we, hp⟩ := fileName_ok (name := name) hext
  obtain ⟨wc, hc⟩ := saveCheck_ok env v hos
  have hb : v.bytes = .error .overflowError := (C28_framing v hw hs).2.1.2 (by omega)
  have hfile : (fs.write (pathOf name filename ext) []) (pathOf name filename ext) = some [] := by simp [Files.write]
  refine ⟨_, _, save_error hp hc hb fs, hfile,
    (Hdr.init none none [0x1a, 0x0a] none Hdr.defaultComment [] Hdr.unset).st, ?_⟩
  unfold Var.openVar
  simp only [hfile]
  unfold Var.ofData
  rw [PyM.bind_ok init_none_run]
  rfl

/-- **C105, the warnings of a save for a model**: those on the way to the minimum OS of each entry, and one for each
entry needing an OS newer than the latest of the model. -/
theorem C105_warnings (env : OsEnv V) (ord : Model → Nat) (v : Var) (m : Model) (name filename ext : Str) (we : List Warn)
    (fs : Files) (hw : v.hdr.Widths) (hs : ∀ e ∈ v.entries, Sections e) (hl : (v.entries.map Ent.len).sum < 65536)
    (hm : v.model = some m) (hext : v.extension ord = .ok (ext, we)) (hdot : '.' ∉ filename) (oss : List V)
    (ho : List.Forall₂ (fun e os => (getMinOs env e []).2 = .ok os) v.entries oss) :
    ∃ fs', v.save env ord name filename fs = ⟨.ok (), fs', we ++ (v.entries.zip oss).flatMap fun p =>
      (getMinOs env p.1 []).1 ++ (if env.latest m < p.2 then [.saveUnsupported] else [])⟩ := by
  have hp : v.fileName ord name filename = .ok (pathOf name filename ext, we) := by
    unfold Var.fileName pathOf
    cases filename <;> simp [hext, Except.map, hdot]
  have hc : v.saveCheck env = Var.supportWarns env m v.entries := by
    unfold Var.saveCheck
    rw [hm]
  rw [supportWarns_ok env m ho] at hc
  obtain ⟨bs, b, -, hb, -⟩ := (C28_framing v hw hs).1 (by omega)
  exact ⟨_, save_ok hp hc hb fs⟩

/-- **C105, saves for a model disagree with `supported_by`**: an entry needing exactly the latest OS of the model is
not supported by it, but saved without a warning. -/
theorem C105_boundary_false (env : OsEnv V) (ord : Model → Nat) (m : Model) (e : Ent) (hd : Hdr) (name filename ext : Str)
    (we : List Warn) (fs : Files) (hw : hd.Widths) (hs : Sections e) (hl : e.len < 65536)
    (hext : Var.extension ord ⟨hd, [e], some m⟩ = .ok (ext, we)) (hdot : '.' ∉ filename)
    (hc : e.cls ∉ realEntries ++ complexEntries) (ho : getMinOs env e [] = ([], .ok (env.latest m))) :
    (supportedBy env e m).2 = .ok false ∧
      ∃ fs', Var.save env ord ⟨hd, [e], some m⟩ name filename fs = ⟨.ok (), fs', we⟩ := by
  refine ⟨?_, ?_⟩
  · rw [C104_other env e hc m (env.latest m) (by rw [ho])]
    simp
  · obtain ⟨fs', h⟩ := C105_warnings env ord ⟨hd, [e], some m⟩ m name filename ext we fs hw
      (by intro x hx; cases List.mem_singleton.1 hx; exact hs) (by simpa using hl) rfl hext hdot [env.latest m]
      (.cons (by rw [ho]) .nil)
    exact ⟨fs', by simpa [ho, lt_irrefl] using h⟩

/-- **C105, saves for a model disagree with `supported_by`**: a radical is saved without a warning for models without
exact math. -/
theorem C105_exact_false (env : OsEnv V) (ord : Model → Nat) (m : Model) (hm : m ∉ exactModels)
    (hlt : env.initial < env.latest m) (e : Ent) (hc : e.cls ∈ realEntries) (hk : e.body.bytes.getD 0 0 = 0x1C)
    (hne : e.body.bytes ≠ []) (hd : Hdr) (name filename ext : Str) (we : List Warn) (fs : Files) (hw : hd.Widths)
    (hs : Sections e) (hl : e.len < 65536) (hext : Var.extension ord ⟨hd, [e], some m⟩ = .ok (ext, we))
    (hdot : '.' ∉ filename) :
    (supportedBy env e m).2 = .ok false ∧
      ∃ fs', Var.save env ord ⟨hd, [e], some m⟩ name filename fs = ⟨.ok (), fs', we⟩ := by
  have hu : Unsigned e.body.bytes := by unfold Unsigned; rw [hk]; decide
  have hK : kindByte e.body.bytes = 0x1C := by unfold kindByte; rw [hk]; decide
  have hr : realOs env e.body.bytes = env.initial := by unfold realOs; rw [hK]; rfl
  have ho := C103_real_partial env e hc hne hu
  rw [hr] at ho
  refine ⟨?_, ?_⟩
  · obtain ⟨os, -, h⟩ := C104_real env e hc hne m
    rw [h, hK]
    simp [hm]
  · obtain ⟨fs', h⟩ := C105_warnings env ord ⟨hd, [e], some m⟩ m name filename ext we fs hw
      (by intro x hx; cases List.mem_singleton.1 hx; exact hs) (by simpa using hl) rfl hext hdot [env.initial]
      (.cons (by rw [ho]) .nil)
    exact ⟨fs', by simpa [ho, not_lt_of_gt hlt] using h⟩

/-- **C105, file names without directories**: a name without a dot is given the extension of the var. -/
theorem C105_name_partial (ord : Model → Nat) (v : Var) (name filename ext : Str) (we : List Warn)
    (hext : v.extension ord = .ok (ext, we)) (hdot : '.' ∉ filename) :
    v.fileName ord name filename = .ok ((if filename = [] then name else filename) ++ '.' :: ext, we) := by
  unfold Var.fileName
  cases filename <;> simp [hext, Except.map, hdot]

/-- **C105 fails for paths**: a dot in a directory keeps the extension from being added. -/
theorem C105_name_false (ord : Model → Nat) (v : Var) (name dir last : Str) (hdir : '.' ∈ dir) (hslash : '/' ∉ last) :
    lastPart (dir ++ '/' :: last) = last ∧
      v.fileName ord name (dir ++ '/' :: last) = .ok (dir ++ '/' :: last, []) := by
  refine ⟨?_, ?_⟩
  · unfold lastPart
    rw [List.reverse_append, List.reverse_cons, List.append_assoc, List.takeWhile_append_of_pos]
    · simp
    · intro a ha
      simp only [ne_eq, decide_eq_true_eq]
      rintro rfl
      exact hslash (List.mem_reverse.1 ha)
  · unfold Var.fileName
    have h1 : (dir ++ '/' :: last).isEmpty = false := by cases dir <;> rfl
    rw [h1]
    simp [hdir]

/-- Saving two entries under the name of the var, and the names of files. -/
example :
    (match Var.save exOs (fun _ => 0) ⟨exHdr, [sampleProgram, sampleAppVar], none⟩ "BOTH".toList [] (fun _ => none) with
    | ⟨.ok (), fs, []⟩ =>
      (match Var.openVar sampleEnv ⟨fun _ => 0, id⟩ "BOTH.8xg".toList fs with
      | ⟨.ok v, _, ws⟩ => v == ⟨exHdr, [sampleProgram, sampleAppVar], none⟩ && ws == [.flashlessLoad]
      | _ => false) && (fs "other".toList).isNone
    | _ => false) = true ∧
    Var.fileName (fun _ => 0) ⟨exHdr, [sampleProgram], none⟩ "A".toList "dir/b".toList = .ok ("dir/b.8xp".toList, []) ∧
    Var.fileName (fun _ => 0) ⟨exHdr, [sampleProgram], none⟩ "A".toList "../b".toList = .ok ("../b".toList, []) := by
  decide +kernel

/-! ### C106 – files of entries -/

omit [LinearOrder V] in
/-- **C106, exporting**: an entry with data is exported as a var of that entry alone, with the header given. -/
theorem C106_export_partial (env : Env V) (e : Ent) (header : Option Hdr) (model : Option Model)
    (hne : e.body.bytes ≠ []) (hh : ∀ h, header = some h → h.Widths)
    (hx : (Var.init header model ⟨Hdr.unset, [], none⟩).res = .ok ()) :
    ∃ hd ws, exportVar env e header model ⟨Hdr.unset, [], none⟩ = ⟨.ok (), ⟨hd, [e], model⟩, ws⟩ ∧ hd.Widths ∧
      ∀ h, header = some h → hd = h := by
  obtain ⟨hd, h1, h2, h3⟩ := init_st hx hh
  obtain ⟨ws, h, -⟩ := C33_add_entry_partial env ⟨hd, [], model⟩ e hne
  rcases hi : Var.init header model ⟨Hdr.unset, [], none⟩ with ⟨r, st, wi⟩
  rw [hi] at h1 hx
  simp only at h1 hx
  subst h1 hx
  refine ⟨hd, wi ++ ws, ?_, h2, h3⟩
  unfold exportVar
  rw [PyM.bind_ok hi, h]
  rfl

omit [LinearOrder V] in
/-- **C106 fails for entries without data**: another entry is exported. -/
theorem C106_export_false (env : Env V) (e : Ent) (header : Option Hdr) (model : Option Model) (he : e.body.bytes = [])
    (hh : ∀ h, header = some h → h.Widths) (hx : (Var.init header model ⟨Hdr.unset, [], none⟩).res = .ok ()) :
    ∃ hd ws, exportVar env e header model ⟨Hdr.unset, [], none⟩ = ⟨.ok (), ⟨hd, [Ent.fresh env], model⟩, ws⟩ := by
  obtain ⟨hd, h1, -⟩ := init_st hx hh
  obtain ⟨ws, h⟩ := C33_add_entry_false env ⟨hd, [], model⟩ e he
  rcases hi : Var.init header model ⟨Hdr.unset, [], none⟩ with ⟨r, st, wi⟩
  rw [hi] at h1 hx
  simp only at h1 hx
  subst h1 hx
  refine ⟨hd, wi ++ ws, ?_⟩
  unfold exportVar
  rw [PyM.bind_ok hi, h]
  rfl

/-- **C106, what holds of opening**: a file holding a var opens as its first entry, for the class of that entry,
whatever entries follow; nothing reports damage except for the file name and the entries that follow. -/
theorem C106_first (env : Env V) (fs : Files) (path : Str) (v : Var) (e : Ent) (es : List Ent) (b nm : Bytes)
    (he : v.entries = e :: es) (hf : fs path = some b) (hb : v.bytes = .ok b) (hwd : v.hdr.Widths)
    (hse : ∀ e ∈ v.entries, Sections e) (hw : WF e) (hno : e.metaLen = [0x0D, 0x00] → ¬FlashIsLength e)
    (hs : Settled env e) :
    ∃ ws, openAs env e.cls nm path fs = ⟨.ok { e with body := ⟨true, e.body.bytes⟩ }, fs,
        extensionWarns e.cls path ++ ws ++ restWarning es⟩ ∧ ∀ w ∈ ws, w ∉ corruption := by
  have hq : e.cls ≠ .graphedEquation := by
    intro h
    rcases hs.2 with hs | hs | hs | hs | hs | hs | hs | hs | hs | hs <;> rw [h] at hs <;>
      first | exact absurd hs (by decide) | exact absurd hs.1 (by decide)
  have hl : (v.entries.map Ent.len).sum ≤ 65535 := by
    by_contra hcon
    rw [(C28_framing v hwd hse).2.1.2 (by omega)] at hb
    cases hb
  obtain ⟨v₀, w₀, hnew, hw₀, -⟩ := new_blank env hq { name := nm } rfl
  have hb1 := Ent.bytes_ok (e := e) hw.length
  obtain ⟨w₁, hload, hw₁⟩ := load_settled env hw hno hs hb1
    (e₀ := ⟨e.cls, [0x0D, 0x00], [UInt8.ofNat (e.cls.typeId.getD 0xFF)], nm, [v₀],
      [if (none : Option Bool) = some true then 0x80 else 0x00], ⟨true, blank e.cls⟩⟩) rfl
  have hopen := openFile_bytes env hwd he hse hb hl hb1 hload
  have hb2 : 2 ≤ b.length := by
    obtain ⟨region, hr⟩ := entryBytes_ok hse hl
    rw [bytes_framed hse hr (by rw [Var.entryBytes_length hse hr]; omega)] at hb
    injection hb with hb
    rw [← hb]
    simp [length_toLE]
    omega
  refine ⟨w₀ ++ w₁, ?_, ?_⟩
  · unfold openAs
    simp only [hf, hnew, hopen, if_neg (Nat.not_lt.2 hb2)]
    simp
  · intro w h
    rcases List.mem_append.1 h with h | h
    exacts [hw₀ w h, hw₁ w h]

/-- **C106, what holds**: an entry with data, saved under the name meant by the argument, is opened by its class as the
same entry; nothing reports damage or an unexpected file name. -/
theorem C106_save_open_partial (env : OsEnv V) (ord : Model → Nat) (e : Ent) (name filename ext : Str) (nm : Bytes)
    (header : Option Hdr) (model : Option Model) (fs : Files) (hw : WF e)
    (hno : e.metaLen = [0x0D, 0x00] → ¬FlashIsLength e) (hs : Settled env.toEnv e) (hne : e.body.bytes ≠ [])
    (hl : e.len < 65536) (hh : ∀ h, header = some h → h.Widths)
    (hx : (Var.init header model ⟨Hdr.unset, [], none⟩).res = .ok ())
    (hdot : '.' ∉ filename) (hext : ∃ we, Var.extension ord ⟨Hdr.unset, [e], model⟩ = .ok (ext, we))
    (hos : model ≠ none → ∃ os, (getMinOs env e []).2 = .ok os) :
    ∃ fs' ws, e.save env ord name filename header model fs = ⟨.ok (), fs', ws⟩ ∧
      (∀ n, n ≠ pathOf name filename ext → fs' n = fs n) ∧
      ∃ ws', openAs env.toEnv e.cls nm (pathOf name filename ext) fs' =
        ⟨.ok { e with body := ⟨true, e.body.bytes⟩ }, fs', ws'⟩ ∧ ∀ w ∈ ws', w ∉ corruption := by
  obtain ⟨hd, wx, hexp, hwd, -⟩ := C106_export_partial env.toEnv e header model hne hh hx
  have hext' : ∃ we, Var.extension ord ⟨hd, [e], model⟩ = .ok (ext, we) := hext
  obtain ⟨we, hp⟩ := fileName_ok (v := ⟨hd, [e], model⟩) (name := name) (filename := filename) fun _ => hext'
  obtain ⟨wc, hc⟩ := saveCheck_ok env ⟨hd, [e], model⟩ fun hm x hx => by
    cases List.mem_singleton.1 hx; exact hos hm
  have hse : ∀ x ∈ (⟨hd, [e], model⟩ : Var).entries, Sections x := by
    intro x hx; cases List.mem_singleton.1 hx; exact hw.toSections
  obtain ⟨bs, b, -, hb, -⟩ := (C28_framing ⟨hd, [e], model⟩ hwd hse).1 (by simp; omega)
  refine ⟨fs.write (pathOf name filename ext) b, wx ++ (we ++ wc), ?_, fun n hn => by simp [Files.write, hn], ?_⟩
  · unfold Ent.save
    simp only [hexp, save_ok hp hc hb fs]
  · obtain ⟨ws, ho, hws⟩ := C106_first env.toEnv (fs.write (pathOf name filename ext) b) (pathOf name filename ext)
      ⟨hd, [e], model⟩ e [] b nm rfl (by simp [Files.write]) hb hwd hse hw hno hs
    obtain ⟨we', hext'⟩ := hext'
    have hew : extensionWarns e.cls (pathOf name filename ext) = [] := by
      have := extensionWarns_ext (extension_mem hext') ((if filename = [] then name else filename) ++ ['.'])
      rw [← this]
      unfold pathOf
      cases filename <;> simp [hdot]
    refine ⟨_, ho, ?_⟩
    rw [hew]
    simpa [restWarning] using hws

/-- **C106 fails for files of several entries**: that only the first is loaded is said only if the second has 11 or 13
bytes of data; otherwise the rest of the file is reported as unexpected. -/
theorem C106_several_false (env : Env V) (fs : Files) (path : Str) (v : Var) (e x : Ent) (es : List Ent) (b nm : Bytes)
    (he : v.entries = e :: x :: es) (hf : fs path = some b) (hb : v.bytes = .ok b) (hwd : v.hdr.Widths)
    (hse : ∀ e ∈ v.entries, Sections e) (hw : WF e) (hno : e.metaLen = [0x0D, 0x00] → ¬FlashIsLength e)
    (hs : Settled env e) (hx : x.body.bytes.length ≠ 11 ∧ x.body.bytes.length ≠ 13) :
    .openMultiple ∉ (openAs env e.cls nm path fs).warns ∧ .openExtra ∈ (openAs env e.cls nm path fs).warns := by
  obtain ⟨ws, h, hws⟩ := C106_first env fs path v e (x :: es) b nm he hf hb hwd hse hw hno hs
  have hr : restWarning (x :: es) = [.openExtra] := by simp [restWarning, hx.1, hx.2]
  rw [h, hr]
  refine ⟨?_, by simp⟩
  simp only [List.mem_append, List.mem_singleton, reduceCtorEq, or_false, not_or]
  refine ⟨?_, fun h => hws _ h (by decide)⟩
  unfold extensionWarns
  split <;> simp

/-- An appvar saved and opened; a file of two entries opened as an entry. -/
example :
    (match sampleAppVar.save exOs (fun _ => 0) "DATA".toList [] none none (fun _ => none) with
    | ⟨.ok (), fs, _⟩ =>
      (match openAs sampleEnv .appVar sampleEnv.unnamed "DATA.8xv".toList fs with
      | ⟨.ok e, _, ws⟩ => e == sampleAppVar && ws.all (· ∉ corruption)
      | _ => false)
    | _ => false) = true ∧
    (match Var.bytes ⟨exHdr, [sampleProgram, sampleAppVar], none⟩ with
    | .ok b => (openAs sampleEnv .program sampleEnv.unnamed "both.8xg".toList fun _ => some b).warns ==
        [.openExtension, .tokenVersion, .openExtra]
    | .error _ => false) = true := by decide +kernel

end Verif
