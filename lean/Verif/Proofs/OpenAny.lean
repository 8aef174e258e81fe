import Verif.Props.Files

/-! Helper lemmas: saving an entry and opening the file, whatever loading makes of the class. -/

namespace Verif
open Spec Ent
variable {V : Type} [LinearOrder V]

/-- Loading the bytes of an entry into an entry of its class, given what becomes of the class. -/
theorem load_coerced (env : Env V) {e e' e₀ : Ent} {wc : List Warn} (hw : WF e) (hno : e.metaLen = [0x0D, 0x00] → ¬FlashIsLength e)
    (hty : e.cls.typeId = some (fromLE e.typeId)) {b : Bytes} (hb : e.bytes = .ok b) (hc : e₀.cls = e.cls)
    (hco : coerce env { e with body := ⟨true, e.body.bytes⟩ } = ⟨.ok (), e', wc⟩)
    (hv' : e'.version = e.version) (hm' : e'.metaLen = e.metaLen) (hwc : ∀ w ∈ wc, w ∉ corruption) :
    ∃ ws, load env b e₀ = ⟨.ok (), e', wc ++ ws⟩ ∧ ∀ w ∈ wc ++ ws, w ∉ corruption := by
  obtain ⟨v, hv⟩ := length_one hw.version
  have hbase := loadBase_bytes env hw hno hb e₀
  rw [hc, finish_of_coerce env hco (hv'.trans hv) (metaLen_iff (show e'.metaLen.length = 2 from hm' ▸ metaLen_length hw.toSections))] at hbase
  have hck : checkType e₀ (fromLE e.typeId) = [] := by
    unfold checkType
    simp only [hc, hty, if_true]
  rw [hck] at hbase
  simp only [after, List.nil_append] at hbase
  obtain ⟨ws', hload, hws'⟩ := load_any env hbase (hv'.trans hv)
  rw [List.append_assoc] at hload
  refine ⟨_, hload, fun w hm => ?_⟩
  rcases List.mem_append.1 hm with h | h
  · exact hwc w h
  · rcases List.mem_append.1 h with h | h
    · exact loadWarnings_ok _ _ _ w h
    · exact hws' w h

/-- Saving with nothing but a name and opening with the class, given what becomes of the class. -/
theorem save_open_coerced (env : OsEnv V) (ord : Model → Nat) {e e' : Ent} {wc : List Warn} (name filename : Str) (nm : Bytes) (fs : Files)
    (hw : WF e) (hno : e.metaLen = [0x0D, 0x00] → ¬FlashIsLength e) (hty : e.cls.typeId = some (fromLE e.typeId))
    (hq : e.cls ≠ .graphedEquation)
    (hco : coerce env.toEnv { e with body := ⟨true, e.body.bytes⟩ } = ⟨.ok (), e', wc⟩)
    (hv' : e'.version = e.version) (hm' : e'.metaLen = e.metaLen) (hwc : ∀ w ∈ wc, w ∉ corruption) (hne : e.body.bytes ≠ [])
    (hl : e.len < 65536) (hdot : '.' ∉ filename) :
    ∃ fs' ws, e.save env ord name filename none none fs = ⟨.ok (), fs', ws⟩ ∧
      (∀ n, n ≠ pathOf name filename e.cls.extensions.1 → fs' n = fs n) ∧
      ∃ ws', openAs env.toEnv e.cls nm (pathOf name filename e.cls.extensions.1) fs' = ⟨.ok e', fs', ws'⟩ ∧
        (∀ w ∈ ws', w ∉ corruption) ∧ ∀ w ∈ wc, w ∈ ws' := by
  obtain ⟨hd, wx, hexp, hwd, -⟩ := C106_export_partial env.toEnv e none none hne (fun _ h => nomatch h) rfl
  have hext' : Var.extension ord ⟨hd, [e], none⟩ = .ok (e.cls.extensions.1, []) := rfl
  obtain ⟨we, hp⟩ := fileName_ok (v := ⟨hd, [e], none⟩) (name := name) (filename := filename) fun _ => ⟨_, hext'⟩
  obtain ⟨wk, hc⟩ := saveCheck_ok env ⟨hd, [e], none⟩ fun hm => absurd rfl hm
  have hse : ∀ x ∈ (⟨hd, [e], none⟩ : Var).entries, Sections x := by
    intro x hx; cases List.mem_singleton.1 hx; exact hw.toSections
  have hsum : ((⟨hd, [e], none⟩ : Var).entries.map Ent.len).sum ≤ 65535 := by simp; omega
  obtain ⟨bs, b, -, hb, -⟩ := (C28_framing ⟨hd, [e], none⟩ hwd hse).1 (by simp; omega)
  obtain ⟨v₀, w₀, hnew, hw₀, -⟩ := new_blank env.toEnv hq { name := nm } rfl
  have hb1 := Ent.bytes_ok (e := e) hw.length
  obtain ⟨w₁, hload, hw₁⟩ := load_coerced env.toEnv hw hno hty hb1
    (e₀ := ⟨e.cls, [0x0D, 0x00], [UInt8.ofNat (e.cls.typeId.getD 0xFF)], nm, [v₀],
      [if (none : Option Bool) = some true then 0x80 else 0x00], ⟨true, blank e.cls⟩⟩) rfl hco hv' hm' hwc
  have hopen := openFile_bytes env.toEnv hwd (v := ⟨hd, [e], none⟩) rfl hse hb hsum hb1 hload
  have hb2 : 2 ≤ b.length := by
    obtain ⟨region, hr⟩ := entryBytes_ok hse hsum
    rw [bytes_framed hse hr (by rw [Var.entryBytes_length hse hr]; omega)] at hb
    injection hb with hb
    rw [← hb]
    simp [length_toLE]
    omega
  have hew : extensionWarns e.cls (pathOf name filename e.cls.extensions.1) = [] := by
    have := extensionWarns_ext (extension_mem hext') ((if filename = [] then name else filename) ++ ['.'])
    rw [← this]
    unfold pathOf
    cases filename <;> simp [hdot]
  refine ⟨fs.write (pathOf name filename e.cls.extensions.1) b, wx ++ (we ++ wk), ?_, fun n hn => by simp [Files.write, hn],
    w₀ ++ (wc ++ w₁ ++ restWarning []), ?_, ?_, ?_⟩
  · unfold Ent.save
    simp only [hexp, save_ok hp hc hb fs]
  · unfold openAs
    have hf : fs.write (pathOf name filename e.cls.extensions.1) b (pathOf name filename e.cls.extensions.1) = some b := by simp [Files.write]
    simp only [hf, hnew, hopen, if_neg (Nat.not_lt.2 hb2), hew]
    simp
  · intro w h
    simp only [restWarning, List.append_nil] at h
    rcases List.mem_append.1 h with h | h
    exacts [hw₀ w h, hw₁ w h]
  · intro w h
    simp [h]

end Verif
