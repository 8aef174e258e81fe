import Verif.Proofs.FlashFile
import Verif.Props.Flash
import Verif.Props.Header

/-! Property theorems about the files of flash headers (C127). -/

namespace Verif
open Spec Flash

/-! ### C127 – extensions, saving and opening -/

/-- For a model with an extension of its own, that is the newest listed model which is not newer, its extension is given without
warnings. Missing: other models, for which there may be an older listed one, see `C127_extension_false`. -/
theorem C127_extension_partial (ord : Model → Nat) (c : FlashCls) {m : Model} {ext : Str} (h : flashExtension c m = some ext) :
    NewestListed ord c.extensions.2 m m ext ∧ extension ord c m = .ok (ext, []) := by
  refine ⟨⟨(listed_iff c m ext).2 h, Nat.le_refl _, fun y _ _ hy => hy⟩, ?_⟩
  have hf := flash_find ord c m
  unfold extension
  simp only
  cases hh : Model.all.reverse.find? fun x => (c.extensions.2.any fun p => p.1 == m) && Model.le ord x m with
  | none =>
    rw [hh] at hf
    have : (c.extensions.2.any fun p => p.1 == m) = true := List.any_eq_true.2 ⟨_, (listed_iff c m ext).2 h, by simp⟩
    rw [this] at hf
    cases hf
  | some x =>
    clear hh hf
    revert h
    cases c <;> cases m <;> intro h <;> first | (cases h; done) | (cases h; rfl)

example : extension (fun m => Model.all.idxOf m) .app .ti83p = .ok ("8xk".toList, []) := by decide +kernel

/-- For every other model the default is given, with a warning that the model is not supported, and for the TI-82, the TI-83 and its
variants one more that it has no flash files. -/
theorem C127_default (ord : Model → Nat) (c : FlashCls) {m : Model} (h : flashExtension c m = none) :
    extension ord c m =
      .ok (flashDefault c, (if m ∈ [.ti82, .ti83, .ti82st, .ti82stFr, .ti76Fr] then [.flashModel] else []) ++ [.flashUnsupported]) := by
  have hf := flash_find ord c m
  have hn : (c.extensions.2.any fun p => p.1 == m) = false := by
    rw [List.any_eq_false]
    rintro ⟨x, e⟩ hx hxm
    simp only [beq_iff_eq] at hxm
    subst hxm
    rw [listed_iff, h] at hx
    cases hx
  unfold extension
  simp only
  cases hh : Model.all.reverse.find? fun x => (c.extensions.2.any fun p => p.1 == m) && Model.le ord x m with
  | some x => rw [hh, hn] at hf; cases hf
  | none =>
    clear hh hf hn h
    cases c <;> cases m <;> decide +kernel

example : extension (fun m => Model.all.idxOf m) .os .ti83 = .ok ("8eu".toList, [.flashModel, .flashUnsupported]) := by
  decide +kernel

/-- So an app for the TI-84 Plus gets the extension of the TI-84 Plus CE, and a warning that the model does not support apps,
though the newest listed model which is not newer is the TI-83 Plus, with another extension. -/
theorem C127_extension_false : ∃ (ord : Model → Nat) (x : Model) (ext ext' : Str), Chronological ord ∧
    NewestListed ord FlashCls.app.extensions.2 .ti84p x ext ∧ ext ≠ ext' ∧
    extension ord .app .ti84p = .ok (ext', [.flashUnsupported]) := by
  refine ⟨fun m => Model.all.idxOf m, .ti83p, "8xk".toList, "8ek".toList, by unfold Chronological; decide +kernel,
    ⟨by decide +kernel, by decide +kernel, ?_⟩, by decide, by decide +kernel⟩
  intro y e hy hle
  have : ∀ p ∈ FlashCls.app.extensions.2, Model.all.idxOf p.1 ≤ Model.all.idxOf Model.ti84p →
      Model.all.idxOf p.1 ≤ Model.all.idxOf Model.ti83p := by decide +kernel
  exact this _ hy hle

/-- C127, the part that holds: a header with a name of eight bytes and one device, however it came about, is saved as the file has it,
under the given name or else under its own name with the extension for the model. All other files stay the same. Opening the file
gives the header again, in its own class or when any class is asked for. Missing: the other headers, see `C127_new_false`. -/
theorem C127_save_open_partial (ord : Model → Nat) {f : FlashFields} (hf : f.Fit) (hn : f.name.length = 8) (hd : f.devices.length = 2)
    (c : FlashCls) (filename : Str) (m : Model) (fs : Files) :
    ∃ path ws, (f.header c f.withSum).save ord filename m fs = ⟨.ok (), fun p => if p = path then some f.file else fs p, ws⟩ ∧
      (filename ≠ [] → path = filename ∧ ws = []) ∧
      (∀ ext, filename = [] → flashExtension c m = some ext → path = asText f.name ++ '.' :: ext ∧ ws = []) ∧
      (filename = [] → flashExtension c m = none → path = asText f.name ++ '.' :: flashDefault c ∧ .flashUnsupported ∈ ws) ∧
      ∀ c' fs', fs' path = some f.file →
        openAt c' path fs' = ⟨.ok (f.header (if c' = .header then flashKind (f.devices.getD 1 0) else c') f.withSum), fs',
          f.warnings c'⟩ := by
  have hb := (C64_exact hf c).2 ⟨hn, hd⟩
  have hx : ∃ ext ws, extension ord (f.header c f.withSum).cls m = .ok (ext, ws) ∧ (∀ e, flashExtension c m = some e → ext = e ∧ ws = []) ∧
      (flashExtension c m = none → ext = flashDefault c ∧ .flashUnsupported ∈ ws) := by
    cases he : flashExtension c m with
    | some e => exact ⟨e, [], (C127_extension_partial ord c he).2, fun _ h => ⟨by injection h, rfl⟩, fun h => (by cases h)⟩
    | none => exact ⟨_, _, C127_default ord c he, fun _ h => (by cases h), fun _ => ⟨rfl, by simp⟩⟩
  obtain ⟨ext, ws, he, h1, h2⟩ := hx
  refine ⟨_, _, Flash.save_ok ord hb filename m he fs, fun h => ⟨if_neg h, if_neg h⟩, fun e h h' => ?_, fun h h' => ?_, fun c' fs' hp => ?_⟩
  · obtain ⟨rfl, rfl⟩ := h1 e h'
    rw [if_pos h, if_pos h, Flash.nameText]
    exact ⟨congrArg (· ++ _) (trimmed_text hf.nameEnd), rfl⟩
  · obtain ⟨rfl, hw⟩ := h2 h'
    rw [if_pos h, if_pos h, Flash.nameText]
    exact ⟨congrArg (· ++ _) (trimmed_text hf.nameEnd), hw⟩
  · have ho := C65_open_partial c' hf []
    simp only [List.flatMap_cons, List.flatMap_nil, List.append_nil, if_true] at ho
    have h1 := hf.revision
    have h2 := hf.date
    have h3 := hf.name
    have h4 := hf.devices
    exact openAt_some hp (by simp [FlashFields.file, length_toLE]; omega) ho

example : ∃ f : FlashFields, f.Fit ∧ f.name.length = 8 ∧ f.devices.length = 2 ∧ asText f.name ++ '.' :: "8xk".toList = "Abcdefgh.8xk".toList :=
  ⟨{ sampleFlash with name := "Abcdefgh".toList.map fun c => UInt8.ofNat c.toNat },
    ⟨by decide, by decide, by decide, by unfold Trimmed; decide, by decide, by unfold Trimmed; decide, by decide⟩, by decide, by decide,
    by decide +kernel⟩

/-- A missing file cannot be opened. -/
theorem C127_missing (c : FlashCls) (path : Str) {fs : Files} (h : fs path = none) :
    openAt c path fs = ⟨.error .fileNotFoundError, fs, []⟩ := by
  show (match fs path with
      | none => _
      | some b => _) = _
  rw [h]

/-- When the bytes of a header cannot be made, for instance because it has no data, saving fails after the file has been emptied: what
was in it is lost. -/
theorem C127_emptied_false (ord : Model → Nat) {h : Flash} {x : PyErr} (hb : h.bytes = .error x) {filename : Str} (hne : filename ≠ [])
    (m : Model) (fs : Files) : (h.save ord filename m fs).res = .error x ∧ (h.save ord filename m fs).st filename = some [] := by
  unfold save
  cases filename with
  | nil => exact absurd rfl hne
  | cons a l =>
    simp only [List.isEmpty_cons, Bool.false_eq_true, if_false, PyM.bind_run, PyM.ofExcept_run, PyM.warnAll_run, PyM.modify_run, hb]
    exact ⟨trivial, by simp [Files.write]⟩

example : ∃ h, new .app { data := [] } () = ⟨.ok h, (), []⟩ ∧ h.bytes = .error .attributeError := ⟨_, rfl, rfl⟩

/-- No new header survives saving and opening: whatever it was made from and whatever class is asked for, the opened one has no data
and a type that is null, and there are warnings that the device is unknown and that data is left over. -/
theorem C127_new_false {c : FlashCls} {a : NewArgs} {h : Flash} (hn : (new c a ()).res = .ok h) {b : Bytes} (hb : h.bytes = .ok b)
    (c' : FlashCls) (path : Str) {fs : Files} (hp : fs path = some b) :
    ∃ h' ws, openAt c' path fs = ⟨.ok h', fs, ws⟩ ∧ h' ≠ h ∧ h'.calcData = some [] ∧ h'.devices.take 2 = [0x00, 0x00] ∧
      .flashDevice ∈ ws ∧ .flashOpenExtra ∈ ws := by
  have F := new_fresh hn
  obtain ⟨t, ht⟩ := F.devices
  have hnz : UInt8.ofNat (c.typeId.getD 0xFF) ≠ 0x00 := by cases c <;> decide
  obtain ⟨d, fl, ty, sz, hd, hsz, hbe⟩ := fresh_bytes F hb
  obtain ⟨h0, h0n, h0c⟩ : ∃ h0, new c' {} () = ⟨.ok h0, (), []⟩ ∧ h0.cls = c' := by
    cases c' <;> exact ⟨_, rfl, rfl⟩
  obtain ⟨X, hX⟩ : ∃ X, X = h.magic ++ (h.revision ++ ([fl] ++ ([ty] ++ (h.date ++ ([UInt8.ofNat (rstripNul h.name).length] ++ (h.name ++ ([0x00] ++
      ([0x00] ++ ((List.replicate 21 0x00 ++ h.devices) ++ [0x00]))))))))) := ⟨_, rfl⟩
  have hXl : X.length = 74 := by
    rw [hX]
    simp [F.magic, F.revision, F.date, F.name, ht]
  obtain ⟨R, hR⟩ : ∃ R, R = List.replicate 16 0x00 ++ (h.productId ++ sz ++ d ++ checksumOf d) := ⟨_, rfl⟩
  have hbX : b = X ++ ([0x00, 0x00, 0x00, 0x00] ++ ([] ++ ([0x00, 0x00] ++ R))) := by
    rw [hbe, hX, hR]
    simp [List.replicate]
  have h1 := next_run (pre := []) (m := X) (sz := [0x00, 0x00, 0x00, 0x00]) (d := []) (tl := [0x00, 0x00] ++ R) hXl rfl rfl
  rw [if_neg (by simp [flashMagic])] at h1
  rw [show ([] : Bytes) ++ (X ++ ([0x00, 0x00, 0x00, 0x00] ++ ([] ++ ([0x00, 0x00] ++ R)))) = b from by rw [hbX]; rfl] at h1
  have h3 : (⟨b, ([] : Bytes).length⟩ : Stream).read (80 + ([] : Bytes).length) = (X ++ [0x00, 0x00, 0x00, 0x00, 0x00, 0x00], ⟨b, 80⟩) :=
    Stream.read_app' (pre := []) (post := R) (by rw [hbX]; simp) rfl (by simp [hXl])
  have h4 : (⟨b, 80⟩ : Stream).rest = R := by
    rw [Stream.rest, hbX, show X ++ ([0x00, 0x00, 0x00, 0x00] ++ ([] ++ ([0x00, 0x00] ++ R))) =
      (X ++ [0x00, 0x00, 0x00, 0x00, 0x00, 0x00]) ++ R by simp]
    exact List.drop_left' (by simp [hXl])
  have h5 := load_ok (m := h.magic) (rv := h.revision) (da := h.date) (nm := h.name) (ds := List.replicate 21 0x00 ++ h.devices)
    (sz := [0x00, 0x00, 0x00, 0x00]) (d := []) (tl := [0x00, 0x00]) (fl := fl)
    (ty := ty) (n := UInt8.ofNat (rstripNul h.name).length) (d0 := 0x00) (d1 := 0x00) (p := 0x00) h0 F.magic F.revision F.date
    F.name (by rw [List.length_append, List.length_replicate, ht]; rfl) rfl rfl
  rw [show h.magic ++ (h.revision ++ ([fl] ++ ([ty] ++ (h.date ++ ([UInt8.ofNat (rstripNul h.name).length] ++ (h.name ++ ([0x00] ++
      ([0x00] ++ ((List.replicate 21 0x00 ++ h.devices) ++ ([0x00] ++ ([0x00, 0x00, 0x00, 0x00] ++ ([] ++ [0x00, 0x00])))))))))))) =
      X ++ [0x00, 0x00, 0x00, 0x00, 0x00, 0x00] by rw [hX]; simp] at h5
  have hRne : R ≠ [] := by rw [hR]; simp [List.replicate]
  have hRm : flashMagic.isPrefixOf R = false := by rw [hR]; rfl
  simp only [List.length_nil, Nat.add_zero] at h1 h3
  refine ⟨_, _, openAt_some hp (by rw [hbX]; simp [hXl]; omega) (by
    simp only [openFile, PyM.bind_run, h0n, Stream.ofBytes, h1, h3, h4, h5, PyM.warnAll_run, PyM.ofExcept_run, ne_eq, hRne, not_false_eq_true,
    if_true, hRm]
    rfl), ?_, rfl, rfl, ?_, ?_⟩
  · intro he
    have := congrArg (fun h : Flash => h.devices.getD 1 0) he
    rw [ht] at this
    exact hnz this.symm
  · simp [deviceTypes]
  · simp [PyM.bind_run, PyM.warn_run, PyM.pure_run]

example : ∃ h b, new .app {} () = ⟨.ok h, (), []⟩ ∧ h.bytes = .ok b := ⟨_, _, rfl, rfl⟩

end Verif
