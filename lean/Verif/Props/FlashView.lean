import Verif.Proofs.FlashView
import Verif.Props.Flash

/-! Property theorems about the attributes of flash headers (C128). -/

namespace Verif
open Spec Flash

/-- C128, reading: a header with given fields has the text of the name, the devices in pairs, the first device and its type, and the text
of a license. The data is given as it is in binary headers, and as blocks in the others if it consists of records. -/
theorem C128_read {f : FlashFields} (hf : f.Fit) (c : FlashCls) (s : Bool) :
    (f.header c s).nameText = asText f.name ∧
    deviceView.get ⟨false, (f.header c s).devices⟩ = .ok ((f.devices.getD 0 0).toNat : Int) ∧
    typeView.get ⟨false, (f.header c s).devices⟩ = .ok ((f.devices.getD 1 0).toNat : Int) ∧
    (∀ (ps : List (UInt8 × UInt8)) (r : Bytes), f.devices = ps.flatMap (fun p => [p.1, p.2]) ++ r → r.length ≤ 1 →
      devicesGet (f.header c s).devices = ps.map fun p => ((p.1.toNat : Int), (p.2.toNat : Int))) ∧
    (Trimmed f.data → (f.header c s).getLicense = .ok (asText f.data)) ∧
    (f.flag ≠ 0x01 → (f.header c s).getData () = ⟨.ok (.raw f.data), (), []⟩) ∧
    (∀ ks, f.flag = 0x01 → ks ≠ [] → (∀ k ∈ ks, ∃ a t d, IsRecord k a t d) → joinBlocks ks = .ok f.data →
      (f.header c s).getData () = ⟨.ok (.blocks ks), (), blockWarnings ks⟩) := by
  have hd := hf.devices
  obtain ⟨a, b, r, hr⟩ : ∃ a b r, f.devices = a :: b :: r := by
    rcases h : f.devices with _ | ⟨a, _ | ⟨b, r⟩⟩
    · rw [h] at hd; simp at hd
    · rw [h] at hd; simp at hd
    · exact ⟨a, b, r, rfl⟩
  have hflag : wrapIndexError ((bitsConv {}).get (f.header c s).binaryFlag) = .ok (f.flag.toNat : Int) := by
    show wrapIndexError ((bitsConv {}).get [f.flag]) = _
    rw [bitsFull_get]
    rfl
  refine ⟨trimmed_text hf.nameEnd, ?_, ?_, fun ps r' h1 h2 => ?_, fun ht => ?_, fun h => ?_, fun ks h h1 h2 h3 => ?_⟩
  · have := deviceType_ok (h := f.header c s) (a := a) (r := b :: r) hr
    unfold Flash.deviceType at this
    unfold View.get deviceView View.mk' enumConv
    simp only
    rw [hr]
    have hh : (f.header c s).devices = f.devices := rfl
    rw [hh] at this ⊢
    rcases hx : byte0 (getSlice f.devices ⟨some 0, some 1, none⟩) with e | x
    · rw [hx] at this
      cases e <;> simp [wrapIndexError] at this
    · rw [hx] at this
      simp only [wrapIndexError, Except.ok.injEq] at this
      subst this
      rfl
  · have := typeId_ok (h := f.header c s) hr
    unfold Flash.typeId at this
    unfold View.get typeView View.mk'
    simp only
    rw [this, hr]
    rfl
  · show devicesGet f.devices = _
    rw [h1, devicesGet_pairs ps r' h2]
  · show wrapIndexError (strConv.get (getSlice f.data {})) = _
    rw [getSlice_whole]
    show Except.ok (rstripNulStr (latin1Decode f.data)) = _
    rw [trimmed_text ht]
  · unfold getData
    rw [hflag]
    simp only [FlashFields.header]
    rw [if_neg (by
      intro hc
      exact h (UInt8.toNat_inj.1 (Int.ofNat.inj hc)))]
    rfl
  · unfold getData
    rw [hflag]
    simp only [FlashFields.header]
    rw [if_pos (by rw [h]; rfl)]
    obtain ⟨b', hb1, hb2⟩ := C74_blocks_partial h1 h2
    rw [h3] at hb1
    cases hb1
    simp only [PyM.bind_run, hb2, PyM.pure_run, List.append_nil]

example : devicesGet (sampleFlash.header .app true).devices = [(0x73, 0x24)] ∧
    (sampleFlash.header .app true).getData () = ⟨.ok (.raw [0x01, 0x02, 0xFF]), (), []⟩ := by decide +kernel

/-- Assigning devices: pairs of bytes are stored one after the other and read back the same, nothing else changes, and values that
are no bytes are refused. -/
theorem C128_devices (h : Flash) :
    (∀ ps : List (UInt8 × UInt8), putDevices (ps.map fun p => ((p.1.toNat : Int), (p.2.toNat : Int))) h =
      ⟨.ok (), { h with devices := ps.flatMap fun p => [p.1, p.2] }, []⟩ ∧
      devicesGet (ps.flatMap fun p => [p.1, p.2]) = ps.map fun p => ((p.1.toNat : Int), (p.2.toNat : Int))) ∧
    (∀ ps, (∃ p ∈ ps, (p.1 < 0 ∨ 256 ≤ p.1) ∨ (p.2 < 0 ∨ 256 ≤ p.2)) → putDevices ps h = ⟨.error .valueError, h, []⟩) := by
  refine ⟨fun ps => ⟨?_, ?_⟩, fun ps hps => ?_⟩
  · unfold putDevices
    rw [devicesSet_pairs]
    simp [PyM.bind_run, PyM.ofExcept_run, PyM.modify_run]
  · simpa using devicesGet_pairs ps [] (by simp)
  · unfold putDevices
    rw [devicesSet_range hps]
    simp [PyM.bind_run, PyM.ofExcept_run]

example : (putDevices [(0x73, 0x3E), (0x88, 0x3E)] (sampleFlash.header .license true)).st.devices = [0x73, 0x3E, 0x88, 0x3E] := by
  decide +kernel

/-- No device, type, data or license can be assigned to any header: whatever the value, an error is raised and nothing
changes. For bytes, for binary data and for Latin
text the error is `TypeError`, as Python gives for assigning to parts of a `bytes` object. -/
theorem C128_assign_false (h : Flash) :
    (∀ v, ∃ x ws, putDevice deviceView v h = ⟨.error x, h, ws⟩ ∧ (0 ≤ v ∧ v < 256 → x = .typeError)) ∧
    (∀ v, ∃ ws, putDevice typeView v h = ⟨.error .typeError, h, ws⟩) ∧
    (∀ v, ∃ x ws, putData v h = ⟨.error x, h, ws⟩ ∧
      (∀ d fl, v = .raw d → h.calcData ≠ none → h.binaryFlag = [fl] → fl ≠ 0x01 → x = .typeError)) ∧
    (∀ s, ∃ x ws, putLicense s h = ⟨.error x, h, ws⟩ ∧ (h.calcData ≠ none → (∀ ch ∈ s, ch.toNat < 256) → x = .typeError)) := by
  refine ⟨fun v => ?_, fun v => ?_, fun v => ?_, fun s => ?_⟩
  · obtain ⟨x, ws, h1, h2⟩ := put_immutable deviceView v h.devices
    refine ⟨x, ws, ?_, fun hv => ?_⟩
    · show (match deviceView.put v ⟨false, h.devices⟩ with
        | ⟨r, b, ws⟩ => (⟨r, { h with devices := b.bytes }, ws⟩ : Out Flash Unit)) = _
      rw [h1]
    · have hb : byteOf v = .ok [UInt8.ofNat v.toNat] := by unfold byteOf; rw [if_neg (by omega)]
      refine h2 [UInt8.ofNat v.toNat] ?_
      have h3 : deviceView.length = some 1 := rfl
      rw [h3]
      unfold setRaw deviceView View.mk' enumConv fitWidth
      by_cases hm : v ∉ ([0x73, 0x74, 0x88, 0x98] : List Int)
      · simp only [hm, not_false_eq_true, if_true, PyM.bind_run, PyM.warn_run, PyM.ofExcept_run, hb]
        rfl
      · simp only [hm, if_false, PyM.bind_run, PyM.ofExcept_run, hb]
        rfl
  · obtain ⟨x, ws, h1, h2⟩ := put_immutable typeView v h.devices
    obtain rfl := h2 _ (congrArg Out.res (setRaw_eq (n := 1) (bitsFull_set _ _ _) rfl))
    refine ⟨ws, ?_⟩
    show (match typeView.put v ⟨false, h.devices⟩ with
      | ⟨r, b, ws⟩ => (⟨r, { h with devices := b.bytes }, ws⟩ : Out Flash Unit)) = _
    rw [h1]
  · unfold putData
    rcases hc : h.calcData with _ | d
    · exact ⟨.attributeError, [], by simp [PyM.bind_run, PyM.get_run, hc, PyM.raise], fun _ _ _ hn => absurd rfl hn⟩
    · simp only [PyM.bind_run, PyM.get_run, hc, PyM.ofExcept_run]
      rcases hs : h.dataSet v with e | b
      · refine ⟨e, [], by simp, ?_⟩
        rintro d' fl rfl - hfl hne
        unfold dataSet at hs
        rw [hfl, bitsFull_get] at hs
        simp only [wrapIndexError] at hs
        rw [if_neg (by
          intro hc
          exact hne (UInt8.toNat_inj.1 (Int.ofNat.inj hc)))] at hs
        cases hs
      · obtain ⟨x, ws, h1, h2⟩ := put_immutable (View.mk' none bytesConv {}) b d
        have h1' : ((View.mk' none bytesConv {}).put b).1 ⟨false, d⟩ = ⟨.error x, ⟨false, d⟩, ws⟩ := h1
        simp only [h1']
        refine ⟨x, ws, by simp [PyM.warnAll_run], fun _ _ _ _ _ _ => ?_⟩
        exact h2 b rfl
  · show ∃ x ws, (match h.calcData with
        | none => (⟨.error .attributeError, h, []⟩ : Out Flash Unit)
        | some d =>
          match licenseView.put s ⟨false, d⟩ with
          | ⟨r, b, ws⟩ => ⟨r, { h with calcData := some b.bytes }, ws⟩) = _ ∧ _
    rcases hc : h.calcData with _ | d
    · exact ⟨.attributeError, [], rfl, fun hn => absurd rfl hn⟩
    · obtain ⟨x, ws, h1, h2⟩ := put_immutable licenseView s d
      simp only [h1]
      refine ⟨x, ws, by rw [← hc], fun _ hl => h2 (s.map fun c => UInt8.ofNat c.toNat) ?_⟩
      unfold setRaw licenseView View.mk' strConv
      simp only [PyM.bind_run, PyM.ofExcept_run, latin1Encode_ok s hl]
      rfl

example : (putLicense "Free".toList (sampleFlash.header .license true)).res = .error .typeError := by decide +kernel

/-- Assigning a name of at most 31 Latin characters, not ending in a null character, stores it and changes nothing else. It can be
read back. -/
theorem C128_name_partial (h : Flash) {s : Str} (hs : ∀ ch ∈ s, ch.toNat < 256) (hl : s.length ≤ 31) (he : s.getLast? ≠ some '\x00') :
    ∃ nm, putName s h = ⟨.ok (), { h with name := nm }, []⟩ ∧ ({ h with name := nm } : Flash).nameText = s ∧ nm.length = 31 := by
  have h1 := latin1Encode_ok s hs
  refine ⟨ljust 31 (s.map fun c => UInt8.ofNat c.toNat), ?_, ?_, ?_⟩
  · unfold putName setRaw strConv fitWidth
    simp only [PyM.bind_run, PyM.get_run, PyM.lift_run, PyM.ofExcept_run, h1, List.length_map]
    rw [if_neg (by omega)]
    simp [PyM.pure_run, PyM.set_run]
  · apply isRStrip_unique (z := '\x00') (s := latin1Decode (ljust 31 (s.map fun c => UInt8.ofNat c.toNat)))
    · exact rstripNulStr_isRStrip _
    · refine ⟨⟨31 - (s.map fun c => UInt8.ofNat c.toNat).length, ?_⟩, he⟩
      rw [ljust, latin1Decode, List.map_append, List.map_replicate, List.map_map]
      congr 1
      conv => rhs; rw [← List.map_id s]
      apply List.map_congr_left
      intro c hc
      simp only [Function.comp, id]
      rw [UInt8.toNat_ofNat_of_lt' (by simpa using hs c hc)]
      exact Char.ofNat_toNat c
  · unfold ljust
    rw [List.length_append, List.length_replicate, List.length_map]
    omega

/-- But once a name has been assigned to a header with one device, its bytes are no longer those of a header: loading them finds a
null device and type, and no data. -/
theorem C128_name_false {f : FlashFields} (hf : f.Fit) (hd : f.devices.length = 2) (c : FlashCls) (s : Str) {h : Flash} {ws : List Warn}
    (hp : putName s (f.header c f.withSum) = ⟨.ok (), h, ws⟩) {b : Bytes} (hb : h.bytes = .ok b) (h0 : Flash) :
    (load b h0).res = .ok () ∧ (load b h0).st.devices.take 2 = [0x00, 0x00] ∧ (load b h0).st.calcData = some [] ∧
      .flashDevice ∈ (load b h0).warns := by
  obtain ⟨t, u, htu⟩ : ∃ t u, f.devices = [t, u] := by
    rcases h : f.devices with _ | ⟨t, _ | ⟨u, _ | ⟨w, r⟩⟩⟩ <;> rw [h] at hd <;> simp at hd
    exact ⟨t, u, rfl⟩
  obtain ⟨nm, rfl, hnm⟩ : ∃ nm, h = { f.header c f.withSum with name := nm } ∧ nm.length = 31 := by
    unfold putName at hp
    simp only [PyM.bind_run, PyM.get_run, PyM.lift_run] at hp
    rcases hr : setRaw strConv (some 31) (f.header c f.withSum).name s () with ⟨r, v, w⟩
    rw [hr] at hp
    cases r with
    | error e => simp at hp
    | ok nm =>
      simp only [PyM.set_run] at hp
      injection hp with _ h2 _
      exact ⟨nm, h2.symm, setRaw_width (congrArg Out.res hr)⟩
  obtain ⟨fl, ty, tl, hbe⟩ := wide_bytes (h := { f.header c f.withSum with name := nm }) (t := t) (u := u) rfl rfl hnm htu hb
  have := load_ok (m := (f.header c f.withSum).magic) (rv := f.revision) (da := f.date) (nm := nm) (ds := List.replicate 21 0x00 ++ [t, u])
    (sz := [0x00, 0x00, 0x00, 0x00]) (d := []) (tl := tl) (fl := fl)
    (ty := ty) (n := UInt8.ofNat (rstripNul nm).length) (d0 := 0x00) (d1 := 0x00) (p := 0x00) h0 rfl hf.revision hf.date
    hnm (by simp) rfl rfl
  rw [hbe]
  simp only [FlashFields.header] at this ⊢
  rw [this]
  exact ⟨rfl, rfl, rfl, by simp [deviceTypes]⟩

example : ∃ h b, putName "App".toList (sampleFlash.header .app true) = ⟨.ok (), h, []⟩ ∧ h.bytes = .ok b := ⟨_, _, rfl, rfl⟩

end Verif
