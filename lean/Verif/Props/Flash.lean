import Verif.Proofs.Flash

/-! Properties of flash files. -/

namespace Verif
open Spec Flash

/-! ### C63 – blocks -/

/-- C63, the part that holds: a block of two bytes of address, one of type and at most 255 of data, written as
hexadecimal digits in either case, serialises to `:`, the length, the address, the type, the data and a
checksum, such that the bytes add up to 0 modulo 256; loading that, whatever comes after it, gives the block
back, with a warning for unknown types only. Missing: a block made without data, see `C63_empty_false`. -/
theorem C63_block_partial {k : Block} {a : Bytes} {t : UInt8} {d : Bytes} (h : IsRecord k a t d) :
    ∃ b s n c cs, k.data = some s ∧ k.bytes = .ok b ∧ b = [0x3A] ++ n ++ k.address ++ k.blockType ++ s ++ cs ∧
      HexText n [UInt8.ofNat d.length] ∧ HexText cs [c] ∧
      (d.length + byteSum a + t.toNat + byteSum d + c.toNat) % 256 = 0 ∧
      ∀ k0 post, Block.load (b ++ post) k0 =
        ⟨.ok (), k, if t = 0x00 ∨ t = 0x01 ∨ t = 0x02 then [] else [.blockType]⟩ := by
  obtain ⟨b, s, c, hs, hb, he, hc, hsum, hl⟩ := Block.record_ok h
  have hd := h.dlen
  have hcn : (UInt8.ofNat c).toNat = c := by simp; omega
  exact ⟨b, s, _, UInt8.ofNat c, _, hs, hb, by rw [he]; simp, hex02_text (by omega), hex02_text hc, by rw [hcn]; exact hsum, hl⟩

example : (Block.bytes ⟨[0x34, 0x30, 0x30, 0x30], [0x30, 0x30], some [0x41, 0x62, 0x30, 0x31]⟩) =
    .ok [0x3A, 0x30, 0x32, 0x34, 0x30, 0x30, 0x30, 0x30, 0x30, 0x41, 0x62, 0x30, 0x31, 0x31, 0x32] := by decide +kernel

/-- A block made without data, such as an end block, cannot be serialised. -/
theorem C63_empty_false (address blockType : Bytes) :
    ∃ k ws, Block.new address blockType [] () = ⟨.ok k, (), ws⟩ ∧ k.bytes = .error .attributeError := by
  simp only [Block.new, setRaw, bytesConv, PyM.bind_run, PyM.pure_run, fitWidth_some]
  exact ⟨_, _, rfl, rfl⟩

/-- A record with another checksum than its own loads with a warning. -/
theorem C63_checksum {k : Block} {a : Bytes} {t : UInt8} {d : Bytes} (h : IsRecord k a t d) {b : Bytes}
    (hb : k.bytes = .ok b) (x y : UInt8) (hxy : b.drop (b.length - 2) ≠ [x, y]) (k0 : Block) :
    Block.load (b.take (b.length - 2) ++ [x, y]) k0 = ⟨.ok (), k,
      (if t = 0x00 ∨ t = 0x01 ∨ t = 0x02 then [] else [.blockType]) ++ [.blockChecksum]⟩ :=
  Block.record_bad h hb x y hxy k0

example : IsRecord ⟨[0x34, 0x30, 0x30, 0x30], [0x30, 0x30], some [0x41, 0x62, 0x30, 0x31]⟩ [0x40, 0x00] 0x00 [0xAB, 0x01] :=
  ⟨.cons (x := 4) (y := 0) (.inl rfl) (.inl rfl) (.cons (x := 0) (y := 0) (.inl rfl) (.inl rfl) .nil), rfl,
    .cons (x := 0) (y := 0) (.inl rfl) (.inl rfl) .nil,
    ⟨_, rfl, .cons (x := 10) (y := 11) (.inl rfl) (.inr rfl) (.cons (x := 0) (y := 1) (.inl rfl) (.inl rfl) .nil)⟩, by decide⟩

example : Block.load [0x3A, 0x30, 0x32, 0x34, 0x30, 0x30, 0x30, 0x30, 0x30, 0x41, 0x62, 0x30, 0x31, 0x31, 0x33]
    ⟨[], [], none⟩ = ⟨.ok (), ⟨[0x34, 0x30, 0x30, 0x30], [0x30, 0x30], some [0x41, 0x62, 0x30, 0x31]⟩, [.blockChecksum]⟩ := by
  decide +kernel

/-- A record cut off within its data loads with a warning, as far as it goes. -/
theorem C63_short {k : Block} {a : Bytes} {t : UInt8} {d : Bytes} (h : IsRecord k a t d) {b : Bytes}
    (hb : k.bytes = .ok b) {m : Nat} (hm : 9 ≤ m) (hm' : m + 2 < b.length) (k0 : Block) :
    Warn.blockSize ∈ (Block.load (b.take m) k0).warns ∧
      (Block.load (b.take m) k0).st = ⟨k.address, k.blockType, k.data.map (List.take (m - 9))⟩ :=
  Block.record_cut h hb hm hm' k0

example : Block.load [0x3A, 0x30, 0x32, 0x34, 0x30, 0x30, 0x30, 0x30, 0x30, 0x41, 0x62] ⟨[], [], none⟩ =
    ⟨.ok (), ⟨[0x34, 0x30, 0x30, 0x30], [0x30, 0x30], some [0x41, 0x62]⟩, [.blockSize, .blockChecksum]⟩ := by
  decide +kernel

/-! ### C64 – headers -/

example : sampleFlash.Fit := by
  refine ⟨rfl, rfl, by decide, fun b h => ?_, by decide, fun b h => ?_, by decide⟩
  · simp [sampleFlash] at h; subst h; decide
  · simp [sampleFlash] at h

example : load sampleFlash.file (sampleFlash.header .os true) =
    ⟨.ok (), sampleFlash.header .os true, [.flashType]⟩ := by decide +kernel

/-- Loading a header as flash files have it, into any header object, gives its fields and just the warnings
due. -/
theorem C64_load_partial {f : FlashFields} (hf : f.Fit) (h : Flash) :
    load f.file h = ⟨.ok (), f.header (if h.cls = .header then flashKind (f.devices.getD 1 0) else h.cls)
      (h.hasChecksum && f.withSum), f.warnings h.cls⟩ := by
  obtain ⟨d0, d1, r, hdev⟩ : ∃ d0 d1 r, f.devices = d0 :: d1 :: r := by
    have := hf.devices.1
    rcases h' : f.devices with _ | ⟨a, _ | ⟨b, r⟩⟩
    · rw [h'] at this; simp at this
    · rw [h'] at this; simp at this
    · exact ⟨a, b, r, rfl⟩
  have hr : Trimmed r := by have := hf.devicesEnd; rwa [hdev] at this
  have hn := hf.name
  have hd := hf.devices.2
  rw [hdev] at hd
  simp only [List.length_cons] at hd
  have hsz := toLE_four hf.data
  have := load_ok (m := flashMagic) (rv := f.revision) (da := f.date) (nm := f.name ++ List.replicate (31 - f.name.length) 0x00)
    (ds := r ++ List.replicate (23 - r.length) 0x00) (sz := toLE 4 f.data.length) (d := f.data) (tl := tail f) (fl := f.flag)
    (ty := f.objectType) (n := UInt8.ofNat f.name.length) (d0 := d0) (d1 := d1) (p := f.product) h rfl hf.revision hf.date
    (by rw [List.length_append, List.length_replicate]; omega) (by rw [List.length_append, List.length_replicate]; omega)
    (length_toLE _ _) hsz.symm
  have hfile : f.file = flashMagic ++ (f.revision ++ ([f.flag] ++ ([f.objectType] ++ (f.date ++ ([UInt8.ofNat f.name.length] ++
      ((f.name ++ List.replicate (31 - f.name.length) 0x00) ++ ([d0] ++ ([d1] ++ ((r ++ List.replicate (23 - r.length) 0x00) ++
      ([f.product] ++ (toLE 4 f.data.length ++ (f.data ++ tail f)))))))))))) := by
    have h25 : 25 - (r.length + 1 + 1) = 23 - r.length := by omega
    rw [file_eq, front, hdev]
    simp only [List.length_cons, h25, flashMagic, List.append_assoc, List.cons_append, List.nil_append]
  rw [hfile, this, rstripNul_pad hf.nameEnd, rstripNul_pad hr]
  have h1 : (UInt8.ofNat f.name.length).toNat = f.name.length := by simp; omega
  have h2 : (!(tail f).isEmpty) = f.withSum := by
    unfold tail
    cases f.withSum <;> rfl
  have h3 : tail f = [] ∨ (tail f).take 2 = checksumOf f.data := by
    unfold tail
    cases f.withSum
    · exact Or.inl rfl
    · right
      rw [if_pos rfl, List.take_of_length_le (by rw [length_toLE]; exact Nat.le_refl 2)]
      rfl
  rw [if_pos h3, h1, h2]
  have hg : (d0 :: d1 :: r).getD 1 0 = d1 := rfl
  have hh : (d0 :: d1 :: r).headD 0 = d0 := rfl
  simp only [FlashFields.header, FlashFields.warnings, hdev, hg, hh, typeWarn, deviceTypes, if_true, List.nil_append, List.append_nil]
  congr 1
  by_cases hc : h.cls = .header
  · by_cases hk : flashKind d1 = .header
    · simp [hc, hk]
      split <;> rfl
    · simp [hc, hk]
  · by_cases hk : flashKind d1 = h.cls
    · simp [hc, hk]
    · simp [hc, hk]

/-- When the name has eight bytes and there is one device, the header serialises to what it was loaded from, and loading that
gives the same header. -/
theorem C64_roundtrip_partial {f : FlashFields} (hf : f.Fit) (hn : f.name.length = 8) (hd : f.devices.length = 2) (c : FlashCls)
    (h0 : Flash) (hc : h0.cls = c ∨ h0.cls = .header ∧ c = flashKind (f.devices.getD 1 0)) (hs : h0.hasChecksum = true)
    (hk : c = .header → flashKind (f.devices.getD 1 0) = .header) :
    (f.header c f.withSum).bytes = .ok f.file ∧
      ∃ ws, load f.file h0 = ⟨.ok (), f.header c f.withSum, ws⟩ := by
  refine ⟨?_, f.warnings h0.cls, ?_⟩
  · rw [header_bytes hf, FlashFields.file, hn, hd]
    simp [tail]
  · rw [C64_load_partial hf, hs, Bool.true_and]
    congr 2
    rcases hc with rfl | ⟨h1, h2⟩
    · by_cases h : h0.cls = .header
      · rw [if_pos h, hk h, h]
      · rw [if_neg h]
    · rw [if_pos h1, h2]

example : (({ sampleFlash with name := "Abcdefgh".toList.map fun c => UInt8.ofNat c.toNat } : FlashFields).header .app true).bytes.toOption.map
    List.length = some 83 := by decide +kernel

/-- In all other cases it serialises to something else than it was loaded from. -/
theorem C64_exact {f : FlashFields} (hf : f.Fit) (c : FlashCls) :
    (f.header c f.withSum).bytes = .ok f.file ↔ f.name.length = 8 ∧ f.devices.length = 2 := by
  refine ⟨fun h => ?_, fun ⟨h1, h2⟩ => ?_⟩
  · rw [header_bytes hf, Except.ok.injEq, FlashFields.file] at h
    have hn := hf.name
    have hd := hf.devices
    have hl := congrArg List.length h
    simp only [List.length_append, List.length_cons, List.length_nil, List.length_replicate, length_toLE, tail] at hl
    have hsum : f.name.length + f.devices.length = 10 := by omega
    by_contra hne
    obtain ⟨k, hk⟩ : ∃ k, f.devices.length = k + 3 := ⟨f.devices.length - 3, by omega⟩
    have hk' : k < 8 := by omega
    simp only [List.append_assoc, List.append_cancel_left_eq] at h
    rw [show 31 - f.name.length = 23 + (k + 1) by omega, List.replicate_add] at h
    simp only [List.append_assoc, List.append_cancel_left_eq] at h
    -- compare the byte at the end of the devices in the file
    have h1 := congrArg (fun l => l[2 * k + 3]?) h
    rw [List.getElem?_append_right (by omega), List.getElem?_append_left (by simp; omega),
      List.getElem?_append_right (by simp; omega), List.getElem?_append_left (by simp; omega)] at h1
    rw [List.getElem?_replicate_of_lt (by omega), List.length_replicate, show 2 * k + 3 - (k + 1) = f.devices.length - 1 by omega] at h1
    refine hf.devicesEnd 0x00 ?_ rfl
    rw [List.getLast?_eq_getElem?, List.getElem?_drop, List.length_drop,
      show 2 + (f.devices.length - 2 - 1) = f.devices.length - 1 by omega, ← h1]
  · rw [header_bytes hf, FlashFields.file, h1, h2]
    simp [tail]

/-- No new header survives saving and loading: whatever it was made from, the second byte of the devices, the type, is
null after loading its bytes. -/
theorem C64_new_false {c : FlashCls} {a : NewArgs} {h : Flash} (hn : (new c a ()).res = .ok h) {b : Bytes}
    (hb : h.bytes = .ok b) (h0 : Flash) :
    (load b h0).res = .ok () ∧ (load b h0).st.devices.getD 1 0 = 0x00 ∧ h.devices.getD 1 0 ≠ 0x00 := by
  have F := new_fresh hn
  obtain ⟨t, ht⟩ := F.devices
  have hnz : UInt8.ofNat (c.typeId.getD 0xFF) ≠ 0x00 := by cases c <;> decide
  obtain ⟨d, fl, ty, sz, hd, hsz, hbe⟩ := fresh_bytes F hb
  have := load_ok (m := h.magic) (rv := h.revision) (da := h.date) (nm := h.name) (ds := List.replicate 21 0x00 ++ h.devices)
    (sz := [0x00, 0x00, 0x00, 0x00]) (d := []) (tl := List.replicate 18 0x00 ++ (h.productId ++ sz ++ d ++ checksumOf d)) (fl := fl)
    (ty := ty) (n := UInt8.ofNat (rstripNul h.name).length) (d0 := 0x00) (d1 := 0x00) (p := 0x00) h0 F.magic F.revision F.date
    F.name (by rw [List.length_append, List.length_replicate, ht]; rfl) rfl rfl
  rw [hbe, this]
  exact ⟨rfl, rfl, by rw [ht]; exact hnz⟩

example : ∃ h b, new .app {} () = ⟨.ok h, (), []⟩ ∧ h.bytes = .ok b := ⟨_, _, rfl, rfl⟩

/-- A header with a name of three characters, though loaded from a file, serialises to something else. -/
theorem C64_loaded_false : ∃ (d b : Bytes) (h h0 : Flash), load d h0 = ⟨.ok (), h, []⟩ ∧ h.bytes = .ok b ∧ b ≠ d ∧
    (load b h0).st ≠ h := by
  refine ⟨sampleFlash.file, _, sampleFlash.header .app true, sampleFlash.header .app true, by decide +kernel, rfl,
    by decide +kernel, by decide +kernel⟩

/-- Loading a header with a checksum into an object that had loaded one without loses the checksum, even where it
would survive otherwise. -/
theorem C64_reload_false {f : FlashFields} (hf : f.Fit) (hs : f.withSum = true) (hn : f.name.length = 8) (hd : f.devices.length = 2)
    {g : FlashFields} (hg : g.Fit) (hgs : g.withSum = false) (h : Flash) :
    ∃ b, (load f.file (load g.file h).st).st.bytes = .ok b ∧ b.length + 2 = f.file.length := by
  rw [C64_load_partial hg]
  simp only
  rw [C64_load_partial hf]
  simp only [FlashFields.header, hgs, Bool.and_false, Bool.false_and]
  have hf' : ({ f with withSum := false } : FlashFields).Fit := ⟨hf.1, hf.2, hf.3, hf.4, hf.5, hf.6, hf.7⟩
  refine ⟨_, (C64_exact hf' _).2 ⟨hn, hd⟩, ?_⟩
  simp only [FlashFields.file, hs, if_true, List.length_append, length_toLE]
  rfl

/-- The length of a header is that of what it was loaded from. -/
theorem C64_len {f : FlashFields} (hf : f.Fit) (c : FlashCls) :
    (f.header c f.withSum).len = .ok f.file.length := by
  have h : intToBytesLE (f.data.length : Int) 4 = .ok (toLE 4 f.data.length) :=
    intToBytesLE_ok (by have := hf.data; simpa using this)
  rw [length_file hf]
  simp only [len, FlashFields.header, h, toLE_four hf.data]
  rfl

example : (sampleFlash.header .app true).len = .ok 83 := by decide +kernel

/-- A header cut off within its data loads with a warning about its length, with the data there is and without
checksum. -/
theorem C64_short {f : FlashFields} (hf : f.Fit) {m : Nat} (hm : 78 ≤ m) (hm' : m < 78 + f.data.length) (h : Flash) :
    (load (f.file.take m) h).res = .ok () ∧ Warn.flashLength ∈ (load (f.file.take m) h).warns ∧
      (load (f.file.take m) h).st = ({ f with data := f.data.take (m - 78) } : FlashFields).header
        (if h.cls = .header then flashKind (f.devices.getD 1 0) else h.cls) false := by
  obtain ⟨d0, d1, r, hdev⟩ : ∃ d0 d1 r, f.devices = d0 :: d1 :: r := by
    have := hf.devices.1
    rcases h' : f.devices with _ | ⟨a, _ | ⟨b, r⟩⟩
    · rw [h'] at this; simp at this
    · rw [h'] at this; simp at this
    · exact ⟨a, b, r, rfl⟩
  have hr : Trimmed r := by have := hf.devicesEnd; rwa [hdev] at this
  have hn := hf.name
  have hd := hf.devices.2
  rw [hdev] at hd
  simp only [List.length_cons] at hd
  have hsz := toLE_four hf.data
  have := load_cut (m := flashMagic) (rv := f.revision) (da := f.date) (nm := f.name ++ List.replicate (31 - f.name.length) 0x00)
    (ds := r ++ List.replicate (23 - r.length) 0x00) (sz := toLE 4 f.data.length) (d := f.data.take (m - 78)) (fl := f.flag)
    (ty := f.objectType) (n := UInt8.ofNat f.name.length) (d0 := d0) (d1 := d1) (p := f.product) h rfl hf.revision hf.date
    (by rw [List.length_append, List.length_replicate]; omega) (by rw [List.length_append, List.length_replicate]; omega)
    (length_toLE _ _) (by rw [hsz, List.length_take]; omega)
  have hfile : f.file.take m = flashMagic ++ (f.revision ++ ([f.flag] ++ ([f.objectType] ++ (f.date ++ ([UInt8.ofNat f.name.length] ++
      ((f.name ++ List.replicate (31 - f.name.length) 0x00) ++ ([d0] ++ ([d1] ++ ((r ++ List.replicate (23 - r.length) 0x00) ++
      ([f.product] ++ (toLE 4 f.data.length ++ f.data.take (m - 78)))))))))))) := by
    have h25 : 25 - (r.length + 1 + 1) = 23 - r.length := by omega
    have h78 : (front f ++ toLE 4 f.data.length).length = 78 := by rw [List.length_append, length_front hf, length_toLE]
    obtain ⟨j, rfl⟩ : ∃ j, m = 78 + j := ⟨m - 78, by omega⟩
    rw [file_eq, ← List.append_assoc]
    conv_lhs => rw [← h78]
    rw [List.take_length_add_append, List.take_append_of_le_length (by omega), front, hdev]
    simp only [List.length_cons, h25, flashMagic, List.append_assoc, List.cons_append, List.nil_append, Nat.add_sub_cancel_left]
  rw [hfile, this, rstripNul_pad hf.nameEnd, rstripNul_pad hr]
  refine ⟨rfl, by simp, ?_⟩
  have hg : (d0 :: d1 :: r).getD 1 0 = d1 := rfl
  simp only [FlashFields.header, hdev, hg, flashMagic]

example : load (sampleFlash.file.take 80) (sampleFlash.header .app true) = ⟨.ok (),
    ({ sampleFlash with data := [0x01, 0x02] } : FlashFields).header .app false, [.flashLength]⟩ := by decide +kernel

/-! ### C65 – several headers in a file -/

/-- C65, the part that holds: in a file of headers as flash files have them, with or without checksums, looking
ahead at any of them gives its length and leaves the position. Missing: headers made by this library, see
`C65_new_false`. -/
theorem C65_next_partial (fs gs : List FlashFields) {f : FlashFields} (hf : f.Fit) :
    nextHeaderLength ⟨(fs ++ f :: gs).flatMap FlashFields.file, (fs.flatMap FlashFields.file).length⟩ =
      (f.file.length, ⟨(fs ++ f :: gs).flatMap FlashFields.file, (fs.flatMap FlashFields.file).length⟩) := by
  have := next_ok hf (fs.flatMap FlashFields.file) gs
  rw [List.flatMap_append, List.flatMap_cons]
  exact this

/-- Each of them can be loaded by its number. -/
theorem C65_offset_partial (fs gs : List FlashFields) {f : FlashFields} (hfs : ∀ g ∈ fs, g.Fit) (hf : f.Fit) (h : Flash) :
    loadFromFile (Stream.ofBytes ((fs ++ f :: gs).flatMap FlashFields.file)) fs.length h = load f.file h := by
  have h1 := skip_ok [] fs (f :: gs) hfs
  have h2 := C65_next_partial fs gs hf
  simp only [List.nil_append, List.length_nil] at h1
  unfold loadFromFile Stream.ofBytes
  rw [h1, h2]
  have h3 := Stream.read_app' (data := (fs ++ f :: gs).flatMap FlashFields.file) (p := (fs.flatMap FlashFields.file).length)
    (pre := fs.flatMap FlashFields.file) (post := gs.flatMap FlashFields.file) (mid := f.file)
    (by simp) rfl rfl
  simp only [h3]

example : loadFromFile (Stream.ofBytes ((sampleFlash :: [{ sampleFlash with product := 0x07 }]).flatMap FlashFields.file)) 1
    (sampleFlash.header .app true) = ⟨.ok (), ({ sampleFlash with product := 0x07 } : FlashFields).header .app true, []⟩ := by
  decide +kernel

/-- There is nothing after the last. -/
theorem C65_end (fs : List FlashFields) (hfs : ∀ g ∈ fs, g.Fit) (k : Nat) (h : Flash) :
    (loadFromFile (Stream.ofBytes (fs.flatMap FlashFields.file)) (fs.length + k) h).res = .error .indexError := by
  have h1 := skip_ok [] fs [] hfs
  simp only [List.nil_append, List.length_nil, List.append_nil] at h1
  unfold loadFromFile Stream.ofBytes
  rw [skip_add, h1]
  obtain ⟨h2, h3⟩ := skip_end (s := ⟨fs.flatMap FlashFields.file, (fs.flatMap FlashFields.file).length⟩) (Nat.le_refl _) k
  obtain ⟨S, hS⟩ : ∃ S, S = skipHeaders k ⟨fs.flatMap FlashFields.file, (fs.flatMap FlashFields.file).length⟩ := ⟨_, rfl⟩
  rw [← hS] at h2 h3 ⊢
  rw [next_end (by rw [h2]; exact h3)]
  apply load_short
  simp only [Stream.read, Stream.peek, List.length_take, List.length_drop, h2]
  simp only at h3
  omega

/-- Opening a file gives the first header, with a warning just when there are more. -/
theorem C65_open_partial (c : FlashCls) {f : FlashFields} (hf : f.Fit) (gs : List FlashFields) :
    openFile c ((f :: gs).flatMap FlashFields.file) () =
      ⟨.ok (f.header (if c = .header then flashKind (f.devices.getD 1 0) else c) f.withSum), (),
        f.warnings c ++ if gs = [] then [] else [.flashOpenMultiple]⟩ := by
  obtain ⟨h0, hn, hc, hs⟩ : ∃ h0, new c {} () = ⟨.ok h0, (), []⟩ ∧ h0.cls = c ∧ h0.hasChecksum = true := by
    cases c <;> exact ⟨_, rfl, rfl, rfl⟩
  have h2 := C65_next_partial [] gs hf
  simp only [List.nil_append, List.flatMap_nil, List.length_nil] at h2
  have h3 := Stream.read_app' (data := (f :: gs).flatMap FlashFields.file) (p := 0)
    (pre := []) (post := gs.flatMap FlashFields.file) (mid := f.file)
    (by simp) rfl rfl
  have h4 : (⟨(f :: gs).flatMap FlashFields.file, 0 + f.file.length⟩ : Stream).rest = gs.flatMap FlashFields.file := by
    rw [Stream.rest, List.flatMap_cons, Nat.zero_add, List.drop_left' rfl]
  unfold openFile
  simp only [PyM.bind_run, hn, Stream.ofBytes, h2, h3, h4, C64_load_partial hf, hc, hs, Bool.true_and, PyM.warnAll_run, PyM.ofExcept_run]
  rcases gs with _ | ⟨g, gs⟩
  · simp [PyM.pure_run]
  · obtain ⟨r, hr⟩ := file_magic g
    have h5 : (g :: gs).flatMap FlashFields.file = flashMagic ++ (r ++ gs.flatMap FlashFields.file) := by
      rw [List.flatMap_cons, hr, List.append_assoc]
    rw [h5]
    simp only [flashMagic, List.isPrefixOf, List.cons_append, List.nil_append, beq_self_eq_true, Bool.and_self, if_true, ne_eq,
      reduceCtorEq, not_false_eq_true, PyM.bind_run, PyM.warn_run, PyM.pure_run, if_false, List.append_nil]

/-- For a header made by this library the length found is 80, whatever the data. -/
theorem C65_new_false {c : FlashCls} {a : NewArgs} {h : Flash} (hn : (new c a ()).res = .ok h) {b : Bytes}
    (hb : h.bytes = .ok b) (post : Bytes) : (nextHeaderLength ⟨b ++ post, 0⟩).1 = 80 ∧ 103 ≤ b.length := by
  have F := new_fresh hn
  obtain ⟨t, ht⟩ := F.devices
  obtain ⟨d, fl, ty, sz, hd, hsz, hbe⟩ := fresh_bytes F hb
  have h1 := next_run (pre := []) (m := h.magic ++ (h.revision ++ ([fl] ++ ([ty] ++ (h.date ++ ([UInt8.ofNat (rstripNul h.name).length] ++ (h.name ++ ([0x00] ++
      ([0x00] ++ ((List.replicate 21 0x00 ++ h.devices) ++ [0x00])))))))))) (sz := [0x00, 0x00, 0x00, 0x00]) (d := [])
      (tl := List.replicate 18 0x00 ++ (h.productId ++ sz ++ d ++ checksumOf d) ++ post)
      (by simp [F.magic, F.revision, F.date, F.name, ht]) rfl rfl
  have h2 : [] ++ ((h.magic ++ (h.revision ++ ([fl] ++ ([ty] ++ (h.date ++ ([UInt8.ofNat (rstripNul h.name).length] ++ (h.name ++ ([0x00] ++
      ([0x00] ++ ((List.replicate 21 0x00 ++ h.devices) ++ [0x00])))))))))) ++ ([0x00, 0x00, 0x00, 0x00] ++ ([] ++
      (List.replicate 18 0x00 ++ (h.productId ++ sz ++ d ++ checksumOf d) ++ post)))) = b ++ post := by
    rw [hbe]; simp only [List.append_assoc, List.nil_append]
  rw [h2] at h1
  rw [show (0 : Nat) = ([] : Bytes).length from rfl, h1]
  refine ⟨by simp [flashMagic, List.replicate], ?_⟩
  rw [hbe]
  simp only [List.length_append, F.magic, F.revision, F.date, F.name, ht, hsz, F.product, checksumOf, length_toLE,
    List.length_cons, List.length_nil, List.length_replicate]
  omega

/-! ### C74 – data made of blocks -/

/-- C74, the part that holds: joining at least one record, and reading the blocks of the result, gives them back. Missing:
no records, see `C74_empty_false`. -/
theorem C74_blocks_partial {ks : List Block} (hne : ks ≠ []) (h : ∀ k ∈ ks, ∃ a t d, IsRecord k a t d) :
    ∃ b, joinBlocks ks = .ok b ∧ flashDataGet b () = ⟨.ok ks, (), blockWarnings ks⟩ := by
  obtain ⟨b, ps, h1, h2, -, h4, -⟩ := splitCRLF_records hne h
  exact ⟨b, h1, by rw [flashDataGet, h2, h4]⟩

/-- No records give no data, the blocks of which cannot be read. -/
theorem C74_empty_false : joinBlocks [] = .ok [] ∧ (flashDataGet [] ()).res = .error .valueError := ⟨rfl, rfl⟩

/-- Data with a line end after the last record, as is usual, cannot be read. -/
theorem C74_line_end_false {ks : List Block} (hne : ks ≠ []) (h : ∀ k ∈ ks, ∃ a t d, IsRecord k a t d) :
    ∃ b, joinBlocks ks = .ok b ∧ (flashDataGet (b ++ [0x0D, 0x0A]) ()).res = .error .valueError := by
  obtain ⟨b, ps, h1, -, h3, -, h5⟩ := splitCRLF_records hne h
  exact ⟨b, h1, by rw [flashDataGet, h3, h5 [[]] .valueError () [] rfl]⟩

end Verif
