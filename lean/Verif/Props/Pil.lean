import Verif.Proofs.Pil

/-
C116: images saved and opened with the Pillow plugins.
-/

namespace Verif
open Spec Ent
variable {V : Type} [LinearOrder V]

/-- C116, pictures in black and white: every image of 96 by 63 components is saved, and the file opens as an image of 96
by 63 pixels in which every component that is not zero is 255; if it was such an image, as the same. The plugin for
colour pictures refuses it. -/
theorem C116_mono_partial (env : Env V) (me : Var.ModelEnv) (name : Bytes) (hn : name.length = 8) (r : Raster)
    (hv : r.values.length = 6048) :
    ∃ b ws, saveImage env .xi name r () = ⟨.ok b, (), ws⟩ ∧ pluginAccept b = true ∧
      openImage env me .xi b () = ⟨.ok ⟨96, 63, 1, r.values.map fun p => if p = 0 then 0 else 255⟩, (), []⟩ ∧
      (r.width = 96 → r.height = 63 → r.bands = 1 → (∀ p ∈ r.values, IsBW p) → openImage env me .xi b () = ⟨.ok r, (), []⟩) ∧
      openImage env me .ci b () = ⟨.error .typeError, (), []⟩ := by
  obtain ⟨hsh, hfl⟩ := shape_chunks (w := 96) (h := 63) (by omega) (l := r.values) hv
  obtain ⟨v, w0, hnew, -⟩ := new_blank env (c := .monoPicture) (by decide) { name := name, archived := some true } rfl
  have hbl : (blank .monoPicture).length = 758 := by
    show (toLE 2 756 ++ List.replicate 756 0).length = 758
    rw [List.length_append, length_toLE, List.length_replicate]
  obtain ⟨e, w1, hrun, h1, h2, h3, h4, h5, h6, h7, h8, h9, h10, -⟩ := C56_mono env
    ⟨.monoPicture, [0x0D, 0x00], [UInt8.ofNat (Cls.monoPicture.typeId.getD 0xFF)], name, [v],
      [if some true = some true then 0x80 else 0x00], ⟨true, blank .monoPicture⟩⟩ (chunks 96 r.values)
      rfl rfl (by rw [hbl]; omega) hsh
  obtain ⟨fb, hd, hsave, hacc, hfile⟩ := picture_file env me (p := .xi) hn hnew (if_pos hv) hrun
    (.inl ⟨h1, rfl, rfl⟩) h2 h3 h4 h5 h6 h7 h8 h9
  have harr : pluginArray .xi e = .ok (r.values.map fun p => if p = 0 then 0 else 255) := by
    unfold pluginArray
    simp only [h10]
    rw [← List.map_flatten, hfl]
  have hc : e.cls = .monoPicture := h1
  have hopen := openImage_of env me (p := .xi) hfile rfl hc harr
  refine ⟨fb, _, hsave, hacc, hopen, ?_, openImage_other env me hfile rfl (by rw [hc]; decide)⟩
  intro hw hh hb hbw
  rw [hopen]
  have : (r.values.map fun p => if p = 0 then 0 else 255) = r.values := by
    rw [List.map_congr_left (g := id) (fun p hp => ?_), List.map_id]
    rcases hbw p hp with rfl | rfl <;> simp
  rw [this]
  rcases r with ⟨w, h, b, vals⟩
  simp only at hw hh hb
  subst hw hh hb
  rfl

/-- C116, pictures in colour: every image of 266 by 165 pixels is saved, and the file opens as one with the nearest colours
of the calculator; if all its colours were such, as the same, and without a warning on saving about them. The plugin for
black and white pictures refuses it. -/
theorem C116_picture_partial (env : Env V) (me : Var.ModelEnv) (name : Bytes) (hn : name.length = 8) (r : Raster)
    (hv : r.values.length = 131670) :
    ∃ b ws px, saveImage env .ci name r () = ⟨.ok b, (), ws⟩ ∧ pluginAccept b = true ∧
      List.Forall₂ IsNearest (triples r.values) px ∧
      openImage env me .ci b () = ⟨.ok ⟨266, 165, 3, components px⟩, (), []⟩ ∧
      (r.width = 266 → r.height = 165 → r.bands = 3 → (∀ p ∈ triples r.values, p ∈ colours) →
        openImage env me .ci b () = ⟨.ok r, (), []⟩) ∧
      openImage env me .xi b () = ⟨.error .typeError, (), []⟩ := by
  obtain ⟨ht, hcomp⟩ := triples_components 43890 r.values hv
  obtain ⟨hsh, hfl⟩ := shape_chunks (w := 266) (h := 165) (by omega) (l := triples r.values) ht
  obtain ⟨v, w0, hnew, -⟩ := new_blank env (c := .picture) (by decide) { name := name, archived := some true } rfl
  have hbl : (blank .picture).length = 21947 := by
    show (toLE 2 21945 ++ List.replicate 21945 0).length = 21947
    rw [List.length_append, length_toLE, List.length_replicate]
  obtain ⟨e, w1, out, hrun, h1, h2, h3, h4, h5, h6, h7, h8, h9, h10, h11, -, h12⟩ := C56_picture env
    ⟨.picture, [0x0D, 0x00], [UInt8.ofNat (Cls.picture.typeId.getD 0xFF)], name, [v],
      [if some true = some true then 0x80 else 0x00], ⟨true, blank .picture⟩⟩ (chunks 266 (triples r.values))
      rfl rfl (by rw [hbl]; omega) hsh
  obtain ⟨fb, hd, hsave, hacc, hfile⟩ := picture_file env me (p := .ci) hn hnew (if_pos hv) hrun
    (.inr ⟨h1, rfl, rfl⟩) h2 h3 h4 h5 h6 h7 h8 h9
  have harr : pluginArray .ci e = .ok (components out.flatten) := by
    unfold pluginArray
    simp only [h10]
  have hc : e.cls = .picture := h1
  have hopen := openImage_of env me (p := .ci) hfile rfl hc harr
  refine ⟨fb, _, out.flatten, hsave, hacc, by rw [← hfl]; exact forall₂_flatten h11, hopen, ?_,
    openImage_other env me hfile rfl (by rw [hc]; decide)⟩
  intro hw hh hb hcol
  have : out = chunks 266 (triples r.values) := h12 (by
    intro row hrow p hp
    exact hcol p (by rw [← hfl]; exact List.mem_flatten.2 ⟨row, hrow, hp⟩))
  rw [hopen, this, hfl, hcomp]
  rcases r with ⟨w, h, b, vals⟩
  simp only at hw hh hb
  subst hw hh hb
  rfl

/-- C116 is false for images: every image of 133 by 83 pixels is saved, and the file cannot be opened. -/
theorem C116_image_false (env : Env V) (me : Var.ModelEnv) (name : Bytes) (hn : name.length = 8) (r : Raster)
    (hv : r.values.length = 33117) (hx : ∀ x ∈ r.values, 0 ≤ x ∧ x ≤ 255) :
    ∃ b ws, saveImage env .ca name r () = ⟨.ok b, (), ws⟩ ∧ pluginAccept b = true ∧
      openImage env me .ca b () = ⟨.error .bytesWarningError, (), []⟩ := by
  obtain ⟨ht, hcomp⟩ := triples_components 11039 r.values hv
  obtain ⟨hsh, hfl⟩ := shape_chunks (w := 133) (h := 83) (by omega) (l := triples r.values) ht
  obtain ⟨v, w0, hnew, -⟩ := new_blank env (c := .image) (by decide) { name := name, archived := some true } rfl
  have hbl : (blank .image).length = 22247 := by
    show (toLE 2 22245 ++ 0x81 :: List.replicate 22244 0).length = 22247
    rw [List.length_append, length_toLE, List.length_cons, List.length_replicate]
  obtain ⟨d, out, hrun, hlen, -⟩ := image_store env
    ⟨.image, [0x0D, 0x00], [UInt8.ofNat (Cls.image.typeId.getD 0xFF)], name, [v],
      [if some true = some true then 0x80 else 0x00], ⟨true, blank .image⟩⟩ (chunks 133 (triples r.values)) rfl rfl
    (by rw [hbl]; omega) hsh (fun row hrow p hp => triples_byte 11039 r.values hv hx p (by
      rw [← hfl]; exact List.mem_flatten.2 ⟨row, hrow, hp⟩))
  simp only at hrun
  have hmid : (((blank .image).drop 2).take 1).length = 1 := by
    rw [List.length_take, List.length_drop, hbl]; omega
  have hl : (toLE 2 22244 ++ ((blank .image).drop 2).take 1 ++ d).length = 22247 := by
    rw [List.length_append, List.length_append, length_toLE, hmid, hlen]
  have h22 : fromLE ((toLE 2 22244 ++ ((blank .image).drop 2).take 1 ++ d).take 2) = 22244 := by
    rw [List.append_assoc, List.take_left' (length_toLE 2 _)]; decide
  have hne : toLE 2 22244 ++ ((blank .image).drop 2).take 1 ++ d ≠ [] := by
    intro h; rw [h] at hl; simp at hl
  generalize toLE 2 22244 ++ ((blank .image).drop 2).take 1 ++ d = body at hl h22 hne hrun
  have hw' : WF ⟨.image, [0x0D, 0x00], [UInt8.ofNat (Cls.image.typeId.getD 0xFF)], name, [0x00],
      [if some true = some true then 0x80 else 0x00], ⟨true, body⟩⟩ := {
    metaLen := .inr rfl, typeId := rfl, name := hn, version := rfl, archived := rfl, flag := .inr rfl
    flashless := fun h => by simp at h, length := by simp only; rw [hl]; omega }
  have hb := bytes_ok hw'.length
  have hload := image_reload env hw' rfl rfl rfl hl h22 hb
  obtain ⟨fb, hd, hsave, hacc, hfile⟩ := saveImage_of env me (p := .ca) hnew (if_pos hv) hrun hw'.toSections hne hb (by
    rw [(bytes_layout hw'.toSections hb).2.1]
    unfold len metaLength calcLength
    have h13 : fromLE [0x0D, 0x00] = 13 := by decide
    simp only [h13, hl]
    omega) hload
  exact ⟨fb, _, hsave, hacc, openImage_warned env me hfile⟩

/-- C116, other images: one of another number of components is refused. -/
theorem C116_refused (env : Env V) (p : Plugin) (name : Bytes) (r : Raster)
    (h : r.values.length ≠ p.width * p.height * p.bands) : (saveImage env p name r ()).res = .error .valueError := by
  obtain ⟨v, w0, hnew, -⟩ := new_blank env (c := p.cls) (by cases p <;> decide)
    { name := name, archived := some true } (by cases p <;> rfl)
  unfold saveImage
  rw [PyM.bind_ok hnew]
  have : reshape p r.values = .error .valueError := if_neg (by rw [Nat.mul_comm p.height]; exact h)
  rw [this]
  rfl

/-- C116 is false of the size: an image of 63 by 96 pixels is saved and opens as one of 96 by 63. -/
theorem C116_size_false (env : Env V) (me : Var.ModelEnv) (name : Bytes) (hn : name.length = 8) :
    ∃ r : Raster, r.width = 63 ∧ r.height = 96 ∧ r.bands = 1 ∧ r.values.length = 63 * 96 ∧ (∀ x ∈ r.values, IsBW x) ∧
      ∃ b ws, saveImage env .xi name r () = ⟨.ok b, (), ws⟩ ∧
        openImage env me .xi b () = ⟨.ok ⟨96, 63, 1, r.values⟩, (), []⟩ := by
  have hlen : (List.replicate 3024 (255 : Int) ++ List.replicate 3024 0).length = 6048 := by
    rw [List.length_append, List.length_replicate, List.length_replicate]
  have hbw : ∀ x ∈ List.replicate 3024 (255 : Int) ++ List.replicate 3024 0, IsBW x := by
    intro x hx
    rcases List.mem_append.1 hx with h | h
    · exact .inr (List.eq_of_mem_replicate h)
    · exact .inl (List.eq_of_mem_replicate h)
  obtain ⟨b, ws, hs, -, ho, -⟩ := C116_mono_partial env me name hn
    ⟨63, 96, 1, List.replicate 3024 (255 : Int) ++ List.replicate 3024 0⟩ hlen
  refine ⟨_, rfl, rfl, rfl, hlen, hbw, b, ws, hs, ?_⟩
  rw [ho, List.map_congr_left (g := id) (fun p hp => ?_), List.map_id]
  rcases hbw p hp with rfl | rfl <;> simp

/-- A picture with its first line lit is saved and opens as itself. -/
example (env : Env V) (me : Var.ModelEnv) (name : Bytes) (hn : name.length = 8) :
    ∃ b ws, saveImage env .xi name ⟨96, 63, 1, List.replicate 96 255 ++ List.replicate 5952 0⟩ () = ⟨.ok b, (), ws⟩ ∧
      openImage env me .xi b () = ⟨.ok ⟨96, 63, 1, List.replicate 96 255 ++ List.replicate 5952 0⟩, (), []⟩ := by
  obtain ⟨b, ws, hs, -, -, ho, -⟩ := C116_mono_partial env me name hn
    ⟨96, 63, 1, List.replicate 96 255 ++ List.replicate 5952 0⟩
    (by rw [List.length_append, List.length_replicate, List.length_replicate])
  refine ⟨b, ws, hs, ho rfl rfl rfl ?_⟩
  intro x hx
  rcases List.mem_append.1 hx with h | h
  · exact .inr (List.eq_of_mem_replicate h)
  · exact .inl (List.eq_of_mem_replicate h)

/-- An image of two pixels is refused by each plugin. -/
example (env : Env V) (p : Plugin) (name : Bytes) :
    (saveImage env p name ⟨2, 1, 1, [0, 255]⟩ ()).res = .error .valueError :=
  C116_refused env p name _ (by cases p <;> decide)

end Verif
