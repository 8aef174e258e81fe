import Verif.Proofs.FlashFile
import Verif.Proofs.Header
import Verif.Props.Data

/-! Lemmas about the views of flash headers. -/

namespace Verif
open Spec Flash

/-- Nothing can be assigned to a view of a `bytes` object. -/
theorem put_immutable {α : Type} (v : View α) (value : α) (d : Bytes) :
    ∃ x ws, v.put value ⟨false, d⟩ = ⟨.error x, ⟨false, d⟩, ws⟩ ∧
      (∀ y, (setRaw v.conv v.length (getSlice d v.slice) value ()).res = .ok y → x = .typeError) := by
  rcases h : setRaw v.conv v.length (getSlice d v.slice) value () with ⟨r, u, w⟩
  unfold View.put
  simp only [PyM.bind_run, PyM.get_run, PyM.lift_run, h]
  cases r with
  | error e => exact ⟨e, w, by simp, fun y hy => by cases hy⟩
  | ok y => exact ⟨.typeError, w, by simp [PyM.raise], fun _ _ => rfl⟩

theorem getSlice_whole (d : Bytes) : getSlice d {} = d := by
  simp [getSlice, Slice.bounds, Slice.indices]

theorem devicesGet_pairs (ps : List (UInt8 × UInt8)) (r : Bytes) (hr : r.length ≤ 1) :
    devicesGet (ps.flatMap (fun p => [p.1, p.2]) ++ r) = ps.map fun p => ((p.1.toNat : Int), (p.2.toNat : Int)) := by
  induction ps with
  | nil =>
    rcases r with _ | ⟨a, _ | ⟨b, r⟩⟩
    · rfl
    · rfl
    · simp at hr
  | cons p ps ih =>
    simp only [List.flatMap_cons, List.cons_append, List.nil_append, devicesGet, List.map_cons, ih]

theorem byteOf_byte (b : UInt8) : byteOf (b.toNat : Int) = .ok [b] := by
  unfold byteOf
  rw [if_neg (by have := b.toNat_lt; omega)]
  simp

theorem devicesSet_pairs (ps : List (UInt8 × UInt8)) :
    devicesSet (ps.map fun p => ((p.1.toNat : Int), (p.2.toNat : Int))) = .ok (ps.flatMap fun p => [p.1, p.2]) := by
  induction ps with
  | nil => rfl
  | cons p ps ih => simp only [List.map_cons, devicesSet, byteOf_byte, ih, List.flatMap_cons]; rfl

theorem byteOf_range {a : Int} (h : a < 0 ∨ 256 ≤ a) : byteOf a = .error .valueError := by
  unfold byteOf
  rw [if_pos h]

theorem devicesSet_range {ps : List (Int × Int)} (h : ∃ p ∈ ps, (p.1 < 0 ∨ 256 ≤ p.1) ∨ (p.2 < 0 ∨ 256 ≤ p.2)) :
    devicesSet ps = .error .valueError := by
  induction ps with
  | nil => obtain ⟨p, hp, -⟩ := h; cases hp
  | cons p ps ih =>
    obtain ⟨q, hq, hr⟩ := h
    rcases p with ⟨a, b⟩
    have hb : ∀ x, byteOf x = .error .valueError ∨ ∃ y, byteOf x = .ok y := by
      intro x
      unfold byteOf
      split
      · exact .inl rfl
      · exact .inr ⟨_, rfl⟩
    unfold devicesSet
    rcases List.mem_cons.1 hq with rfl | hq
    · rcases hr with hr | hr
      · rw [byteOf_range hr]
      · rw [byteOf_range hr]
        rcases hb a with h | ⟨y, h⟩ <;> rw [h]
    · rw [ih ⟨q, hq, hr⟩]
      rcases hb a with h | ⟨y, h⟩ <;> rw [h]
      all_goals rcases hb b with h' | ⟨y, h'⟩ <;> rw [h']

/-- The bytes of a header whose name has been padded. -/
theorem wide_bytes {h : Flash} {t u : UInt8} (hfl : h.binaryFlag.length = 1) (hty : h.objectType.length = 1) (hnm : h.name.length = 31)
    (hdv : h.devices = [t, u]) {b : Bytes} (hb : h.bytes = .ok b) :
    ∃ fl ty tl, b = h.magic ++ (h.revision ++ ([fl] ++ ([ty] ++ (h.date ++
      ([UInt8.ofNat (rstripNul h.name).length] ++ (h.name ++ ([0x00] ++ ([0x00] ++ ((List.replicate 21 0x00 ++ [t, u]) ++ ([0x00] ++
      ([0x00, 0x00, 0x00, 0x00] ++ ([] ++ tl)))))))))))) := by
  have hnl := rstripNul_le h.name
  rw [hnm] at hnl
  obtain ⟨d, hd⟩ : ∃ d, h.calcData = some d := by
    rcases h' : h.calcData with _ | d
    · unfold Flash.bytes rawBytes at hb
      rw [nameLength_ok (by omega), h'] at hb
      cases hb
    · exact ⟨d, rfl⟩
  obtain ⟨fl, hfl⟩ : ∃ x, h.binaryFlag = [x] := List.length_eq_one_iff.1 hfl
  obtain ⟨ty, hty⟩ : ∃ x, h.objectType = [x] := List.length_eq_one_iff.1 hty
  obtain ⟨sz, hsz⟩ : ∃ sz, intToBytesLE (d.length : Int) 4 = .ok sz := by
    rcases h' : intToBytesLE (d.length : Int) 4 with e | sz
    · unfold Flash.bytes rawBytes at hb
      rw [nameLength_ok (by omega), hd] at hb
      simp only [h'] at hb
      cases hb
    · exact ⟨sz, rfl⟩
  unfold Flash.bytes rawBytes at hb
  rw [nameLength_ok (by omega), hd] at hb
  simp only [hsz, hfl, hty, hdv] at hb
  by_cases hs : h.hasChecksum = true
  · simp only [hs, if_true, Except.ok.injEq] at hb
    refine ⟨fl, ty, List.replicate 18 0x00 ++ (h.productId ++ sz ++ d ++ checksumOf d), ?_⟩
    rw [← hb]
    simp [List.replicate]
  · simp only [hs] at hb
    refine ⟨fl, ty, List.replicate 18 0x00 ++ (h.productId ++ sz ++ d), ?_⟩
    have hl : (checksumOf d).length = 2 := length_toLE _ _
    simp only [Bool.false_eq_true, if_false, Except.ok.injEq] at hb
    rw [List.length_append, hl, Nat.add_sub_cancel, List.take_left' rfl] at hb
    rw [← hb]
    simp [List.replicate]

end Verif
