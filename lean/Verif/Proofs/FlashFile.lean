import Verif.Spec.FlashFile
import Verif.Proofs.Flash
import Verif.Proofs.Files

/-! Lemmas about the files of flash headers. -/

namespace Verif
open Spec Flash

theorem listed_iff (c : FlashCls) (m : Model) (ext : Str) : (m, ext) ∈ c.extensions.2 ↔ flashExtension c m = some ext := by
  cases c <;> cases m <;> simp [FlashCls.extensions, flashExtension, eq_comm]

theorem flash_find (ord : Model → Nat) (c : FlashCls) (m : Model) :
    (Model.all.reverse.find? fun x => (c.extensions.2.any fun p => p.1 == m) && Model.le ord x m).isSome =
      (c.extensions.2.any fun p => p.1 == m) := by
  cases h : c.extensions.2.any fun p => p.1 == m with
  | false =>
    rw [List.find?_eq_none.2 (by simp)]
    rfl
  | true =>
    rw [List.find?_isSome]
    exact ⟨m, List.mem_reverse.2 (Model.mem_all m), by simp [Model.le]⟩

/-- Saving: the bytes are written to the file that was named, or else to the one with the name and the extension; no other file changes. -/
theorem Flash.save_ok (ord : Model → Nat) {h : Flash} {b : Bytes} (hb : h.bytes = .ok b) (filename : Str) (m : Model)
    {ext : Str} {ws : List Warn} (he : extension ord h.cls m = .ok (ext, ws)) (fs : Files) :
    h.save ord filename m fs = ⟨.ok (), fs.write (if filename = [] then h.nameText ++ '.' :: ext else filename) b,
      if filename = [] then ws else []⟩ := by
  unfold save
  cases filename with
  | nil =>
    simp only [List.isEmpty_nil, if_true, fileName, he, Except.map, PyM.bind_run, PyM.ofExcept_run, PyM.warnAll_run, PyM.modify_run, hb,
      write_write]
    simp
  | cons a l =>
    simp only [List.isEmpty_cons, Bool.false_eq_true, if_false, PyM.bind_run, PyM.ofExcept_run, PyM.warnAll_run, PyM.modify_run, hb,
      write_write]
    simp

theorem trimmed_text {d : Bytes} (h : Trimmed d) : rstripNulStr (latin1Decode d) = asText d := by
  unfold rstripNulStr latin1Decode asText
  rcases hd : d.reverse with _ | ⟨b, bs⟩
  · have : d = [] := by simpa using hd
    simp [this]
  · have hb : b ≠ 0x00 := h b (by rw [← List.head?_reverse, hd]; rfl)
    have hne : (Char.ofNat b.toNat == '\x00') = false := by
      rw [beq_eq_false_iff_ne]
      intro hc
      apply hb
      have h1 := congrArg Char.toNat hc
      rw [char_toNat _ b.toNat_lt] at h1
      exact UInt8.toNat_inj.1 h1
    rw [← List.map_reverse, hd, List.map_cons, List.dropWhile_cons_of_neg (by simp [hne])]
    have : (d.reverse.map fun b : UInt8 => Char.ofNat b.toNat).reverse = d.map fun b => Char.ofNat b.toNat := by
      rw [← List.map_reverse, List.reverse_reverse]
    rw [hd] at this
    exact this

theorem openAt_some {c : FlashCls} {path : Str} {fs : Files} {b : Bytes} {r : Except PyErr Flash} {ws : List Warn} (hp : fs path = some b)
    (hl : 78 ≤ b.length) (ho : openFile c b () = ⟨r, (), ws⟩) : openAt c path fs = ⟨r, fs, ws⟩ := by
  show (match fs path with
      | none => _
      | some b => _) = _
  rw [hp]
  simp only [ho, if_neg (Nat.not_lt.2 hl)]

end Verif
