import Verif.Proofs.SettingsNumber
import Verif.Props.Settings

/-! Properties of the checks on numbers stored in settings and graph databases, with the numbers as they are stored: C58. -/

namespace Verif
open Spec
open Ent

open Classical in
/-- C58, the warnings in terms of the number itself: storing a number warns exactly if the field is for whole numbers and the
number is not one, or if it is the resolution and not one of 1 to 8. -/
theorem C58_number (e v : Ent) (i : Nat) (name : String) (hc : e.cls ∈ settingsClasses ++ gdbClasses)
    (hi : (fieldNames e.cls)[i]? = some name) (hm : e.body.mutable = true) (hd : fieldStart e.cls i + 9 ≤ e.body.bytes.length)
    (hk : v.cls ∈ decimalKinds) (hv : v.body.bytes.length = 9) (hdig : AllDigits (v.body.bytes.drop 2)) :
    ∃ d ws, setField wholeOf name.toList v e = ⟨.ok (), { e with body := ⟨true, d⟩ }, ws⟩ ∧
      (∀ j, fieldBytes e.cls j d = if j = i then v.body.bytes else fieldBytes e.cls j e.body.bytes) ∧
      ws = if (name ∈ integerNames ∧ ∀ k : Int, storedNumber v.body.bytes ≠ k) ∨
        (name = "Xres" ∧ ∀ k : Int, 1 ≤ k → k ≤ 8 → storedNumber v.body.bytes ≠ k) then [Warn.notInteger] else [] := by
  obtain ⟨n, w, hnum, hw1, hw2⟩ := wholeOf_check hk hv hdig
  obtain ⟨d, h1, -, h3, -⟩ := C58_write wholeOf e v i name _ _ hc hi hm hd hv hnum
  refine ⟨d, _, h1, h3, ?_⟩
  have hcw : classWarnings v.cls = [] := by
    unfold classWarnings; rw [if_pos (show _ ∈ [Cls.real, .undefReal, .realFraction] from hk)]
  rw [hcw, List.append_nil]
  unfold valueWarnings
  by_cases h1 : name ∈ integerNames
  · have hX : name ≠ "Xres" := by rintro rfl; exact absurd h1 (by decide)
    rw [if_pos h1]
    by_cases hb : w = true
    · obtain ⟨k, hk⟩ := hw1.1 hb
      rw [if_pos hb, if_neg]
      rintro (⟨-, h⟩ | ⟨h, -⟩)
      · exact h k hk
      · exact hX h
    · rw [if_neg hb, if_pos (Or.inl ⟨h1, fun k hk => hb (hw1.2 ⟨k, hk⟩)⟩)]
  · rw [if_neg h1]
    by_cases h2 : name = "Xres"
    · rw [if_pos h2]
      by_cases hb : w = true ∧ 1 ≤ n ∧ n ≤ 8
      · obtain ⟨k, k1, k8, hk⟩ := hw2.1 hb
        rw [if_pos hb, if_neg]
        rintro (⟨h, -⟩ | ⟨-, h⟩)
        · exact h1 h
        · exact h k k1 k8 hk
      · rw [if_neg hb, if_pos]
        exact Or.inr ⟨h2, fun k k1 k8 hk => hb (hw2.2 ⟨k, k1, k8, hk⟩)⟩
    · rw [if_neg h2, if_neg]
      rintro (⟨h, -⟩ | ⟨h, -⟩)
      · exact h1 h
      · exact h2 h

/-- The numbers 2.5, 9, 8 and 3.2 · 10^20 as the resolution of a window. -/
example :
    let e : Ent := ⟨.window, [0x0D, 0x00], [0x0F], List.replicate 8 0x41, [0], [0], ⟨true, toLE 2 208 ++ List.replicate 208 0⟩⟩
    let x : UInt8 → UInt8 → Ent := fun k b => ⟨.real, [0x0D, 0x00], [0], List.replicate 8 0x41, [0], [0],
      ⟨true, [0x00, k, b, 0, 0, 0, 0, 0, 0]⟩⟩
    (setField wholeOf "Xres".toList (x 0x80 0x25) e).warns = [.notInteger] ∧
    (setField wholeOf "Xres".toList (x 0x80 0x90) e).warns = [.notInteger] ∧
    (setField wholeOf "Xres".toList (x 0x80 0x80) e).warns = [] ∧
    (setField wholeOf "Xres".toList (x 0x94 0x32) e).warns = [.notInteger] := by decide +kernel

end Verif
