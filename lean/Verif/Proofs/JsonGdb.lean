import Verif.Props.JsonNumber
import Verif.Spec.GdbDict

/-! The numbers of graph databases through JSON. -/

namespace Verif
open Spec Ent
variable {V : Type} [LinearOrder V]

/-- The entry read from JSON. -/
def realVal (env : Env V) (nm : Bytes) (j : JNum) : Ent :=
  match realOf env nm j () with
  | ⟨.ok e, _, _⟩ => e
  | ⟨.error _, _, _⟩ => realEntry nm []

theorem carried_field (env : Env V) (nm : Bytes) {n : String} {b : Bytes} (h : JsonField n b) :
    ∃ j, Carried (realIO env nm) (realVal env nm) (n = "Xres") (realEntry nm b) j ∧
      (n ∈ plotNames ++ ["Xres", "Tmin", "Tmax", "Tstep", "Thetamin", "Thetamax", "Thetastep"] →
        numberWarns (realIO env nm) (realVal env nm) (n.toList, j) = []) := by
  obtain ⟨ht, hn⟩ := h
  have helem : RealElem (realEntry nm b) := by
    refine ⟨(by decide : Cls.real ∈ realClasses), ht.length, ?_⟩
    have : ((b.getD 0 0).toNat % 64) = 0 := by rcases ht.head with h | h <;> rw [h] <;> rfl
    show some 0 = some ((b.getD 0 0).toNat % 64)
    rw [this]
  have hnum : ∃ r, wholeOf (realEntry nm b) = .ok r ∧
      (n = "Xres" → r.2 = true ∧ 1 ≤ r.1 ∧ r.1 ≤ 8) := by
    obtain ⟨x, hx, -⟩ := C119_float (c := .real) (by decide) true ht.length ht.digits
    refine ⟨(floatTrunc x, floatWhole x), by unfold wholeOf; rw [show realFloat (realEntry nm b).cls (realEntry nm b).body = .ok x from hx], ?_⟩
    intro hX
    rw [if_pos hX] at hn
    obtain ⟨k, hk, k1, k8⟩ := hn
    have habs : |k| < 2 ^ 53 := abs_lt.2 ⟨by omega, by omega⟩
    obtain ⟨hi, y, hy, hw⟩ := C119_int_partial (c := .real) (by decide) true ht.length ht.digits (by rw [hk]; exact_mod_cast habs)
    rw [hx] at hy
    obtain rfl := Except.ok.inj hy
    have hi' := (C120_whole ht hk habs true).1
    unfold realInt at hi'
    rw [hx] at hi'
    have : floatTrunc x = k := Except.ok.inj hi'
    exact ⟨hw.2 ⟨k, hk⟩, by show 1 ≤ floatTrunc x; omega, by show floatTrunc x ≤ 8; omega⟩
  have key : ∃ j, (∀ y, SameNumber (realEntry nm b) y →
      (if (decide (n = "Xres")) = true then (realIO env nm).int y else (realIO env nm).json y) = .ok j) ∧
      loadJson j ⟨true, clearFull .real⟩ = ⟨.ok (), ⟨true, b⟩, []⟩ := by
    by_cases hX : n = "Xres"
    · rw [if_pos hX] at hn
      obtain ⟨k, hk, k1, k8⟩ := hn
      have habs : |k| < 2 ^ 53 := abs_lt.2 ⟨by omega, by omega⟩
      refine ⟨.int k, ?_, (C120_whole ht hk habs true).2⟩
      rintro ⟨c, _, _, _, _, _, ⟨m, b'⟩⟩ ⟨hc, hb⟩
      obtain rfl : Cls.real = c := hc
      obtain rfl : b = b' := hb
      simp only [hX, decide_true, if_true, realIO]
      rw [(C120_whole ht hk habs m).1]
    · rw [if_neg hX] at hn
      obtain ⟨j, h1, h2⟩ := C120_reload_partial ht hn
      refine ⟨j, ?_, h2⟩
      rintro ⟨c, _, _, _, _, _, ⟨m, b'⟩⟩ ⟨hc, hb⟩
      obtain rfl : Cls.real = c := hc
      obtain rfl : b = b' := hb
      simp only [hX, decide_false, Bool.false_eq_true, if_false, realIO]
      exact h1 m
  obtain ⟨j, h1, h2⟩ := key
  have hrun := realOf_run env nm h2
  have hval : realVal env nm j = realEntry nm b := by unfold realVal; rw [hrun]
  obtain ⟨r, hr1, hr2⟩ := hnum
  refine ⟨j, ⟨helem, h1, ⟨by rw [hval]; exact hrun, hval ▸ helem, r, by rw [hval]; exact hr1⟩, by rw [hval]⟩, ?_⟩
  intro hmem
  unfold numberWarns
  simp only [hval, realIO, hr1, String.ofList_toList]
  have hc : classWarnings (realEntry nm b).cls = [] := rfl
  rw [hc, List.append_nil]
  unfold valueWarnings
  by_cases hX : n = "Xres"
  · obtain ⟨r1, r2, r3⟩ := hr2 hX
    simp [hX, r1, r2, r3, integerNames]
  · rw [if_neg hX, if_neg]
    have : ∀ n ∈ plotNames ++ ["Xres", "Tmin", "Tmax", "Tstep", "Thetamin", "Thetamax", "Thetastep"], n ∉ integerNames := by decide
    exact this n hmem

end Verif
