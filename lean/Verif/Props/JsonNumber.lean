import Verif.Proofs.JsonNumber
import Verif.Props.Float

/-! Property theorems about numbers on their way through JSON: C120. -/

namespace Verif
open Spec Ent

/-! ### C120 – numbers through JSON -/

/-- C120, the part that holds: a number with six digits or more, or one that is a float, is written to JSON such that loading it into a new
number gives the same nine bytes without a warning. Not covered: the numbers with at most five digits that are not floats, such as 0.1,
for which it fails. -/
theorem C120_reload_partial {b : Bytes} (h : Tidy b) (hs : JsonSafe (storedNumber b)) :
    ∃ j, (∀ m, jsonNumber .real ⟨m, b⟩ = .ok j) ∧ loadJson j ⟨true, clearFull .real⟩ = ⟨.ok (), ⟨true, b⟩, []⟩ := by
  obtain ⟨j, h1, h2, h3, h4⟩ := json_tidy h
  refine ⟨j, h1, h2 ?_⟩
  rcases hs with hs | hs
  · exact .inr hs
  · cases hj : j with
    | float x => exact absurd (h3 x hj).1 hs
    | int n => exact absurd hj (h4 n)
    | str s => exact .inl ⟨s, rfl⟩

/-- C120 for every number: what comes back agrees in twelve digits, and nothing fails. -/
theorem C120_close {b : Bytes} (h : Tidy b) :
    ∃ j b', (∀ m, jsonNumber .real ⟨m, b⟩ = .ok j) ∧ loadJson j ⟨true, clearFull .real⟩ = ⟨.ok (), ⟨true, b'⟩, []⟩ ∧ b'.length = 9 ∧
      |storedNumber b - storedNumber b'| ≤ |storedNumber b| / 10 ^ 12 := by
  obtain ⟨j, h1, h2, h3, h4⟩ := json_tidy h
  cases hj : j with
  | float x =>
    obtain ⟨b', g⟩ := load_near h (h3 x hj).2
    exact ⟨.float x, b', fun m => hj ▸ h1 m, g⟩
  | int n => exact absurd hj (h4 n)
  | str s =>
    refine ⟨.str s, b, fun m => hj ▸ h1 m, hj ▸ h2 (.inl ⟨s, hj⟩), h.length, ?_⟩
    rw [sub_self, abs_zero]
    positivity

/-- C120 for whole numbers below 2^53: written as integers, they come back as they were. -/
theorem C120_whole {b : Bytes} (h : Tidy b) {n : Int} (hn : storedNumber b = n) (hs : |n| < 2 ^ 53) (m : Bool) :
    realInt .real ⟨m, b⟩ = .ok n ∧ loadJson (.int n) ⟨true, clearFull .real⟩ = ⟨.ok (), ⟨true, b⟩, []⟩ := by
  have hs' : |storedNumber b| < 2 ^ 53 := by rw [hn]; exact_mod_cast hs
  have hw : wholePart (storedNumber b) = n := by
    rw [hn]; unfold wholePart; split <;> simp
  refine ⟨hw ▸ (C119_int_partial (c := .real) (by decide) m h.length h.digits hs').1, ?_⟩
  refine load_tidy_decimal h (d := ⟨decide (n < 0), n.natAbs, 0⟩) ?_ ?_
  · rw [hn]
    unfold PyDec.value
    rcases lt_or_ge n 0 with h0 | h0
    · simp [h0, Nat.cast_natAbs, abs_of_neg h0]
    · simp [not_lt.2 h0, Nat.cast_natAbs, abs_of_nonneg h0]
  · intro h0
    refine decide_eq_false fun hneg => ?_
    have := abs_value ⟨decide (n < 0), n.natAbs, 0⟩
    rw [h0, abs_zero] at this
    have : n.natAbs = 0 := by simpa using this.symm
    omega

/-- C120 fails for numbers with few digits: 0.3 becomes 0.29999999999999. -/
theorem C120_false :
    Tidy [0x00, 0x7F, 0x30, 0, 0, 0, 0, 0, 0] ∧
    ∃ j, jsonNumber .real ⟨true, [0x00, 0x7F, 0x30, 0, 0, 0, 0, 0, 0]⟩ = .ok j ∧
      loadJson j ⟨true, clearFull .real⟩ = ⟨.ok (), ⟨true, [0x00, 0x7F, 0x29, 0x99, 0x99, 0x99, 0x99, 0x99, 0x99]⟩, []⟩ :=
  ⟨⟨rfl, by unfold AllDigits; decide +kernel, .inl rfl, .inl (by decide)⟩, .float ⟨false, 5404319552844595, -54⟩,
    by decide +kernel, by decide +kernel⟩

example : Tidy [0x80, 0x81, 0x12, 0x34, 0x56, 0x70, 0, 0, 0] ∧
    jsonNumber .real ⟨true, [0x80, 0x81, 0x12, 0x34, 0x56, 0x70, 0, 0, 0]⟩ = .ok (.str "-12.34567".toList) ∧
    loadJson (.str "-12.34567".toList) ⟨true, clearFull .real⟩ =
      ⟨.ok (), ⟨true, [0x80, 0x81, 0x12, 0x34, 0x56, 0x70, 0, 0, 0]⟩, []⟩ :=
  ⟨⟨rfl, by unfold AllDigits; decide +kernel, .inr rfl, .inl (by decide)⟩, by decide +kernel, by decide +kernel⟩

end Verif
