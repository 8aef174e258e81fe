import Verif.Proofs.Radical

/-! Property theorems about the packed fields of exact radicals (C13). -/

namespace Verif

/-- C13, one write: the field reads the value, the other five fields and the subtype byte stay. -/
theorem C13_radical_write (f : RadField) (v : Int) (h0 : 0 ≤ v)
    (hsign : f = .signType → v < 16) (hfield : f ≠ .signType → v < 1000)
    (d : Bytes) (hd : d.length = 9) :
    ∃ d' : Bytes, f.view.put v ⟨true, d⟩ = ⟨.ok (), ⟨true, d'⟩, []⟩ ∧ d'.length = 9 ∧
      d'[0]? = d[0]? ∧ f.view.get ⟨true, d'⟩ = .ok v ∧
      ∀ g, g ≠ f → g.view.get ⟨true, d'⟩ = g.view.get ⟨true, d⟩ := by
  obtain ⟨n, rfl⟩ := Int.eq_ofNat_of_zero_le h0
  have hb : n < f.bound := by
    cases f <;> simp_all [RadField.bound] <;> omega
  match d, hd with
  | [b0, b1, b2, b3, b4, b5, b6, b7, b8], _ =>
    obtain ⟨c1, c2, c3, c4, c5, c6, c7, c8, h1, h2, h3⟩ := f.view_put hb b0 b1 b2 b3 b4 b5 b6 b7 b8
    refine ⟨[b0, c1, c2, c3, c4, c5, c6, c7, c8], h1, rfl, rfl, ?_, ?_⟩
    · rw [RadField.view_get, h2]
    · intro g hg
      rw [RadField.view_get, RadField.view_get, h3 g hg]

/-- Several writes in a row. -/
def writeFields : List (RadField × Int) → PyM Buf Unit
  | [] => pure ()
  | (f, v) :: ws => do f.view.put v; writeFields ws

/-- The last value written to `f`, if any. -/
def lastWrite (f : RadField) : List (RadField × Int) → Option Int
  | [] => none
  | (g, v) :: ws => match lastWrite f ws with
    | some x => some x
    | none => if g = f then some v else none

/-- C13, any history of writes: every field holds the last value written to it, or its original
value. -/
theorem C13_radical_history (ws : List (RadField × Int))
    (hws : ∀ p ∈ ws, 0 ≤ p.2 ∧ (p.1 = .signType → p.2 < 16) ∧ (p.1 ≠ .signType → p.2 < 1000))
    (d : Bytes) (hd : d.length = 9) :
    ∃ d' : Bytes, writeFields ws ⟨true, d⟩ = ⟨.ok (), ⟨true, d'⟩, []⟩ ∧ d'.length = 9 ∧ d'[0]? = d[0]? ∧
      ∀ f, f.view.get ⟨true, d'⟩ =
        match lastWrite f ws with
        | some v => .ok v
        | none => f.view.get ⟨true, d⟩ := by
  induction ws generalizing d with
  | nil => exact ⟨d, rfl, hd, rfl, fun _ => rfl⟩
  | cons p ws ih =>
    obtain ⟨f, v⟩ := p
    have hp := hws (f, v) (by simp)
    obtain ⟨d1, w1, w2, w3, w4, w5⟩ := C13_radical_write f v hp.1 hp.2.1 hp.2.2 d hd
    obtain ⟨d2, x1, x2, x3, x4⟩ := ih (fun p h => hws p (by simp [h])) d1 w2
    refine ⟨d2, ?_, x2, x3.trans w3, ?_⟩
    · rw [writeFields, PyM.bind_ok w1, x1]; rfl
    · intro g
      rw [x4 g, lastWrite]
      cases lastWrite g ws with
      | some x => rfl
      | none =>
        by_cases hg : f = g
        · subst hg; simp [w4]
        · simp only [if_neg hg]; exact w5 g (Ne.symm hg)

example : writeFields [(.leftScalar, 123), (.denominator, 7), (.signType, 2), (.leftScalar, 45), (.rightScalar, 999)]
    ⟨true, [0x1C, 0, 0, 0, 0, 0, 0, 0, 0]⟩ =
    ⟨.ok (), ⟨true, [0x1C, 0x20, 0x07, 0x99, 0x90, 0x45, 0, 0, 0]⟩, []⟩ := by decide +kernel

end Verif
