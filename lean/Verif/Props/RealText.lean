import Verif.Proofs.RealText
import Verif.Props.Fraction

/-! C84 to C86: the text of real numbers and of multiples of π. -/

namespace Verif

open Spec

/-! ### C84 -/

/-- C84. The text of a number is a literal without exponent, without redundant leading zeros and
without trailing zeros after the point, which is the value of the number rounded to 14 decimals. -/
theorem C84_text (b : Buf) (c e : Int) (hr : realDecimal b = .ok (c, e)) :
    ∃ l : Literal, realStr b = .ok l.render ∧ l.Valid ∧ l.NoLeadingZeros ∧ l.int ≠ [] ∧ l.exp = none ∧
      (∀ f, l.frac = some f → f ≠ [] ∧ f.getLast? ≠ some '0') ∧ RoundsAt 14 ((c : ℚ) * 10 ^ e) l.value := by
  by_cases h0 : c = 0
  · refine ⟨zeroLit, by unfold realStr; rw [hr]; simp only [if_pos h0]; rfl, zeroLit_valid, ?_, by decide, rfl, ?_, ?_⟩
    · left; decide
    · intro f h; cases h
    · refine ⟨0, ?_, ?_⟩ <;> rw [Literal.value, zeroLit_magnitude] <;> simp [h0]
  · have hval : PyDec.value ⟨decide (c < 0), c.natAbs, e⟩ = (c : ℚ) * 10 ^ e := signedDec_value c e
    refine ⟨plainLit ⟨decide (c < 0), c.natAbs, e⟩, ?_, plainLit_valid _, plainLit_noLeading _,
      (fix_spec 14 _).2.2.2.1, rfl, ?_, hval ▸ plainLit_rounds _⟩
    · unfold realStr; rw [hr]; simp only [if_neg h0]; rw [plainLit_render]
    · intro f hf
      simp only [plainLit] at hf
      split at hf
      · cases hf
      · next h => cases hf; exact ⟨h, rstrip_last _ _⟩

/-- `-12.5`, and `1e-14 + 5e-15` whose last digit becomes even. -/
example : realStr ⟨true, [0x80, 0x81, 0x12, 0x50, 0, 0, 0, 0, 0]⟩ = .ok "-12.5".toList ∧
    realStr ⟨true, [0, 0x72, 0x15, 0, 0, 0, 0, 0, 0]⟩ = .ok "0.00000000000002".toList ∧
    realStr ⟨true, [0, 0x90, 0x12, 0, 0, 0, 0, 0, 0]⟩ = .ok "12000000000000000".toList := by
  decide +kernel

/-! ### C85 -/

/-- C85 is false: `10^-15` prints as `0`. -/
theorem C85_reload_false :
    ¬ ∀ (b : Bytes) (s : Str), b.length = 9 → AllDigits (b.drop 2) → realStr ⟨true, b⟩ = .ok s →
      realLoadString s ⟨true, b⟩ = ⟨.ok (), ⟨true, b⟩, []⟩ := by
  intro h
  have := h [0, 0x71, 0x10, 0, 0, 0, 0, 0, 0] ['0'] rfl (by unfold AllDigits; decide +kernel) (by decide +kernel)
  revert this
  decide +kernel

/-- C85, the part that holds: the text of a number with at most 14 decimals loads into the number itself as
the same bytes, and into any number as the same value. Missing: smaller last digits, where the code rounds. -/
theorem C85_reload_partial (b : Bytes) (hb : b.length = 9) (hd : AllDigits (b.drop 2)) (c e : Int)
    (hr : realDecimal ⟨true, b⟩ = .ok (c, e)) (hn : 10 ^ 13 ≤ c.natAbs) (n : Int)
    (hm : (c : ℚ) * 10 ^ e * 10 ^ 14 = n) :
    ∃ s, realStr ⟨true, b⟩ = .ok s ∧ realLoadString s ⟨true, b⟩ = ⟨.ok (), ⟨true, b⟩, []⟩ ∧
      ∀ (b0 : UInt8) (rest : Bytes), rest.length = 8 → ∃ b',
        realLoadString s ⟨true, b0 :: rest⟩ = ⟨.ok (), ⟨true, b'⟩, []⟩ ∧ realDecimal ⟨true, b'⟩ = .ok (c, e) := by
  obtain ⟨l, h1, h2, h3, -, -, -, h7⟩ := C84_text _ c e hr
  have hval := roundsAt_exact h7 hm
  obtain ⟨b1, b2, b3⟩ := realDecimal_bounds hb hd hr
  refine ⟨_, h1, C17_reload b hb hd c e hr hn l h2 h3 hval _ (squash_render _ h2), fun b0 rest hl => ?_⟩
  obtain ⟨b', g1, -, g3, -⟩ := realLoad_exact h2 h3 (squash_render _ h2) hval hn b1 b2 b3 b0 rest hl
  exact ⟨b', g1, g3⟩

/-- C85, zero: a number that reads as zero prints as `0`, which loads as zero. -/
theorem C85_reload_zero (b : Buf) (e : Int) (hr : realDecimal b = .ok (0, e)) (b0 : UInt8) (rest : Bytes)
    (hl : rest.length = 8) : realStr b = .ok ['0'] ∧ ∃ b',
      realLoadString ['0'] ⟨true, b0 :: rest⟩ = ⟨.ok (), ⟨true, b'⟩, []⟩ ∧ realDecimal ⟨true, b'⟩ = .ok (0, -13) := by
  have hs : squash ['0'] = zeroLit.render := by decide
  refine ⟨by unfold realStr; rw [hr]; rfl, _, realLoad_zero zeroLit_valid hs zeroLit_magnitude b0 rest hl, ?_⟩
  rw [realDecimal_realBytes _ _ _ _ (by omega) (by norm_num)]
  rfl

/-- `-0.0012345678901` has 13 decimals. -/
example : realDecimal ⟨true, [0x80, 0x7D, 0x12, 0x34, 0x56, 0x78, 0x90, 0x10, 0]⟩ = .ok (-12345678901000, -16) ∧
    ((-12345678901000 : Int) : ℚ) * 10 ^ (-16 : Int) * 10 ^ 14 = ((-123456789010 : Int) : ℚ) := by
  refine ⟨by decide +kernel, ?_⟩
  rw [show (-16 : Int) = -((16 : Nat) : Int) from rfl, zpow_neg, zpow_natCast]; norm_num

/-! ### C86 -/

/-- C86 is false: the entry for `0π` prints as `0`, which cannot be loaded. -/
theorem C86_pi_text_false :
    ¬ ∀ (b : Bytes) (s : Str), b.length = 9 → AllDigits (b.drop 2) → piStr ⟨true, b⟩ = .ok s →
      (piLoadString s ⟨true, b⟩).res = .ok () := by
  intro h
  have := h [0x20, 0x80, 0, 0, 0, 0, 0, 0, 0] ['0'] rfl (by unfold AllDigits; decide +kernel) (by decide +kernel)
  revert this
  decide +kernel

/-- C86, the part that holds: the text of a nonzero multiple of π whose factor has at most 14 decimals loads
into the entry as the same bytes. Missing: zero, and factors with smaller digits. -/
theorem C86_pi_text_partial (b : Bytes) (hb : b.length = 9) (hd : AllDigits (b.drop 2)) (c e : Int)
    (hr : realDecimal ⟨true, b⟩ = .ok (c, e)) (hn : 10 ^ 13 ≤ c.natAbs) (n : Int)
    (hm : (c : ℚ) * 10 ^ e * 10 ^ 14 = n) :
    ∃ s, piStr ⟨true, b⟩ = .ok s ∧ piLoadString s ⟨true, b⟩ = ⟨.ok (), ⟨true, b⟩, []⟩ ∧ ∃ l : Literal,
      l.Valid ∧ s = l.render ++ ['π'] ∧ l.value = (c : ℚ) * 10 ^ e := by
  have hc0 : c ≠ 0 := by rintro rfl; simp at hn
  have hval : PyDec.value ⟨decide (c < 0), c.natAbs, e⟩ = (c : ℚ) * 10 ^ e := signedDec_value c e
  set l := plainLit ⟨decide (c < 0), c.natAbs, e⟩ with hl
  have hlv : l.value = (c : ℚ) * 10 ^ e := roundsAt_exact (hval ▸ plainLit_rounds _) hm
  refine ⟨l.render ++ ['π'], ?_, ?_, l, plainLit_valid _, rfl, hlv⟩
  · unfold piStr
    rw [hr]
    simp only
    rw [if_neg, hl, plainLit_render]
    intro h
    have h1 := (decMul_spec (show 0 < 14 by omega) ⟨decide (c < 0), c.natAbs, e⟩ pyPi).1
    have h2 := (roundsHalfEven_bounds h1).2.2.mpr (by unfold PyDec.mag; rw [h]; simp)
    unfold PyDec.mag at h2
    rw [mul_eq_zero, mul_eq_zero, mul_eq_zero] at h2
    have hp1 := (ten_zpow_pos e).ne'
    have hp2 := (ten_zpow_pos pyPi.exp).ne'
    rcases h2 with (h2 | h2) | (h2 | h2)
    · have : c.natAbs = 0 := by exact_mod_cast h2
      omega
    · exact hp1 h2
    · revert h2; simp [pyPi]
    · exact hp2 h2
  · have hv := plainLit_valid ⟨decide (c < 0), c.natAbs, e⟩
    rw [(C83_pi_partial l.render ⟨true, b⟩).1 l hv rfl ['π'] (Or.inl rfl)]
    exact C17_reload b hb hd c e hr hn l hv (plainLit_noLeading _) hlv _ (squash_render _ hv)

example : piStr ⟨true, [0xA0, 0x80, 0x15, 0, 0, 0, 0, 0, 0]⟩ = .ok "-1.5π".toList := by decide +kernel

end Verif
