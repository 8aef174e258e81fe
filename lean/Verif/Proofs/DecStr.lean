import Verif.Spec.Fraction
import Verif.Proofs.RealValue

/-! `str(Decimal)` renders a decimal literal of the same value. -/

namespace Verif

open Spec

theorem isSpace_facts : (∀ n, n < 58 → 48 ≤ n → isSpaceChar (Char.ofNat n) = false) := by decide +kernel

theorem isDig_not_space {c : Char} (h : isDig c = true) : isSpaceChar c = false := by
  have hc := isDig_cases h
  have := isSpace_facts c.toNat (by omega) (by omega)
  rwa [Char.ofNat_toNat] at this

theorem squash_append (a b : Str) : squash (a ++ b) = squash a ++ squash b := by simp [squash]

theorem squash_digits {s : Str} (h : s.all isDig = true) : squash s = s := by
  unfold squash
  rw [List.filter_eq_self]
  intro c hc
  rw [isDig_not_space (List.all_eq_true.mp h c hc)]; rfl

/-- A rendered literal contains no whitespace. -/
theorem squash_render (l : Literal) (hv : l.Valid) : squash l.render = l.render := by
  have h1 : squash l.sign.str = l.sign.str := by cases l.sign <;> decide
  have h2 : squash l.int = l.int := squash_digits ((digits_iff _).mpr hv.1)
  have h3 : squash l.fracStr = l.fracStr := by
    unfold Literal.fracStr
    cases hl : l.frac with
    | none => rfl
    | some f =>
      have := squash_digits ((digits_iff _).mpr (hv.2.1 f hl))
      simp only
      rw [show ('.' :: f) = ['.'] ++ f from rfl, squash_append, this]; rfl
  have h4 : squash l.expStr = l.expStr := by
    unfold Literal.expStr
    cases hl : l.exp with
    | none => rfl
    | some p =>
      obtain ⟨m, s, x⟩ := p
      have := squash_digits ((digits_iff _).mpr (hv.2.2 m s x hl).1)
      simp only
      rw [squash_append, squash_append, this]
      congr 2
      · cases m <;> decide
      · cases s <;> decide
  simp only [Literal.render, squash_append, h1, h2, h3, h4]

/-- Where `str` puts the decimal point. -/
def decDot (d : PyDec) : Int :=
  if d.exp ≤ 0 ∧ -6 < d.exp + (natRepr d.coeff).length then d.exp + (natRepr d.coeff).length else 1

/-- The literal printed for a decimal. -/
def decLit (d : PyDec) : Literal where
  sign := if d.neg then .minus else .none
  int := if decDot d ≤ 0 then ['0'] else (natRepr d.coeff).take (decDot d).toNat
  frac := if decDot d ≤ 0 then some (List.replicate (-decDot d).toNat '0' ++ natRepr d.coeff)
    else if (natRepr d.coeff).length ≤ decDot d then none else some ((natRepr d.coeff).drop (decDot d).toNat)
  exp := if d.exp + (natRepr d.coeff).length = decDot d then none
    else some (.E, if d.exp + (natRepr d.coeff).length - decDot d < 0 then .minus else .plus,
      natRepr (d.exp + (natRepr d.coeff).length - decDot d).natAbs)

theorem decDot_le (d : PyDec) : decDot d ≤ (natRepr d.coeff).length := by
  have h := (natRepr_spec d.coeff).2.2
  have : 0 < (natRepr d.coeff).length := List.length_pos_iff.mpr h
  unfold decDot; split <;> omega

theorem decLit_render (d : PyDec) : (decLit d).render = decStr d := by
  have hle := decDot_le d
  simp only [Literal.render, Literal.fracStr, Literal.expStr, decLit, decStr]
  rw [show (if d.exp ≤ 0 ∧ -6 < d.exp + ((natRepr d.coeff).length : Int)
    then d.exp + ((natRepr d.coeff).length : Int) else 1) = decDot d from rfl]
  generalize hD : decDot d = D at *
  generalize hN : natRepr d.coeff = N at *
  have h1 : (if d.neg = true then Sign.minus else Sign.none).str = if d.neg = true then ['-'] else [] := by
    cases d.neg <;> rfl
  rw [h1]
  congr 1
  · rw [List.append_assoc, List.append_assoc]
    congr 1
    by_cases hD0 : D ≤ 0
    · simp [hD0]
    · by_cases hDl : (N.length : Int) ≤ D
      · have : D = N.length := by omega
        subst this
        have hne : N ≠ [] := by intro h; apply hD0; rw [h]; simp
        simp [hne]
      · simp [hD0, hDl]
  · by_cases he : d.exp + (N.length : Int) = D
    · simp [he]
    · simp only [he, if_false, signedRepr, Marker.str]
      split <;> simp [Sign.str]

theorem decLit_valid (d : PyDec) : (decLit d).Valid := by
  have hN := (natRepr_spec d.coeff).1
  have hN' : ∀ c ∈ natRepr d.coeff, isDig c = true := List.all_eq_true.mp hN
  refine ⟨?_, ?_, ?_⟩
  · rw [← digits_iff, List.all_eq_true]
    intro c hc
    simp only [decLit] at hc
    split at hc
    · simp at hc; subst hc; decide
    · exact hN' c (List.take_subset _ _ hc)
  · intro f hf
    rw [← digits_iff, List.all_eq_true]
    intro c hc
    simp only [decLit] at hf
    split at hf
    · cases hf
      rcases List.mem_append.mp hc with h | h
      · rw [List.eq_of_mem_replicate h]; decide
      · exact hN' c h
    · split at hf
      · cases hf
      · cases hf; exact hN' c (List.drop_subset _ _ hc)
  · intro m s x hx
    simp only [decLit] at hx
    split at hx
    · cases hx
    · cases hx
      exact ⟨(digits_iff _).mp (natRepr_spec _).1, (natRepr_spec _).2.2⟩

theorem decLit_noLeading (d : PyDec) : (decLit d).NoLeadingZeros := by
  unfold Literal.NoLeadingZeros
  simp only [decLit]
  by_cases hD : decDot d ≤ 0
  · left; simp [hD]; decide
  · simp only [hD, if_false]
    by_cases h0 : d.coeff = 0
    · left
      rw [h0, show natRepr 0 = ['0'] by decide]
      obtain ⟨j, hj⟩ : ∃ j, (decDot d).toNat = j + 1 := ⟨(decDot d).toNat - 1, by omega⟩
      rw [hj]; simp; decide
    · right
      have := natRepr_head d.coeff h0
      obtain ⟨j, hj⟩ : ∃ j, (decDot d).toNat = j + 1 := ⟨(decDot d).toNat - 1, by omega⟩
      rw [hj]
      cases hN : natRepr d.coeff with
      | nil => simp
      | cons c cs => rw [hN] at this; simpa using this

theorem decLit_coeff (d : PyDec) : (decLit d).coeff = d.coeff := by
  have hle := decDot_le d
  have hv := (natRepr_spec d.coeff).2.1
  rw [coeff_eq, ← natVal_append]
  simp only [decLit, Literal.fracDigits]
  by_cases hD : decDot d ≤ 0
  · simp only [hD, if_true, Option.getD_some]
    rw [← List.append_assoc, show ['0'] ++ List.replicate (-decDot d).toNat '0' = List.replicate ((-decDot d).toNat + 1) '0' by
      rw [List.replicate_succ]; rfl, natVal_append, natVal_replicate_zero, hv]
    omega
  · simp only [hD, if_false]
    by_cases hl : (natRepr d.coeff).length ≤ decDot d
    · simp only [hl, if_true, Option.getD_none, List.append_nil]
      rw [List.take_of_length_le (by omega), hv]
    · simp only [hl, if_false, Option.getD_some, List.take_append_drop, hv]

theorem decLit_scale (d : PyDec) : (decLit d).scale = d.exp := by
  have hle := decDot_le d
  have hx : (decLit d).expValue = d.exp + (natRepr d.coeff).length - decDot d := by
    unfold Literal.expValue
    simp only [decLit]
    by_cases he : d.exp + (natRepr d.coeff).length = decDot d
    · simp [he]
    · simp only [he, if_false]
      rw [digitsValue_eq, (natRepr_spec _).2.1]
      by_cases hn : d.exp + (natRepr d.coeff).length - decDot d < 0
      · simp only [hn, if_true, Sign.isNeg]; omega
      · simp only [hn, if_false, Sign.isNeg]; simp only [Bool.false_eq_true, if_false]; omega
  rw [Literal.scale, hx]
  simp only [decLit, Literal.fracDigits]
  by_cases hD : decDot d ≤ 0
  · simp only [hD, if_true, Option.getD_some, List.length_append, List.length_replicate]
    have : decDot d = d.exp + (natRepr d.coeff).length := by
      unfold decDot at hD ⊢; split
      · rfl
      · next h => rw [if_neg h] at hD; omega
    omega
  · simp only [hD, if_false]
    by_cases hl : (natRepr d.coeff).length ≤ decDot d
    · simp only [hl, if_true, Option.getD_none, List.length_nil]
      omega
    · simp only [hl, if_false, Option.getD_some, List.length_drop]
      omega

theorem decLit_sign (d : PyDec) : (decLit d).sign.isNeg = d.neg := by
  simp only [decLit]; cases d.neg <;> rfl

theorem decLit_value (d : PyDec) : (decLit d).value = d.value := by
  rw [Literal.value, Literal.magnitude, Literal.sgn, decLit_coeff, decLit_scale, decLit_sign, PyDec.value]

end Verif
