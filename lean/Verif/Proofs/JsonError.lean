import Verif.Proofs.Json

/-! What is no JSON raises `ValueError`: the bound on the depth is never reached. -/

namespace Verif
namespace Json
open Spec

theorem skipWs_le (s : Str) : (skipWs s).length ≤ s.length := (List.dropWhile_sublist _).length_le

/-- All errors are of this kind, and what is left is not longer. -/
def Fine {α : Type} (s : Str) (r : Except PyErr (α × Str)) : Prop :=
  match r with
  | .error x => x = .valueError
  | .ok p => p.2.length ≤ s.length

theorem Fine.mono {α : Type} {s s' : Str} {r : Except PyErr (α × Str)} (h : Fine s r) (hs : s.length ≤ s'.length) : Fine s' r := by
  cases r with
  | error x => exact h
  | ok p => exact Nat.le_trans h hs

theorem hex4_fine (s : Str) : Fine s (hex4 s) := by
  unfold hex4
  split
  · split
    · simp only [Fine, List.length_cons]; omega
    · rfl
  · rfl

theorem charOf_error {n : Nat} {x : PyErr} (h : charOf n = .error x) : x = .valueError := by
  unfold charOf at h
  split at h
  · cases h
  · exact (Except.error.inj h).symm

theorem dropU_le {s t : Str} (h : dropU s = some t) : t.length ≤ s.length := by
  unfold dropU at h
  split at h
  · obtain rfl := Option.some.inj h; simp only [List.length_cons]; omega
  · cases h

theorem unicodeEscape_fine (s : Str) : Fine s (unicodeEscape s) := by
  unfold unicodeEscape
  have h1 := hex4_fine s
  cases hx : hex4 s with
  | error x => rw [hx] at h1; exact h1
  | ok p =>
    obtain ⟨n, t⟩ := p
    rw [hx] at h1
    change t.length ≤ s.length at h1
    show Fine s (if 0xD800 ≤ n ∧ n ≤ 0xDBFF then _ else _)
    split
    · cases hu : dropU t with
      | none => rfl
      | some u =>
        have h2 := dropU_le hu
        have h3 := hex4_fine u
        cases hy : hex4 u with
        | error x => rw [hy] at h3; simp only [hy]; exact h3
        | ok p =>
          obtain ⟨m, v⟩ := p
          rw [hy] at h3
          change v.length ≤ u.length at h3
          simp only [hy]
          show Fine s (if 0xDC00 ≤ m ∧ m ≤ 0xDFFF then _ else _)
          split
          · cases hc : charOf (0x10000 + ((n - 0xD800) * 1024 + (m - 0xDC00))) with
            | error x => exact charOf_error hc
            | ok c => exact (by omega : v.length ≤ s.length)
          · rfl
    · cases hc : charOf n with
      | error x => exact charOf_error hc
      | ok c => exact h1

theorem nextChar_fine (s : Str) : Fine s (nextChar s) := by
  unfold nextChar
  split
  · rfl
  · rename_i c s
    split
    · simp [Fine]
    · split
      · split
        · rfl
        · rename_i d t
          split
          · have := unicodeEscape_fine t
            cases hu : unicodeEscape t with
            | error x => rw [hu] at this; exact this
            | ok p =>
              rw [hu] at this
              change p.2.length ≤ t.length at this
              show p.2.length ≤ (c :: d :: t).length
              simp only [List.length_cons]; omega
          · split
            · simp only [Fine, List.length_cons]; omega
            · rfl
      · split
        · rfl
        · simp [Fine]

theorem parseString_fine (n : Nat) : ∀ s, Fine s (parseString n s) := by
  induction n with
  | zero => intro s; rfl
  | succ n ih =>
    intro s
    have h1 := nextChar_fine s
    unfold parseString
    split
    · rename_i x hx; rw [hx] at h1; exact h1
    · rename_i t hx; rw [hx] at h1; exact h1
    · rename_i c t hx
      rw [hx] at h1
      change t.length ≤ s.length at h1
      have h2 := ih t
      split
      · rename_i x hy; rw [hy] at h2; exact h2
      · rename_i r u hy
        rw [hy] at h2
        change u.length ≤ t.length at h2
        exact (by omega : u.length ≤ s.length)

theorem digits_le (s : Str) : (digits s).2.length ≤ s.length := (List.dropWhile_sublist _).length_le

theorem fracPart_le (s : Str) : (fracPart s).2.length ≤ s.length := by
  unfold fracPart
  split
  · exact Nat.le_refl _
  · split
    · have := digits_le; exact Nat.le_succ_of_le (this _)
    · exact Nat.le_refl _

theorem expSign_le (s : Str) : (expSign s).2.length ≤ s.length := by
  unfold expSign
  split
  · exact Nat.le_refl _
  · split
    · simp
    · split <;> simp

theorem expPart_le (s : Str) : (expPart s).2.length ≤ s.length := by
  unfold expPart
  split
  · exact Nat.le_refl _
  · rename_i c s
    have h1 := expSign_le s
    have h2 := digits_le (expSign s).2
    simp only
    split
    · simp only [List.length_cons]; omega
    · exact Nat.le_refl _

theorem intPart_le {s : Str} {p : Str × Str} (h : intPart s = some p) : p.2.length ≤ s.length := by
  unfold intPart at h
  split at h
  · cases h
  · split at h
    · obtain rfl := Option.some.inj h; simp
    · split at h
      · obtain rfl := Option.some.inj h; exact digits_le _
      · cases h

theorem parseUnsigned_fine (neg : Bool) (s : Str) : Fine s (parseUnsigned neg s) := by
  unfold parseUnsigned
  split
  · rfl
  · rename_i ds t h
    have h1 := intPart_le h
    have h2 := fracPart_le t
    have h3 := expPart_le (fracPart t).2
    simp only at h1 ⊢
    split <;> simp only [Fine] <;> omega

theorem parseNumber_fine (s : Str) : Fine s (parseNumber s) := by
  unfold parseNumber
  split
  · rfl
  · split
    · exact (parseUnsigned_fine _ _).mono (by simp)
    · exact parseUnsigned_fine _ _

theorem parseWord_fine (s : Str) : Fine s (parseWord s) := by
  unfold parseWord
  split
  · simp [Fine]
  · split
    · simp [Fine]
    · split
      · simp [Fine]
      · exact parseNumber_fine s

mutual
theorem parseValue_fine : (n : Nat) → (s : Str) → 2 * s.length + 1 ≤ n → Fine s (parseValue n s)
  | 0, s, h => by omega
  | n + 1, [], h => by unfold parseValue; rfl
  | n + 1, c :: t, h => by
    simp only [List.length_cons] at h
    have hw := skipWs_le t
    unfold parseValue
    simp only
    split
    · have := parseString_fine (c :: t).length t
      split
      · rename_i x hx; rw [hx] at this; exact this
      · rename_i x r hx
        rw [hx] at this
        change r.length ≤ t.length at this
        exact (by simp only [List.length_cons]; omega : r.length ≤ (c :: t).length)
    · split
      · split
        · rename_i r hr
          rw [hr] at hw
          simp only [Fine, List.length_cons] at hw ⊢
          omega
        · exact (parseItems_fine n [] _ (by omega)).mono (by simp only [List.length_cons]; omega)
      · split
        · split
          · rename_i r hr
            rw [hr] at hw
            simp only [Fine, List.length_cons] at hw ⊢
            omega
          · exact (parseMembers_fine n [] _ (by omega)).mono (by simp only [List.length_cons]; omega)
        · exact parseWord_fine _
theorem parseItems_fine : (n : Nat) → (acc : List Json) → (s : Str) → 2 * s.length + 2 ≤ n → Fine s (parseItems n acc s)
  | 0, _, s, h => by omega
  | n + 1, acc, s, h => by
    have h1 := parseValue_fine n s (by omega)
    unfold parseItems
    split
    · rename_i x hx; rw [hx] at h1; exact h1
    · rename_i x r hx
      rw [hx] at h1
      change r.length ≤ s.length at h1
      have hw := skipWs_le r
      split
      · rename_i u hu
        rw [hu] at hw
        simp only [Fine, List.length_cons] at hw ⊢
        omega
      · rename_i u hu
        rw [hu] at hw
        simp only [List.length_cons] at hw
        have hv := skipWs_le u
        exact (parseItems_fine n _ _ (by omega)).mono (by omega)
      · rfl
theorem parseMembers_fine : (n : Nat) → (acc : List (Str × Json)) → (s : Str) → 2 * s.length + 2 ≤ n → Fine s (parseMembers n acc s)
  | 0, _, s, h => by omega
  | n + 1, acc, s, h => by
    unfold parseMembers
    split
    · rename_i t
      have hk := parseString_fine ('"' :: t).length t
      simp only [List.length_cons] at h
      split
      · rename_i x hx; rw [hx] at hk; exact hk
      · rename_i k r hx
        rw [hx] at hk
        change r.length ≤ t.length at hk
        have hw := skipWs_le r
        split
        · rename_i r' hr
          rw [hr] at hw
          simp only [List.length_cons] at hw
          have hv := skipWs_le r'
          have h1 := parseValue_fine n (skipWs r') (by omega)
          split
          · rename_i x hx; rw [hx] at h1; exact h1
          · rename_i x r'' hx
            rw [hx] at h1
            change r''.length ≤ (skipWs r').length at h1
            have hu := skipWs_le r''
            split
            · rename_i u hu'
              rw [hu'] at hu
              simp only [Fine, List.length_cons] at hu ⊢
              omega
            · rename_i u hu'
              rw [hu'] at hu
              simp only [List.length_cons] at hu
              have hv' := skipWs_le u
              exact (parseMembers_fine n _ _ (by omega)).mono (by simp only [List.length_cons]; omega)
            · rfl
        · rfl
    · rfl
end

/-- The only error of `json.loads` is `ValueError`. -/
theorem loads_error {s : Str} {x : PyErr} (h : loads s = .error x) : x = .valueError := by
  unfold loads at h
  split at h
  · exact (Except.error.inj h).symm
  · have hw := skipWs_le s
    have := parseValue_fine (2 * s.length + 1) (skipWs s) (by omega)
    split at h
    · rename_i y hy
      rw [hy] at this
      obtain rfl := Except.error.inj h
      exact this
    · split at h
      · cases h
      · exact (Except.error.inj h).symm

end Json
end Verif
