import Verif.Py.Str

/-! Helper lemmas about strings of digits. -/

namespace Verif

theorem digChar_spec : ∀ n, n < 10 → isDig (digChar n) = true ∧ digVal (digChar n) = n := by decide +kernel

theorem isDig_cases {c : Char} (h : isDig c = true) : 48 ≤ c.toNat ∧ c.toNat ≤ 57 := by
  simp only [isDig, Bool.and_eq_true, decide_eq_true_eq] at h
  exact h

theorem digVal_lt {c : Char} (h : isDig c = true) : digVal c < 10 := by
  have := isDig_cases h; simp [digVal]; omega

theorem digChar_digVal {c : Char} (h : isDig c = true) : digChar (digVal c) = c := by
  have := isDig_cases h
  rw [digChar, digVal, show 48 + (c.toNat - 48) = c.toNat by omega]
  exact Char.ofNat_toNat c

theorem natVal_aux (s : Str) (a : Nat) :
    s.foldl (fun acc c => 10 * acc + digVal c) a = a * 10 ^ s.length + natVal s := by
  induction s generalizing a with
  | nil => simp [natVal]
  | cons c cs ih =>
    simp only [natVal, List.foldl_cons, List.length_cons]
    rw [ih, ih (10 * 0 + digVal c)]
    rw [Nat.pow_succ, Nat.mul_zero, Nat.zero_add]
    have : (10 * a + digVal c) * 10 ^ cs.length = a * (10 ^ cs.length * 10) + digVal c * 10 ^ cs.length := by
      rw [Nat.add_mul, Nat.mul_comm 10 a, Nat.mul_assoc, Nat.mul_comm 10]
    omega

theorem natVal_append (s t : Str) : natVal (s ++ t) = natVal s * 10 ^ t.length + natVal t := by
  rw [natVal, List.foldl_append, natVal_aux]; rfl

@[simp] theorem natVal_nil : natVal [] = 0 := rfl

theorem natVal_cons (c : Char) (s : Str) : natVal (c :: s) = digVal c * 10 ^ s.length + natVal s := by
  have := natVal_append [c] s
  simpa [natVal] using this

theorem natVal_lt {s : Str} (h : s.all isDig = true) : natVal s < 10 ^ s.length := by
  induction s with
  | nil => simp
  | cons c cs ih =>
    simp only [List.all_cons, Bool.and_eq_true] at h
    have h1 := digVal_lt h.1
    have h2 := ih h.2
    rw [natVal_cons, List.length_cons, Nat.pow_succ]
    have : digVal c * 10 ^ cs.length ≤ 9 * 10 ^ cs.length := Nat.mul_le_mul_right _ (by omega)
    omega

theorem natVal_replicate_zero (k : Nat) : natVal (List.replicate k '0') = 0 := by
  induction k with
  | zero => rfl
  | succ k ih => rw [List.replicate_succ, natVal_cons, ih]; simp [digVal]

theorem natRepr_go_acc (f n : Nat) (acc : Str) : natRepr.go f n acc = natRepr.go f n [] ++ acc := by
  induction f generalizing n acc with
  | zero => simp [natRepr.go]
  | succ f ih =>
    simp only [natRepr.go]
    split
    · simp
    · rw [ih, ih (n / 10) [_]]; simp

theorem natRepr_go_fuel (f g n : Nat) (hf : n ≤ f) (hg : n ≤ g) :
    natRepr.go f n [] = natRepr.go g n [] := by
  induction f generalizing g n with
  | zero =>
    obtain rfl : n = 0 := by omega
    cases g <;> simp [natRepr.go]
  | succ f ih =>
    cases g with
    | zero =>
      obtain rfl : n = 0 := by omega
      simp [natRepr.go]
    | succ g =>
      simp only [natRepr.go]
      split
      · rfl
      · rw [natRepr_go_acc, natRepr_go_acc g, ih g (n / 10) (by omega) (by omega)]

theorem natRepr_lt {n : Nat} (h : n < 10) : natRepr n = [digChar n] := by
  cases n with
  | zero => rfl
  | succ n => simp [natRepr, natRepr.go, h]

theorem natRepr_ge {n : Nat} (h : 10 ≤ n) : natRepr n = natRepr (n / 10) ++ [digChar (n % 10)] := by
  cases n with
  | zero => omega
  | succ m =>
    simp only [natRepr]
    rw [natRepr.go, if_neg (by omega), natRepr_go_acc, natRepr_go_fuel m ((m + 1) / 10) _ (by omega) (by omega)]

theorem natRepr_spec (n : Nat) : (natRepr n).all isDig = true ∧ natVal (natRepr n) = n ∧ natRepr n ≠ [] := by
  induction n using Nat.strongRecOn with
  | _ n ih =>
    by_cases h : n < 10
    · rw [natRepr_lt h]
      have := digChar_spec n h
      simp [natVal, this.1, this.2]
    · rw [natRepr_ge (by omega)]
      obtain ⟨h1, h2, -⟩ := ih (n / 10) (by omega)
      have := digChar_spec (n % 10) (by omega)
      refine ⟨by simpa [h1] using this.1, ?_, by simp⟩
      rw [natVal_append, h2]
      simp [natVal, this.2]
      omega

/-- No leading zero, except for zero itself. -/
theorem natRepr_head (n : Nat) (h : n ≠ 0) : (natRepr n).head? ≠ some '0' := by
  induction n using Nat.strongRecOn with
  | _ n ih =>
    by_cases h10 : n < 10
    · rw [natRepr_lt h10]
      have : ∀ n, n < 10 → n ≠ 0 → digChar n ≠ '0' := by decide +kernel
      simpa using this n h10 h
    · rw [natRepr_ge (by omega)]
      have h1 := ih (n / 10) (by omega) (by omega)
      obtain ⟨-, -, h3⟩ := natRepr_spec (n / 10)
      cases hc : natRepr (n / 10) with
      | nil => exact absurd hc h3
      | cons c cs => rw [hc] at h1; simpa using h1

theorem parseNat_of_digits {s : Str} (h : s.all isDig = true) (hn : s ≠ []) : parseNat s = .ok (natVal s) := by
  rw [parseNat, if_neg]
  simp [hn, h]

theorem parseNat_natRepr (n : Nat) : parseNat (natRepr n) = .ok n := by
  obtain ⟨h1, h2, h3⟩ := natRepr_spec n
  rw [parseNat_of_digits h1 h3, h2]

theorem parseInt_of_digits {s : Str} (h : s.all isDig = true) (hn : s ≠ []) :
    parseInt s = .ok (natVal s : Int) := by
  have hp := parseNat_of_digits h hn
  unfold parseInt
  split
  · simp at h; exact absurd h.1 (by decide)
  · simp at h; exact absurd h.1 (by decide)
  · rw [hp]; rfl

theorem parseInt_intRepr (v : Int) : parseInt (intRepr v) = .ok v := by
  unfold intRepr
  split
  · simp only [parseInt, parseNat_natRepr, Except.map]
    congr 1
    show -(v.natAbs : Int) = v
    omega
  · obtain ⟨h1, h2, h3⟩ := natRepr_spec v.natAbs
    rw [parseInt_of_digits h1 h3, h2]
    congr 1; omega

theorem splitChar_ne_nil (sep : Char) (s : Str) : splitChar sep s ≠ [] := by
  induction s with
  | nil => simp [splitChar]
  | cons c cs ih =>
    simp only [splitChar]
    split
    · simp
    · split <;> simp

theorem splitChar_of_not_mem {sep : Char} {s : Str} (h : sep ∉ s) : splitChar sep s = [s] := by
  induction s with
  | nil => rfl
  | cons c cs ih =>
    simp only [List.mem_cons, not_or] at h
    rw [splitChar, if_neg (fun e => h.1 e.symm), ih h.2]

theorem splitChar_append {sep : Char} {s : Str} (h : sep ∉ s) (t : Str) :
    splitChar sep (s ++ sep :: t) = s :: splitChar sep t := by
  induction s with
  | nil => simp [splitChar]
  | cons c cs ih =>
    simp only [List.mem_cons, not_or] at h
    rw [List.cons_append, splitChar, if_neg (fun e => h.1 e.symm), ih h.2]

theorem not_mem_of_digits {s : Str} {c : Char} (h : s.all isDig = true) (hc : isDig c = false) : c ∉ s := by
  intro hm
  rw [List.all_eq_true] at h
  simp [h c hm] at hc

end Verif
