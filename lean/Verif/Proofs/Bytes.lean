import Verif.Py.Core

/-! Helper lemmas about byte strings, little-endian integers, padding and slices. -/

namespace Verif

@[simp] theorem length_toLE (l n : Nat) : (toLE l n).length = l := by
  induction l generalizing n with
  | zero => rfl
  | succ l ih => simp [toLE, ih]

theorem fromLE_lt (d : Bytes) : fromLE d < 256 ^ d.length := by
  induction d with
  | nil => simp [fromLE]
  | cons b bs ih =>
    have hb : b.toNat < 256 := b.toNat_lt
    simp only [fromLE, List.length_cons, Nat.pow_succ]
    omega

theorem fromLE_toLE (l n : Nat) : fromLE (toLE l n) = n % 256 ^ l := by
  induction l generalizing n with
  | zero => simp [toLE, fromLE, Nat.mod_one]
  | succ l ih =>
    rw [toLE, fromLE, ih, UInt8.toNat_ofNat', Nat.pow_succ' (n := l), Nat.mod_mul]

theorem fromLE_toLE_of_lt {l n : Nat} (h : n < 256 ^ l) : fromLE (toLE l n) = n := by
  rw [fromLE_toLE, Nat.mod_eq_of_lt h]

theorem toLE_fromLE (d : Bytes) : toLE d.length (fromLE d) = d := by
  induction d with
  | nil => rfl
  | cons b bs ih =>
    have hb : b.toNat < 256 := b.toNat_lt
    simp only [List.length_cons, toLE, fromLE]
    have h1 : (b.toNat + 256 * fromLE bs) / 256 = fromLE bs := by omega
    have h2 : UInt8.ofNat (b.toNat + 256 * fromLE bs) = b := by
      apply UInt8.toNat_inj.mp
      rw [UInt8.toNat_ofNat']
      omega
    rw [h1, h2, ih]

theorem toLE_fromLE' {d : Bytes} {l : Nat} (h : d.length = l) : toLE l (fromLE d) = d := by
  subst h; exact toLE_fromLE d

theorem fromLE_inj {a b : Bytes} (hl : a.length = b.length) (h : fromLE a = fromLE b) : a = b := by
  rw [← toLE_fromLE a, ← toLE_fromLE b, hl, h]

@[simp] theorem length_ljust (n : Nat) (d : Bytes) : (ljust n d).length = max n d.length := by
  simp [ljust]; omega

theorem ljust_of_le {n : Nat} {d : Bytes} (h : n ≤ d.length) : ljust n d = d := by
  simp [ljust, Nat.sub_eq_zero_of_le h]

@[simp] theorem ljust_ljust (n : Nat) (d : Bytes) : ljust n (ljust n d) = ljust n d :=
  ljust_of_le (by rw [length_ljust]; omega)

theorem rstripNul_append_zeros (d : Bytes) (k : Nat) :
    rstripNul (d ++ List.replicate k 0) = rstripNul d := by
  unfold rstripNul
  congr 1
  rw [List.reverse_append, List.reverse_replicate]
  induction k with
  | zero => simp
  | succ k ih => simp [List.replicate_succ, ih]

@[simp] theorem rstripNul_ljust (n : Nat) (d : Bytes) : rstripNul (ljust n d) = rstripNul d :=
  rstripNul_append_zeros _ _

theorem rstripNul_spec (d : Bytes) : ∃ k, d = rstripNul d ++ List.replicate k 0 := by
  have h : ∀ r : Bytes, ∃ k, r = List.replicate k 0 ++ r.dropWhile (· == 0) := by
    intro r
    induction r with
    | nil => exact ⟨0, rfl⟩
    | cons b bs ih =>
      by_cases hb : b = 0
      · obtain ⟨k, hk⟩ := ih
        refine ⟨k + 1, ?_⟩
        rw [List.dropWhile_cons]
        simp only [hb, beq_self_eq_true, if_true, List.replicate_succ, List.cons_append]
        rw [← hk]
      · exact ⟨0, by simp [hb]⟩
  obtain ⟨k, hk⟩ := h d.reverse
  refine ⟨k, ?_⟩
  have h2 := congrArg List.reverse hk
  simpa [rstripNul] using h2

theorem ljust_rstripNul {n : Nat} {d : Bytes} (h : d.length = n) : ljust n (rstripNul d) = d := by
  obtain ⟨k, hk⟩ := rstripNul_spec d
  have hl := congrArg List.length hk
  simp at hl
  have : n - (rstripNul d).length = k := by omega
  unfold ljust
  rw [this]
  exact hk.symm

theorem rstripNul_eq_self {d : Bytes} (h : d.getLast? ≠ some 0) : rstripNul d = d := by
  unfold rstripNul
  rcases List.eq_nil_or_concat d with rfl | ⟨l, b, rfl⟩
  · rfl
  · have hb : b ≠ 0 := by simpa using h
    simp [hb]

/-! ### Slices -/

theorem bounds_le (s : Slice) (n : Nat) : (s.bounds n).1 ≤ (s.bounds n).2 := by
  simp only [Slice.bounds]; omega

theorem bounds_fst_le (s : Slice) (n : Nat) : (s.bounds n).1 ≤ n := by
  simp only [Slice.bounds, Slice.indices, Option.getD_none]
  cases s.start with
  | none => simp
  | some x => simp; split <;> omega

theorem bounds_snd_le (s : Slice) (n : Nat) : (s.bounds n).2 ≤ n := by
  have h1 := bounds_fst_le s n
  have h2 : ({ s with step := none }.indices n).2.1.toNat ≤ n := by
    simp only [Slice.indices, Option.getD_none]
    cases s.stop with
    | none => simp
    | some x => simp; split <;> omega
  simp only [Slice.bounds] at *
  omega

/-- A literal slice `[a:b]` with natural bounds. -/
def Slice.nat (a b : Nat) : Slice := ⟨some a, some b, none⟩

/-- A literal slice `[a:]`. -/
def Slice.natFrom (a : Nat) : Slice := ⟨some a, none, none⟩

theorem bounds_nat {a b n : Nat} (h1 : a ≤ b) (h2 : b ≤ n) : (Slice.nat a b).bounds n = (a, b) := by
  simp only [Slice.bounds, Slice.indices, Slice.nat, Option.getD_none]
  simp
  omega

theorem bounds_natFrom {a n : Nat} (h1 : a ≤ n) : (Slice.natFrom a).bounds n = (a, n) := by
  simp only [Slice.bounds, Slice.indices, Slice.natFrom, Option.getD_none]
  simp
  omega

theorem getSlice_nat {a b : Nat} {d : Bytes} (h1 : a ≤ b) (h2 : b ≤ d.length) :
    getSlice d (Slice.nat a b) = (d.drop a).take (b - a) := by
  simp [getSlice, bounds_nat h1 h2]

theorem setSlice_nat {a b : Nat} {d v : Bytes} (h1 : a ≤ b) (h2 : b ≤ d.length) :
    setSlice d (Slice.nat a b) v = d.take a ++ v ++ d.drop b := by
  simp [setSlice, bounds_nat h1 h2]

theorem getSlice_natFrom {a : Nat} {d : Bytes} (h : a ≤ d.length) :
    getSlice d (Slice.natFrom a) = d.drop a := by
  simp only [getSlice, bounds_natFrom h]
  exact List.take_of_length_le (by simp)

theorem setSlice_natFrom {a : Nat} {d v : Bytes} (h : a ≤ d.length) :
    setSlice d (Slice.natFrom a) v = d.take a ++ v := by
  simp [setSlice, bounds_natFrom h]

theorem length_getSlice (d : Bytes) (s : Slice) :
    (getSlice d s).length = (s.bounds d.length).2 - (s.bounds d.length).1 := by
  have h1 := bounds_snd_le s d.length
  have h2 := bounds_le s d.length
  simp [getSlice]; omega

/-- Same-size slice assignment keeps the length. -/
theorem length_setSlice {d v : Bytes} {s : Slice}
    (h : v.length = (s.bounds d.length).2 - (s.bounds d.length).1) :
    (setSlice d s v).length = d.length := by
  have h1 := bounds_snd_le s d.length
  have h2 := bounds_le s d.length
  simp [setSlice]; omega

/-- Reading back a same-size slice assignment. -/
theorem getSlice_setSlice {d v : Bytes} {s : Slice}
    (h : v.length = (s.bounds d.length).2 - (s.bounds d.length).1) :
    getSlice (setSlice d s v) s = v := by
  have h1 := bounds_snd_le s d.length
  have h2 := bounds_le s d.length
  have h3 := bounds_fst_le s d.length
  rw [getSlice, length_setSlice h, setSlice, List.append_assoc]
  rw [List.drop_append_of_le_length (by simp; omega)]
  rw [List.drop_of_length_le (by simp; omega), List.nil_append]
  rw [List.take_append_of_le_length (by omega)]
  exact List.take_of_length_le (by omega)

/-- Bytes outside the slice are untouched by a same-size slice assignment. -/
theorem getElem?_setSlice_outside {d v : Bytes} {s : Slice} {i : Nat}
    (h : v.length = (s.bounds d.length).2 - (s.bounds d.length).1)
    (hi : i < (s.bounds d.length).1 ∨ (s.bounds d.length).2 ≤ i) :
    (setSlice d s v)[i]? = d[i]? := by
  have h1 := bounds_snd_le s d.length
  have h2 := bounds_le s d.length
  have h3 := bounds_fst_le s d.length
  rw [setSlice, List.append_assoc]
  rcases hi with hi | hi
  · rw [List.getElem?_append_left (by simp; omega), List.getElem?_take_of_lt hi]
  · rw [List.getElem?_append_right (by simp; omega), List.getElem?_append_right (by simp; omega)]
    rw [List.getElem?_drop]
    congr 1
    simp; omega

/-- Inside the slice the new bytes are found. -/
theorem getElem?_setSlice_inside {d v : Bytes} {s : Slice} {i : Nat}
    (h : v.length = (s.bounds d.length).2 - (s.bounds d.length).1)
    (hi : (s.bounds d.length).1 ≤ i) (hi2 : i < (s.bounds d.length).2) :
    (setSlice d s v)[i]? = v[i - (s.bounds d.length).1]? := by
  have h1 := bounds_snd_le s d.length
  have h3 := bounds_fst_le s d.length
  rw [setSlice, List.append_assoc]
  rw [List.getElem?_append_right (by simp; omega), List.getElem?_append_left (by simp; omega)]
  congr 1
  simp; omega

theorem getSlice_ext {d e : Bytes} {s : Slice} (hl : d.length = e.length)
    (h : ∀ i, (s.bounds d.length).1 ≤ i → i < (s.bounds d.length).2 → d[i]? = e[i]?) :
    getSlice d s = getSlice e s := by
  apply List.ext_getElem?
  intro i
  simp only [getSlice, ← hl]
  by_cases hi : i < (s.bounds d.length).2 - (s.bounds d.length).1
  · rw [List.getElem?_take_of_lt hi, List.getElem?_take_of_lt hi, List.getElem?_drop, List.getElem?_drop]
    exact h _ (by omega) (by omega)
  · rw [List.getElem?_eq_none, List.getElem?_eq_none]
    · simp; omega
    · simp; omega

end Verif
