import Verif.Model.Data
import Verif.Proofs.Bytes

/-! Helper lemmas about converters, sections and views. -/

namespace Verif

@[simp] theorem PyM.lift_run {σ α : Type} (x : PyM Unit α) (s : σ) :
    (PyM.lift x : PyM σ α) s = ⟨(x ()).res, s, (x ()).warns⟩ := rfl

@[simp] theorem PyM.map_eq {σ α β : Type} (f : α → β) (x : PyM σ α) :
    (f <$> x) = x >>= fun a => pure (f a) := rfl

/-! ### Bit lists -/

theorem ofBits_lt (l : List Bool) : ofBits l < 2 ^ l.length := by
  induction l with
  | nil => simp [ofBits]
  | cons b bs ih =>
    simp only [ofBits, List.length_cons, Nat.pow_succ]
    have : b.toNat ≤ 1 := Bool.toNat_le b
    omega

theorem ofBits_testBit_range' (n : Nat) (i k : Nat) :
    ofBits ((List.range' i k).map n.testBit) = n / 2 ^ i % 2 ^ k := by
  induction k generalizing i with
  | zero => simp [ofBits, Nat.mod_one]
  | succ k ih =>
    simp only [List.range'_succ, List.map_cons, ofBits, ih]
    rw [Nat.testBit_eq_decide_div_mod_eq]
    have h2 : n / 2 ^ (i + 1) = n / 2 ^ i / 2 := by rw [Nat.pow_succ, Nat.div_div_eq_div_mul]
    rw [h2, Nat.pow_succ' (n := k), Nat.mod_mul]
    congr 1
    generalize n / 2 ^ i = m
    rcases Nat.mod_two_eq_zero_or_one m with h | h <;> simp [h]

theorem ofBits_testBit_range (n k : Nat) :
    ofBits ((List.range k).map n.testBit) = n % 2 ^ k := by
  rw [List.range_eq_range', ofBits_testBit_range']
  simp

theorem testBit_ofBits (l : List Bool) (j : Nat) : (ofBits l).testBit j = (l[j]?).getD false := by
  induction l generalizing j with
  | nil => simp [ofBits]
  | cons b bs ih =>
    cases j with
    | zero =>
      simp only [ofBits, Nat.testBit_zero, List.getElem?_cons_zero, Option.getD_some]
      cases b <;> simp
    | succ j =>
      simp only [ofBits, List.getElem?_cons_succ, ← ih, Nat.testBit_succ]
      congr 1
      have : b.toNat ≤ 1 := Bool.toNat_le b
      omega

theorem bitsGetLoop_range' (inIdx : Nat → Bool) (f : Nat → Bool) (i m : Nat) :
    bitsGetLoop inIdx i ((List.range' i m).map f) = ((List.range' i m).filter inIdx).map f := by
  induction m generalizing i with
  | zero => rfl
  | succ m ih =>
    simp only [List.range'_succ, List.map_cons, bitsGetLoop, ih, List.filter_cons]
    split <;> simp

theorem bitsGetLoop_bits8 (inIdx : Nat → Bool) (n : Nat) :
    bitsGetLoop inIdx 0 (bits8 n) = ((List.range 8).filter inIdx).map n.testBit := by
  rw [bits8, List.range_eq_range', bitsGetLoop_range']

theorem bitsSetLoop_range' (inIdx : Nat → Bool) (cur : Nat) (m : Nat) :
    ∀ (i data : Nat) (bits : List Bool), data < 2 ^ i →
      ((List.range' i m).filter inIdx).length ≤ bits.length →
      ∃ data', bitsSetLoop inIdx cur (List.range' i m) data bits
          = .ok (data', bits.drop ((List.range' i m).filter inIdx).length) ∧
        data' < 2 ^ (i + m) ∧
        (∀ t, t < i → data'.testBit t = data.testBit t) ∧
        (∀ t, i ≤ t → t < i + m → inIdx t = false → data'.testBit t = cur.testBit t) ∧
        ((List.range' i m).filter inIdx).map data'.testBit
          = bits.take ((List.range' i m).filter inIdx).length := by
  induction m with
  | zero =>
    intro i data bits hd _
    refine ⟨data, by simp [bitsSetLoop], by simpa using hd, by simp, ?_, by simp⟩
    intro t h1 h2; omega
  | succ m ih =>
    intro i data bits hd hl
    have key : ∀ x : Bool, (data + x.toNat * 2 ^ i) < 2 ^ (i + 1) ∧
        (∀ t, t < i → (data + x.toNat * 2 ^ i).testBit t = data.testBit t) ∧
        (data + x.toNat * 2 ^ i).testBit i = x := by
      intro x
      have hx : x.toNat ≤ 1 := Bool.toNat_le x
      have hc : data + x.toNat * 2 ^ i = 2 ^ i * x.toNat + data := by
        rw [Nat.mul_comm]; omega
      refine ⟨?_, ?_, ?_⟩
      · rw [Nat.pow_succ]
        have : x.toNat * 2 ^ i ≤ 1 * 2 ^ i := Nat.mul_le_mul_right _ hx
        omega
      · intro t ht
        rw [hc, Nat.testBit_two_pow_mul_add _ hd]
        simp [ht]
      · rw [hc, Nat.testBit_two_pow_mul_add _ hd]
        cases x <;> simp
    simp only [List.range'_succ, List.filter_cons] at hl ⊢
    by_cases hi : inIdx i = true
    · simp only [hi, if_true, List.length_cons] at hl ⊢
      cases bits with
      | nil => simp at hl
      | cons b bs =>
        obtain ⟨k1, k2, k3⟩ := key b
        simp only [List.length_cons] at hl
        obtain ⟨d', e1, e2, e3, e4, e5⟩ := ih (i + 1) (data + b.toNat * 2 ^ i) bs k1 (by omega)
        refine ⟨d', ?_, ?_, ?_, ?_, ?_⟩
        · simp only [bitsSetLoop, hi, if_true, List.drop_succ_cons, Nat.shiftLeft_eq]
          exact e1
        · rw [show i + (m + 1) = i + 1 + m by omega]; exact e2
        · intro t ht; rw [e3 t (by omega), k2 t ht]
        · intro t h1 h2 h3
          by_cases h : t = i
          · subst h; simp [hi] at h3
          · exact e4 t (by omega) (by omega) h3
        · simp only [List.map_cons, List.take_succ_cons, e5]
          rw [e3 i (by omega), k3]
    · simp only [hi] at hl ⊢
      obtain ⟨k1, k2, k3⟩ := key (cur.testBit i)
      obtain ⟨d', e1, e2, e3, e4, e5⟩ :=
        ih (i + 1) (data + (cur.testBit i).toNat * 2 ^ i) bits k1 (by simpa using hl)
      refine ⟨d', ?_, ?_, ?_, ?_, ?_⟩
      · simp only [bitsSetLoop, hi]
        have : cur &&& 1 <<< i = (cur.testBit i).toNat * 2 ^ i := by
          rw [Nat.shiftLeft_eq, Nat.one_mul]
          apply Nat.eq_of_testBit_eq
          intro t
          rw [Nat.testBit_and, Nat.testBit_two_pow, Nat.mul_comm, Nat.testBit_two_pow_mul]
          by_cases h : i = t
          · subst h; cases cur.testBit i <;> simp
          · cases cur.testBit i <;> simp [h]
            intro h1
            obtain ⟨m, hm⟩ : ∃ m, t - i = m + 1 := ⟨t - i - 1, by omega⟩
            rw [hm, Nat.testBit_succ]
            simp
        rw [this]
        exact e1
      · rw [show i + (m + 1) = i + 1 + m by omega]; exact e2
      · intro t ht; rw [e3 t (by omega), k2 t ht]
      · intro t h1 h2 h3
        by_cases h : t = i
        · subst h; rw [e3 t (by omega), k3]
        · exact e4 t (by omega) (by omega) h3
      · exact e5

theorem bitsLeftover_eq_nil (l : List Bool) : bitsLeftover l = [] ↔ ∀ b ∈ l, b = false := by
  induction l with
  | nil => simp [bitsLeftover]
  | cons b bs ih => cases b <;> simp [bitsLeftover, ih]

theorem bitsLeftover_all (l : List Bool) : ∀ w ∈ bitsLeftover l, w = .tooManyBits := by
  induction l with
  | nil => simp [bitsLeftover]
  | cons b bs ih => cases b <;> simp [bitsLeftover] <;> exact ih

theorem leftover_bits8 {n k : Nat} (hn : n < 256) (_hk : k ≤ 8) :
    bitsLeftover ((bits8 n).drop k) = [] ↔ n < 2 ^ k := by
  rw [bitsLeftover_eq_nil]
  constructor
  · intro h
    apply Nat.lt_pow_two_of_testBit
    intro j hj
    by_cases hj8 : j < 8
    · apply h
      rw [bits8, ← List.map_drop, List.mem_map]
      refine ⟨j, ?_, rfl⟩
      rw [List.mem_drop_iff_getElem]
      refine ⟨j - k, ?_, ?_⟩
      · simp; omega
      · simp; omega
    · exact Nat.testBit_lt_two_pow (Nat.lt_of_lt_of_le hn
        (Nat.pow_le_pow_right (n := 2) (i := 8) (by omega) (by omega)))
  · intro h b hb
    rw [bits8, ← List.map_drop, List.mem_map] at hb
    obtain ⟨j, hj, rfl⟩ := hb
    rw [List.mem_drop_iff_getElem] at hj
    obtain ⟨t, ht, rfl⟩ := hj
    simp only [List.getElem_range]
    exact Nat.testBit_lt_two_pow (Nat.lt_of_lt_of_le h
      (Nat.pow_le_pow_right (by omega) (by omega)))

theorem byteOf_lt {n : Nat} (h : n < 256) : byteOf (n : Int) = .ok [UInt8.ofNat n] := by
  unfold byteOf
  rw [if_neg (by omega)]
  simp

/-- Everything about one bit-field write. -/
theorem bitSliceSet_spec (inIdx : Nat → Bool) (v : Int) (b : UInt8) :
    ∃ b' : UInt8,
      bitSliceSet inIdx v [b] () =
        ⟨.ok [b'], (), bitsLeftover
          ((bits8 (v % 256).toNat).drop ((List.range 8).filter inIdx).length)⟩ ∧
      (∀ i, i < 8 → inIdx i = false → b'.toNat.testBit i = b.toNat.testBit i) ∧
      ((List.range 8).filter inIdx).map b'.toNat.testBit
        = (bits8 (v % 256).toNat).take ((List.range 8).filter inIdx).length := by
  have hlen : ((List.range' 0 8).filter inIdx).length ≤ (bits8 (v % 256).toNat).length := by
    refine Nat.le_trans (List.length_filter_le _ _) ?_
    simp [bits8]
  by_cases hall : (List.range 8).all inIdx = true
  · obtain ⟨d', e1, e2, e3, e4, e5⟩ := bitsSetLoop_range' inIdx 0 8 0 0 _ (by simp) hlen
    have hd : d' < 256 := by simpa using e2
    refine ⟨UInt8.ofNat d', ?_, ?_, ?_⟩
    · simp only [bitSliceSet, hall, if_true, PyM.bind_run, PyM.pure_run, PyM.ofExcept_run]
      rw [List.range_eq_range', e1]
      simp only [PyM.warnAll_run, byteOf_lt hd]
      simp
    · intro i hi hf
      rw [List.all_eq_true] at hall
      have := hall i (by simpa using hi)
      simp [this] at hf
    · rw [UInt8.toNat_ofNat_of_lt' (by simpa using hd), List.range_eq_range']
      exact e5
  · obtain ⟨d', e1, e2, e3, e4, e5⟩ := bitsSetLoop_range' inIdx b.toNat 8 0 0 _ (by simp) hlen
    have hd : d' < 256 := by simpa using e2
    refine ⟨UInt8.ofNat d', ?_, ?_, ?_⟩
    · simp only [bitSliceSet, hall, Bool.false_eq_true, if_false, PyM.bind_run, PyM.ofExcept_run,
        byte0, Except.map]
      rw [List.range_eq_range', e1]
      simp only [PyM.warnAll_run, byteOf_lt hd]
      simp
    · intro i hi hf
      rw [UInt8.toNat_ofNat_of_lt' (by simpa using hd)]
      exact e4 i (by omega) (by omega) hf
    · rw [UInt8.toNat_ofNat_of_lt' (by simpa using hd), List.range_eq_range']
      exact e5

theorem bitSliceGet_spec (inIdx : Nat → Bool) (b : UInt8) (h : (List.range 8).filter inIdx ≠ []) :
    bitSliceGet inIdx [b] = .ok (ofBits (((List.range 8).filter inIdx).map b.toNat.testBit) : Nat) := by
  simp only [bitSliceGet, byte0, bitsGetLoop_bits8]
  rw [if_neg]
  simpa using h

/-! ### Sections and views -/

theorem sectionSet_run {α : Type} (c : Conv α) (l : Option Nat) (v : α) (b : Buf) :
    sectionSet c l v b = match setRaw c l b.bytes v () with
      | ⟨.error e, _, w⟩ => ⟨.error e, b, w⟩
      | ⟨.ok x, _, w⟩ => ⟨.ok (), ⟨false, x⟩, w⟩ := by
  simp only [sectionSet, PyM.bind_run, PyM.lift_run, PyM.get_run, List.nil_append]
  rcases setRaw c l b.bytes v () with ⟨r, u, w⟩
  cases r <;> simp

theorem setRaw_ok {α : Type} {c : Conv α} {l : Option Nat} {cur : Bytes} {v : α} {x : Bytes}
    {w : List Warn} (h : c.set v l cur () = ⟨.ok x, (), w⟩) :
    setRaw c l cur v () = ⟨(fitWidth l x ()).res, (), w ++ (fitWidth l x ()).warns⟩ := by
  unfold setRaw
  rw [PyM.bind_ok h]

theorem fitWidth_eq {n : Nat} {x : Bytes} (h : x.length = n) :
    fitWidth (some n) x () = ⟨.ok x, (), []⟩ := by
  simp only [fitWidth]
  rw [if_neg (by omega)]
  simp [ljust_of_le (Nat.le_of_eq h.symm)]

theorem fitWidth_some (n : Nat) (x : Bytes) :
    fitWidth (some n) x () =
      ⟨.ok (ljust n (x.take n)), (), if x.length > n then [.tooWide] else []⟩ := by
  simp only [fitWidth]
  split
  · simp [PyM.bind_run]
  · rw [List.take_of_length_le (by omega)]; simp

end Verif
