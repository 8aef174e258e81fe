import Verif.Model.Real
import Verif.Proofs.Numeric
import Verif.Proofs.Data
import Verif.Proofs.Bytes
import Verif.Proofs.Str

/-! Helper lemmas for real numbers: contiguous bit fields and views over nine bytes. -/

namespace Verif

theorem testBit_mul_two_pow_add (a : Nat) {b i : Nat} (h : b < 2 ^ i) (j : Nat) :
    (a * 2 ^ i + b).testBit j = if j < i then b.testBit j else a.testBit (j - i) := by
  rw [Nat.mul_comm]; exact Nat.testBit_two_pow_mul_add a h j

theorem bitIdx_contig {lo hi i : Nat} (h2 : hi ≤ 8) (h1 : lo < hi) :
    bitIdx ⟨some lo, some hi, none⟩ i = decide (lo ≤ i ∧ i < hi) := by
  have e : Slice.indices ⟨some (lo : Int), some (hi : Int), none⟩ 8 = ((lo : Int), (hi : Int), (1 : Int)) := by
    simp only [Slice.indices, Option.getD_none]
    rw [if_neg (by omega), if_neg (by omega), if_neg (by omega)]
    ext <;> simp <;> omega
  rw [bitIdx, e]
  simp [inRange]

theorem filter_contig {lo hi : Nat} (h2 : hi ≤ 8) (h1 : lo < hi) :
    (List.range 8).filter (bitIdx ⟨some lo, some hi, none⟩) = List.range' lo (hi - lo) := by
  have : (List.range 8).filter (bitIdx ⟨some (lo : Int), some (hi : Int), none⟩)
      = (List.range 8).filter (fun i => decide (lo ≤ i ∧ i < hi)) := by
    apply List.filter_congr
    intro i _
    exact bitIdx_contig h2 h1
  rw [this]
  have key : ∀ hi, hi < 9 → ∀ lo, lo < hi →
      (List.range 8).filter (fun i => decide (lo ≤ i ∧ i < hi)) = List.range' lo (hi - lo) := by decide +kernel
  exact key hi (by omega) lo h1

/-- Reading a contiguous bit field. -/
theorem bits_contig_get {lo hi : Nat} (h1 : lo < hi) (h2 : hi ≤ 8) (c : UInt8) :
    (bitsConv ⟨some lo, some hi, none⟩).get [c] = .ok ((c.toNat / 2 ^ lo % 2 ^ (hi - lo) : Nat) : Int) := by
  have hne : (List.range 8).filter (bitIdx ⟨some (lo : Int), some (hi : Int), none⟩) ≠ [] := by
    rw [filter_contig h2 h1]
    intro h
    have := congrArg List.length h
    simp at this
    omega
  simp only [bitsConv]
  rw [bitSliceGet_spec _ _ hne, filter_contig h2 h1, ofBits_testBit_range']

/-- Writing a contiguous bit field with a value that fits. -/
theorem bits_contig_set {lo hi : Nat} (h1 : lo < hi) (h2 : hi ≤ 8) {v : Nat} (hv : v < 2 ^ (hi - lo))
    (c : UInt8) (len : Option Nat) :
    (bitsConv ⟨some lo, some hi, none⟩).set v len [c] () =
      ⟨.ok [UInt8.ofNat ((c.toNat / 2 ^ hi * 2 ^ (hi - lo) + v) * 2 ^ lo + c.toNat % 2 ^ lo)], (), []⟩ := by
  have hv8 : v < 256 := Nat.lt_of_lt_of_le hv (Nat.pow_le_pow_right (n := 2) (j := 8) (by omega) (by omega))
  have hc : c.toNat < 256 := c.toNat_lt
  obtain ⟨b', e1, e2, e3⟩ := bitSliceSet_spec (bitIdx ⟨some lo, some hi, none⟩) (v : Int) c
  rw [filter_contig h2 h1] at e1 e3
  rw [show ((v : Int) % 256).toNat = v by omega] at e1 e3
  rw [List.length_range', (leftover_bits8 hv8 (by omega)).mpr hv] at e1
  have hbit : ∀ i, lo ≤ i → i < hi → b'.toNat.testBit i = v.testBit (i - lo) := by
    intro i hlo hhi
    have := congrArg (fun l => l[i - lo]?) e3
    simp only [List.getElem?_map, List.length_range'] at this
    rw [List.getElem?_range' (by omega), List.getElem?_take_of_lt (by omega), bits8, List.getElem?_map,
      List.getElem?_range (by omega)] at this
    simp only [Option.map_some, Option.some.injEq] at this
    rw [show lo + 1 * (i - lo) = i by omega] at this
    exact this
  simp only [bitsConv]
  rw [e1]
  congr 3
  apply UInt8.toNat_inj.mp
  have hlt : (c.toNat / 2 ^ hi * 2 ^ (hi - lo) + v) * 2 ^ lo + c.toNat % 2 ^ lo < 256 := by
    have hp : 2 ^ (hi - lo) * 2 ^ lo = 2 ^ hi := by rw [← Nat.pow_add]; congr 1; omega
    have a1 : c.toNat % 2 ^ lo < 2 ^ lo := Nat.mod_lt _ (Nat.two_pow_pos _)
    have a2 : (c.toNat / 2 ^ hi * 2 ^ (hi - lo) + v) + 1 ≤ (c.toNat / 2 ^ hi + 1) * 2 ^ (hi - lo) := by
      rw [Nat.add_mul]; omega
    have a3 : (c.toNat / 2 ^ hi + 1) * 2 ^ hi ≤ 2 ^ 8 := by
      have h8 : 2 ^ (8 - hi) * 2 ^ hi = 2 ^ 8 := by rw [← Nat.pow_add]; congr 1; omega
      rw [← h8]
      apply Nat.mul_le_mul_right
      have : c.toNat / 2 ^ hi < 2 ^ (8 - hi) := by
        rw [Nat.div_lt_iff_lt_mul (Nat.two_pow_pos _), h8]; exact hc
      omega
    calc (c.toNat / 2 ^ hi * 2 ^ (hi - lo) + v) * 2 ^ lo + c.toNat % 2 ^ lo
        < (c.toNat / 2 ^ hi * 2 ^ (hi - lo) + v) * 2 ^ lo + 2 ^ lo := by omega
      _ = ((c.toNat / 2 ^ hi * 2 ^ (hi - lo) + v) + 1) * 2 ^ lo := by rw [Nat.add_mul _ 1, Nat.one_mul]
      _ ≤ (c.toNat / 2 ^ hi + 1) * 2 ^ (hi - lo) * 2 ^ lo := Nat.mul_le_mul_right _ a2
      _ = (c.toNat / 2 ^ hi + 1) * 2 ^ hi := by rw [Nat.mul_assoc, hp]
      _ ≤ 256 := a3
  rw [UInt8.toNat_ofNat_of_lt' hlt]
  apply Nat.eq_of_testBit_eq
  intro i
  rw [testBit_mul_two_pow_add _ (Nat.mod_lt _ (Nat.two_pow_pos _))]
  by_cases h8 : i < 8
  · by_cases hlo : i < lo
    · rw [if_pos hlo, e2 i h8 (by rw [bitIdx_contig h2 h1]; simp; omega), Nat.testBit_mod_two_pow]
      simp [hlo]
    · rw [if_neg hlo, testBit_mul_two_pow_add _ hv]
      by_cases hhi : i < hi
      · rw [if_pos (by omega), hbit i (by omega) hhi]
      · rw [if_neg (by omega), e2 i h8 (by rw [bitIdx_contig h2 h1]; simp; omega), Nat.testBit_div_two_pow]
        congr 1; omega
  · have z : ∀ x : Nat, x < 256 → x.testBit i = false := fun x hx =>
      Nat.testBit_lt_two_pow (Nat.lt_of_lt_of_le hx
          (Nat.pow_le_pow_right (n := 2) (i := 8) (by omega) (by omega)))
    rw [z _ b'.toNat_lt, if_neg (by omega), testBit_mul_two_pow_add _ hv, if_neg (by omega)]
    rw [Nat.testBit_div_two_pow]
    symm; apply Nat.testBit_lt_two_pow
    refine Nat.lt_of_lt_of_le hc (Nat.pow_le_pow_right (n := 2) (i := 8) (by omega) (by omega))

/-! ### Views over nine bytes -/

theorem realView_length {α : Type} (c : Conv α) {a b : Nat} (h1 : a ≤ b) (h2 : b ≤ 9) :
    (realView c a b).length = some (b - a) := by
  have e : Slice.indices ⟨some (a : Int), some (b : Int), none⟩ 9 = ((a : Int), (b : Int), (1 : Int)) := by
    simp only [Slice.indices, Option.getD_none]
    rw [if_neg (by omega), if_neg (by omega), if_neg (by omega)]
    ext <;> simp <;> omega
  simp only [realView, View.mk', viewLength, e, rangeLen]
  simp

theorem realView_get {α : Type} (c : Conv α) {a b : Nat} (h1 : a ≤ b) (h2 : b ≤ 9) {m : Bool} {d : Bytes}
    (hl : d.length = 9) :
    (realView c a b).get ⟨m, d⟩ = wrapIndexError (c.get ((d.drop a).take (b - a))) := by
  have : (realView c a b).slice = Slice.nat a b := rfl
  rw [View.get, this, getSlice_nat h1 (by simpa [hl] using h2)]
  rfl

theorem realView_put {α : Type} {c : Conv α} {a b : Nat} (h1 : a ≤ b) (h2 : b ≤ 9) {d x : Bytes} {v : α}
    {w : List Warn} (hl : d.length = 9)
    (h : c.set v (some (b - a)) ((d.drop a).take (b - a)) () = ⟨.ok x, (), w⟩) (hx : x.length = b - a) :
    (realView c a b).put v ⟨true, d⟩ = ⟨.ok (), ⟨true, d.take a ++ x ++ d.drop b⟩, w⟩ := by
  have hs : (realView c a b).slice = Slice.nat a b := rfl
  have hc : (realView c a b).conv = c := rfl
  have hset : setRaw c (some (b - a)) ((d.drop a).take (b - a)) v () = ⟨.ok x, (), w⟩ := by
    rw [setRaw_ok h, fitWidth_eq hx]; simp
  simp only [View.put, PyM.bind_run, PyM.get_run, PyM.lift_run, realView_length c h1 h2, hs, hc]
  rw [getSlice_nat h1 (by simpa [hl] using h2), hset]
  simp [setSlice_nat h1 (show b ≤ d.length by omega)]

theorem realView_put_error {α : Type} {c : Conv α} {a b : Nat} (h1 : a ≤ b) (h2 : b ≤ 9) {d : Bytes} {v : α}
    {e : PyErr} {w : List Warn} {m : Bool} (hl : d.length = 9)
    (h : c.set v (some (b - a)) ((d.drop a).take (b - a)) () = ⟨.error e, (), w⟩) :
    (realView c a b).put v ⟨m, d⟩ = ⟨.error e, ⟨m, d⟩, w⟩ := by
  have hs : (realView c a b).slice = Slice.nat a b := rfl
  have hc : (realView c a b).conv = c := rfl
  have hset : setRaw c (some (b - a)) ((d.drop a).take (b - a)) v () = ⟨.error e, (), w⟩ := by
    rw [setRaw, PyM.bind_error h]
  simp only [View.put, PyM.bind_run, PyM.get_run, PyM.lift_run, realView_length c h1 h2, hs, hc]
  rw [getSlice_nat h1 (by simpa [hl] using h2), hset]
  simp

/-! ### The fields of a float -/

/-- The nine bytes with given sign, exponent and mantissa, keeping the low seven bits of `b0`. -/
def realBytes (b0 : UInt8) (neg : Bool) (x m : Nat) : Bytes :=
  UInt8.ofNat ((if neg then 128 else 0) + b0.toNat % 128) :: UInt8.ofNat x :: (toLE 7 (hexOfDec m)).reverse

@[simp] theorem length_realBytes (b0 : UInt8) (neg : Bool) (x m : Nat) : (realBytes b0 neg x m).length = 9 := by
  simp [realBytes]

theorem mantissa_put {m : Int} (h0 : 0 ≤ m) (h1 : m < 10 ^ 14) (b0 b1 : UInt8) (rest : Bytes) (hr : rest.length = 7) :
    mantissaV.put m ⟨true, b0 :: b1 :: rest⟩ =
      ⟨.ok (), ⟨true, b0 :: b1 :: (toLE 7 (hexOfDec m.toNat)).reverse⟩, []⟩ := by
  have hs : bcdConv.set m (some (9 - 2)) (((b0 :: b1 :: rest).drop 2).take (9 - 2)) ()
      = ⟨.ok (toLE 7 (hexOfDec m.toNat)).reverse, (), []⟩ := by
    simp only [bcdConv, PyM.ofExcept_run]
    rw [show 9 - 2 = 7 from rfl, bcdSet_ok h0 (by
      have : ((100 ^ 7 : Nat) : Int) = 10 ^ 14 := by decide +kernel
      omega)]
  have h := realView_put (a := 2) (b := 9) (by omega) (by omega) (by simp [hr]) hs (by simp)
  refine h.trans ?_
  simp [hr]

theorem mantissa_put_error {m : Int} (h : ¬ (0 ≤ m ∧ m < 10 ^ 14)) (k : Bool) (d : Bytes) (hd : d.length = 9) :
    mantissaV.put m ⟨k, d⟩ = ⟨.error .overflowError, ⟨k, d⟩, []⟩ := by
  have hs : bcdConv.set m (some (9 - 2)) ((d.drop 2).take (9 - 2)) () = ⟨.error .overflowError, (), []⟩ := by
    simp only [bcdConv, PyM.ofExcept_run]
    rw [show 9 - 2 = 7 from rfl, bcdSet_error (by
      have : ((100 ^ 7 : Nat) : Int) = 10 ^ 14 := by decide +kernel
      omega)]
  exact realView_put_error (a := 2) (b := 9) (by omega) (by omega) hd hs

theorem exponent_put {x : Int} (h0 : 0 ≤ x) (h1 : x < 256) (b0 b1 : UInt8) (rest : Bytes) (hr : rest.length = 7) :
    exponentV.put x ⟨true, b0 :: b1 :: rest⟩ =
      ⟨.ok (), ⟨true, b0 :: UInt8.ofNat x.toNat :: rest⟩, []⟩ := by
  have hs : intConv.set x (some (2 - 1)) (((b0 :: b1 :: rest).drop 1).take (2 - 1)) ()
      = ⟨.ok [UInt8.ofNat x.toNat], (), []⟩ := by
    simp only [intConv, PyM.ofExcept_run, intToBytesLE, Option.getD_some]
    rw [if_neg (by
      have : ((256 ^ (2 - 1) : Nat) : Int) = 256 := by decide
      omega)]
    rfl
  exact realView_put (a := 1) (b := 2) (by omega) (by omega) (by simp [hr]) hs (by simp)

theorem exponent_put_error {x : Int} (h : ¬ (0 ≤ x ∧ x < 256)) (k : Bool) (d : Bytes) (hd : d.length = 9) :
    exponentV.put x ⟨k, d⟩ = ⟨.error .overflowError, ⟨k, d⟩, []⟩ := by
  have hs : intConv.set x (some (2 - 1)) ((d.drop 1).take (2 - 1)) () = ⟨.error .overflowError, (), []⟩ := by
    simp only [intConv, PyM.ofExcept_run, intToBytesLE, Option.getD_some]
    rw [if_pos (by
      have : ((256 ^ (2 - 1) : Nat) : Int) = 256 := by decide
      omega)]
  exact realView_put_error (a := 1) (b := 2) (by omega) (by omega) hd hs

theorem sign_put (s : Bool) (b0 b1 : UInt8) (rest : Bytes) (hr : rest.length = 7) :
    signV.put (if s then 1 else 0) ⟨true, b0 :: b1 :: rest⟩ =
      ⟨.ok (), ⟨true, UInt8.ofNat ((if s then 128 else 0) + b0.toNat % 128) :: b1 :: rest⟩, []⟩ := by
  have hs : (bitsConv ⟨some 7, some 8, none⟩).set (if s then 1 else 0) (some (1 - 0))
      (((b0 :: b1 :: rest).drop 0).take (1 - 0)) ()
      = ⟨.ok [UInt8.ofNat ((if s then 128 else 0) + b0.toNat % 128)], (), []⟩ := by
    have h := bits_contig_set (lo := 7) (hi := 8) (by omega) (by omega) (v := if s then 1 else 0)
      (by cases s <;> decide) b0 (some 1)
    have e : (b0.toNat / 2 ^ 8 * 2 ^ (8 - 7) + if s then 1 else 0) * 2 ^ 7 + b0.toNat % 2 ^ 7
        = (if s then 128 else 0) + b0.toNat % 128 := by
      have := b0.toNat_lt
      cases s <;> simp <;> omega
    rw [e] at h
    cases s <;> exact h
  exact realView_put (a := 0) (b := 1) (by omega) (by omega) (by simp [hr]) hs (by simp)

theorem sign_get (k : Bool) (b0 b1 : UInt8) (rest : Bytes) (hr : rest.length = 7) :
    signV.get ⟨k, b0 :: b1 :: rest⟩ = .ok ((b0.toNat / 128 : Nat) : Int) := by
  have h := realView_get (bitsConv ⟨some 7, some 8, none⟩) (a := 0) (b := 1) (m := k)
      (d := b0 :: b1 :: rest) (by omega) (by omega) (by simp [hr])
  refine h.trans ((congrArg wrapIndexError (bits_contig_get (lo := 7) (hi := 8) (by omega) (by omega) b0)).trans ?_)
  have : b0.toNat / 2 ^ 7 % 2 ^ (8 - 7) = b0.toNat / 128 := by have := b0.toNat_lt; omega
  rw [this]; rfl

theorem exponent_get (k : Bool) (b0 b1 : UInt8) (rest : Bytes) (hr : rest.length = 7) :
    exponentV.get ⟨k, b0 :: b1 :: rest⟩ = .ok ((b1.toNat : Nat) : Int) := by
  have h := realView_get intConv (a := 1) (b := 2) (m := k)
      (d := b0 :: b1 :: rest) (by omega) (by omega) (by simp [hr])
  refine h.trans ?_
  simp [intConv, wrapIndexError, fromLE]

theorem mantissa_get (k : Bool) (b0 b1 : UInt8) (rest : Bytes) (hr : rest.length = 7) :
    mantissaV.get ⟨k, b0 :: b1 :: rest⟩ = .ok ((bcdGet rest : Nat) : Int) := by
  have h := realView_get bcdConv (a := 2) (b := 9) (m := k)
      (d := b0 :: b1 :: rest) (by omega) (by omega) (by simp [hr])
  refine h.trans ?_
  simp [bcdConv, wrapIndexError, ← hr]

/-- Storing all three fields. -/
theorem realStore_ok {m x : Int} {neg : Bool} (hm0 : 0 ≤ m) (hm1 : m < 10 ^ 14) (hx0 : 0 ≤ x) (hx1 : x < 256)
    (b0 : UInt8) (rest : Bytes) (hr : rest.length = 8) :
    realStore m x neg ⟨true, b0 :: rest⟩ = ⟨.ok (), ⟨true, realBytes b0 neg x.toNat m.toNat⟩, []⟩ := by
  match rest, hr with
  | b1 :: rest, hr =>
    have hr : rest.length = 7 := by simpa using hr
    have hl : (toLE 7 (hexOfDec m.toNat)).reverse.length = 7 := by simp
    rw [realStore, PyM.bind_ok (mantissa_put hm0 hm1 b0 b1 rest hr),
      PyM.bind_ok (exponent_put hx0 hx1 b0 b1 _ hl), sign_put neg b0 _ _ hl]
    rfl

end Verif
