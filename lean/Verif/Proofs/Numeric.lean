import Verif.Model.Numeric
import Verif.Proofs.Data
import Verif.Proofs.Str
import Verif.Spec.Numeric

/-! Helper lemmas about BCD. -/

namespace Verif
open Spec

theorem hexOfDec_go_fuel (f g n : Nat) (hf : n ≤ f) (hg : n ≤ g) :
    hexOfDec.go f n = hexOfDec.go g n := by
  induction f generalizing g n with
  | zero =>
    obtain rfl : n = 0 := by omega
    cases g <;> simp [hexOfDec.go]
  | succ f ih =>
    cases g with
    | zero =>
      obtain rfl : n = 0 := by omega
      simp [hexOfDec.go]
    | succ g =>
      simp only [hexOfDec.go]
      split
      · rfl
      · rw [ih g (n / 10) (by omega) (by omega)]

theorem hexOfDec_lt10 {n : Nat} (h : n < 10) : hexOfDec n = n := by
  cases n with
  | zero => rfl
  | succ n => simp [hexOfDec, hexOfDec.go, h]

theorem hexOfDec_step (n : Nat) : hexOfDec n = 16 * hexOfDec (n / 10) + n % 10 := by
  by_cases h : n < 10
  · rw [hexOfDec_lt10 h, Nat.div_eq_of_lt h, hexOfDec_lt10 (by omega)]; omega
  · cases n with
    | zero => simp at h
    | succ m =>
      simp only [hexOfDec]
      rw [hexOfDec.go, if_neg h, hexOfDec_go_fuel m ((m + 1) / 10) _ (by omega) (by omega)]

theorem hexOfDec_step2 (n : Nat) :
    hexOfDec n = 256 * hexOfDec (n / 100) + (16 * (n / 10 % 10) + n % 10) := by
  rw [hexOfDec_step n, hexOfDec_step (n / 10), Nat.div_div_eq_div_mul, show 10 * 10 = 100 from rfl]
  omega

theorem hexOfDec_div (n : Nat) : hexOfDec n / 256 = hexOfDec (n / 100) := by
  rw [hexOfDec_step2 n]; omega

theorem hexOfDec_mod (n : Nat) : hexOfDec n % 256 = 16 * (n / 10 % 10) + n % 10 := by
  rw [hexOfDec_step2 n]; omega

theorem hexOfDec_eq_zero (n : Nat) : hexOfDec n = 0 ↔ n = 0 := by
  induction n using Nat.strongRecOn with
  | _ n ih =>
    by_cases h : n < 10
    · rw [hexOfDec_lt10 h]
    · rw [hexOfDec_step]
      have := ih (n / 10) (by omega)
      constructor
      · intro h2
        have h3 : hexOfDec (n / 10) = 0 := by omega
        have := this.mp h3
        omega
      · intro h2; omega

theorem hexOfDec_lt (n l : Nat) : hexOfDec n < 256 ^ l ↔ n < 100 ^ l := by
  induction l generalizing n with
  | zero =>
    have := hexOfDec_eq_zero n
    simp only [Nat.pow_zero]
    omega
  | succ l ih =>
    rw [Nat.pow_succ, Nat.pow_succ, ← Nat.div_lt_iff_lt_mul (by omega), ← Nat.div_lt_iff_lt_mul (by omega),
      hexOfDec_div]
    exact ih _

/-- Little-endian BCD value. -/
def bcdLE : Bytes → Nat
  | [] => 0
  | b :: bs => 10 * (b.toNat / 16) + b.toNat % 16 + 100 * bcdLE bs

theorem bcdGet_reverse (d : Bytes) : bcdGet d.reverse = bcdLE d := by
  rw [bcdGet, List.foldl_reverse]
  induction d with
  | nil => rfl
  | cons b bs ih => rw [List.foldr_cons, ih, bcdStep, bcdLE]; omega

theorem bcdStep_foldl (d : Bytes) (a : Nat) :
    d.foldl bcdStep a = (nibbles d).foldl (fun acc x => 10 * acc + x) a := by
  induction d generalizing a with
  | nil => rfl
  | cons b bs ih =>
    simp only [List.foldl_cons, nibbles, ih]
    congr 1
    rw [bcdStep]; omega

theorem bcdGet_spec (d : Bytes) : bcdGet d = decimalValue (nibbles d) := bcdStep_foldl d 0

theorem nibbles_append (a b : Bytes) : nibbles (a ++ b) = nibbles a ++ nibbles b := by
  induction a with
  | nil => rfl
  | cons x xs ih => simp [nibbles, ih]

theorem allDigits_iff (d : Bytes) : AllDigits d ↔ ∀ b ∈ d, b.toNat / 16 < 10 ∧ b.toNat % 16 < 10 := by
  unfold AllDigits
  induction d with
  | nil => simp [nibbles]
  | cons b bs ih =>
    simp only [nibbles, List.mem_cons, forall_eq_or_imp]
    rw [ih]
    exact and_assoc.symm

theorem allDigits_reverse (d : Bytes) : AllDigits d.reverse ↔ AllDigits d := by
  simp [allDigits_iff]

theorem ofNat_hex_toNat (n : Nat) :
    (UInt8.ofNat (hexOfDec n)).toNat = 16 * (n / 10 % 10) + n % 10 := by
  rw [UInt8.toNat_ofNat', show (2 ^ 8 = 256) from rfl, hexOfDec_mod]

theorem bcdLE_toLE (l n : Nat) : bcdLE (toLE l (hexOfDec n)) = n % 100 ^ l := by
  induction l generalizing n with
  | zero => simp [toLE, bcdLE, Nat.mod_one]
  | succ l ih =>
    rw [toLE, bcdLE, ofNat_hex_toNat, hexOfDec_div, ih, Nat.pow_succ' (n := l), Nat.mod_mul]
    omega

theorem allDigits_toLE (l n : Nat) : AllDigits (toLE l (hexOfDec n)) := by
  rw [allDigits_iff]
  induction l generalizing n with
  | zero => simp [toLE]
  | succ l ih =>
    rw [toLE, hexOfDec_div]
    simp only [List.mem_cons, forall_eq_or_imp]
    refine ⟨?_, ih _⟩
    rw [ofNat_hex_toNat]; omega

theorem bcdLE_lt {d : Bytes} (h : AllDigits d) : bcdLE d < 100 ^ d.length := by
  rw [allDigits_iff] at h
  induction d with
  | nil => simp [bcdLE]
  | cons b bs ih =>
    simp only [List.mem_cons, forall_eq_or_imp] at h
    have := ih h.2
    rw [bcdLE, List.length_cons, Nat.pow_succ]
    omega

theorem toLE_bcdLE {d : Bytes} (h : AllDigits d) : toLE d.length (hexOfDec (bcdLE d)) = d := by
  rw [allDigits_iff] at h
  induction d with
  | nil => rfl
  | cons b bs ih =>
    simp only [List.mem_cons, forall_eq_or_imp] at h
    have hb := ih h.2
    rw [List.length_cons, toLE, hexOfDec_div]
    have e1 : bcdLE (b :: bs) / 100 = bcdLE bs := by rw [bcdLE]; omega
    have e2 : UInt8.ofNat (hexOfDec (bcdLE (b :: bs))) = b := by
      apply UInt8.toNat_inj.mp
      rw [ofNat_hex_toNat, bcdLE]
      omega
    rw [e1, hb, e2]

theorem hexOfDecInt_range (v : Int) (l : Nat) :
    (hexOfDecInt v < 0 ∨ ((256 ^ l : Nat) : Int) ≤ hexOfDecInt v) ↔ ¬ (0 ≤ v ∧ v < (100 ^ l : Nat)) := by
  unfold hexOfDecInt
  have h1 := hexOfDec_lt v.natAbs l
  have h2 := hexOfDec_eq_zero v.natAbs
  split <;> omega

theorem bcdSet_ok {v : Int} {l : Nat} (h0 : 0 ≤ v) (h1 : v < (100 ^ l : Nat)) :
    bcdSet v (some l) = .ok (toLE l (hexOfDec v.toNat)).reverse := by
  unfold bcdSet intToBytesBE
  rw [if_neg]
  · have : (hexOfDecInt v).toNat = hexOfDec v.toNat := by
      unfold hexOfDecInt
      rw [if_neg (by omega), show v.natAbs = v.toNat by omega]
      simp
    simp [this]
  · rw [Option.getD_some, hexOfDecInt_range]
    exact fun h => h ⟨h0, h1⟩

theorem bcdSet_error {v : Int} {l : Nat} (h : ¬ (0 ≤ v ∧ v < (100 ^ l : Nat))) :
    bcdSet v (some l) = .error .overflowError := by
  unfold bcdSet intToBytesBE
  rw [if_pos]
  rw [Option.getD_some, hexOfDecInt_range]
  exact h

theorem bcdGet_set {n l : Nat} (h : n < 100 ^ l) : bcdGet (toLE l (hexOfDec n)).reverse = n := by
  rw [bcdGet_reverse, bcdLE_toLE, Nat.mod_eq_of_lt h]

/-! ### Nibble-aligned BCD -/

theorem intToBytesBE_two {v : Int} (h0 : 0 ≤ v) (h1 : v < 10000) :
    intToBytesBE (hexOfDecInt v) 2 =
      .ok [UInt8.ofNat (hexOfDec (v.toNat / 100)), UInt8.ofNat (hexOfDec v.toNat)] := by
  have := bcdSet_ok (l := 2) h0 (by simpa using h1)
  rw [bcdSet, Option.getD_some] at this
  rw [this]
  simp [toLE, hexOfDec_div]

theorem leftNibble_set {v : Int} {c0 c1 : UInt8} {len : Option Nat} (h0 : 0 ≤ v) (h1 : v ≤ 999) :
    leftNibbleConv.set v len [c0, c1] () =
      ⟨.ok [UInt8.ofNat (c0.toNat / 16 * 16 + v.toNat / 100),
            UInt8.ofNat (16 * (v.toNat / 10 % 10) + v.toNat % 10)], (), []⟩ := by
  have hand : c0.toNat &&& 240 = c0.toNat / 16 * 16 := by
    have : ∀ n, n < 256 → n &&& 240 = n / 16 * 16 := by decide +kernel
    exact this _ c0.toNat_lt
  have hc : c0.toNat < 256 := c0.toNat_lt
  simp only [leftNibbleConv, PyM.ofExcept_run, intToBytesBE_two h0 (by omega : v < 10000), byte0, bumpByte,
    List.getElem?_cons_zero, hand]
  have e0 : (UInt8.ofNat (hexOfDec (v.toNat / 100))).toNat = v.toNat / 100 := by
    rw [ofNat_hex_toNat]; omega
  rw [e0, if_pos (by omega)]
  simp only [List.set_cons_zero]
  congr 3
  · rw [Nat.add_comm]
  · congr 1
    apply UInt8.toNat_inj.mp
    rw [ofNat_hex_toNat, UInt8.toNat_ofNat']
    omega

theorem leftNibble_get (d0 d1 : UInt8) :
    leftNibbleConv.get [d0, d1] =
      .ok ((100 * (d0.toNat % 16) + 10 * (d1.toNat / 16) + d1.toNat % 16 : Nat) : Int) := by
  simp only [leftNibbleConv, List.foldl_cons, List.foldl_nil, bcdStep]
  congr 2
  omega

theorem rightNibble_set {v : Int} {c0 c1 : UInt8} {len : Option Nat} (h0 : 0 ≤ v) (h1 : v ≤ 999) :
    rightNibbleConv.set v len [c0, c1] () =
      ⟨.ok [UInt8.ofNat (16 * (v.toNat / 100) + v.toNat / 10 % 10),
            UInt8.ofNat (16 * (v.toNat % 10) + c1.toNat % 16)], (), []⟩ := by
  have hc : c1.toNat < 256 := c1.toNat_lt
  have hv : (10 * v).toNat = 10 * v.toNat := by omega
  simp only [rightNibbleConv, PyM.ofExcept_run,
    intToBytesBE_two (v := 10 * v) (by omega) (by omega), bumpByte, hv,
    List.getElem?_cons_succ, List.getElem?_cons_zero]
  have e0 : (UInt8.ofNat (hexOfDec (10 * v.toNat))).toNat = 16 * (v.toNat % 10) := by
    rw [ofNat_hex_toNat]; omega
  rw [e0, if_pos (by omega)]
  simp only [List.set_cons_succ, List.set_cons_zero]
  congr 3
  apply UInt8.toNat_inj.mp
  rw [ofNat_hex_toNat, UInt8.toNat_ofNat', show 10 * v.toNat / 100 = v.toNat / 10 by omega,
    Nat.div_div_eq_div_mul, show 10 * 10 = 100 from rfl]
  have q1 : v.toNat / 100 ≤ 9 := by omega
  have q2 : v.toNat / 10 % 10 ≤ 9 := by omega
  generalize v.toNat / 100 = x at *
  generalize v.toNat / 10 % 10 = y at *
  omega

theorem rightNibble_get (d0 d1 : UInt8) :
    rightNibbleConv.get [d0, d1] =
      .ok ((100 * (d0.toNat / 16) + 10 * (d0.toNat % 16) + d1.toNat / 16 : Nat) : Int) := by
  simp only [rightNibbleConv, List.getLast?_cons_cons, List.getLast?_singleton, List.dropLast_cons_cons,
    List.dropLast_singleton, List.foldl_cons, List.foldl_nil, bcdStep]
  congr 2
  omega

end Verif
