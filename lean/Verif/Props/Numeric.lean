import Verif.Proofs.Numeric
import Verif.Proofs.Str
import Verif.Proofs.Data
import Mathlib.Tactic.NormNum

/-! Property theorems about the BCD converters (C11, C12, C14). -/

namespace Verif
open Spec

/-! ### C11 – packed BCD -/

/-- C11. A `w`-byte BCD section or view (numeric.py:52-88, data.py:409-420). -/
theorem C11_bcd_field (w : Nat) (v : Int) (b : Buf) :
    (0 ≤ v ∧ v < (100 ^ w : Nat) →
      ∃ d : Bytes, sectionSet bcdConv (some w) v b = ⟨.ok (), ⟨false, d⟩, []⟩ ∧
        d.length = w ∧ AllDigits d ∧ sectionGet bcdConv ⟨false, d⟩ = .ok v) ∧
    (¬ (0 ≤ v ∧ v < (100 ^ w : Nat)) →
      sectionSet bcdConv (some w) v b = ⟨.error .overflowError, b, []⟩) := by
  constructor
  · rintro ⟨h0, h1⟩
    refine ⟨(toLE w (hexOfDec v.toNat)).reverse, ?_, by simp, ?_, ?_⟩
    · have hs : bcdConv.set v (some w) b.bytes () = ⟨.ok (toLE w (hexOfDec v.toNat)).reverse, (), []⟩ := by
        simp only [bcdConv, PyM.ofExcept_run, bcdSet_ok h0 h1]
      rw [sectionSet_run, setRaw_ok hs, fitWidth_eq (by simp)]
      rfl
    · rw [allDigits_reverse]; exact allDigits_toLE _ _
    · have h2 : v.toNat < 100 ^ w := by omega
      simp only [sectionGet, bcdConv, wrapIndexError, bcdGet_set h2]
      congr 1; omega
  · intro h
    have hs : bcdConv.set v (some w) b.bytes () = ⟨.error .overflowError, (), []⟩ := by
      simp only [bcdConv, PyM.ofExcept_run, bcdSet_error h]
    rw [sectionSet_run]
    unfold setRaw
    rw [PyM.bind_error hs]

/-- C11. Reading is the decimal value of the nibbles, and bytes made of decimal digits survive
being read and written again. -/
theorem C11_bcd_readback (d : Bytes) (b : Buf) :
    sectionGet bcdConv ⟨b.mutable, d⟩ = .ok (decimalValue (nibbles d) : Nat) ∧
    (AllDigits d →
      sectionSet bcdConv (some d.length) (decimalValue (nibbles d) : Nat) b = ⟨.ok (), ⟨false, d⟩, []⟩) := by
  refine ⟨by simp only [sectionGet, bcdConv, wrapIndexError, bcdGet_spec], ?_⟩
  intro hd
  have hd' : AllDigits d.reverse := (allDigits_reverse d).mpr hd
  have hval : bcdLE d.reverse = bcdGet d := by rw [← bcdGet_reverse, List.reverse_reverse]
  have hlt : bcdGet d < 100 ^ d.length := by
    rw [← hval]; simpa using bcdLE_lt hd'
  have hs : bcdConv.set (decimalValue (nibbles d) : Nat) (some d.length) b.bytes () = ⟨.ok d, (), []⟩ := by
    simp only [bcdConv, PyM.ofExcept_run]
    rw [← bcdGet_spec, bcdSet_ok (by omega) (by exact_mod_cast hlt)]
    have := toLE_bcdLE hd'
    simp only [List.length_reverse, hval] at this
    simp [this]
  rw [sectionSet_run, setRaw_ok hs, fitWidth_eq rfl]
  rfl

example : sectionSet bcdConv (some 7) 31415926535897 ⟨true, []⟩ =
    ⟨.ok (), ⟨false, [0x31, 0x41, 0x59, 0x26, 0x53, 0x58, 0x97]⟩, []⟩ := by decide +kernel
example : (sectionSet bcdConv (some 7) 100000000000000 ⟨true, []⟩).res = .error .overflowError := by
  decide +kernel
example : AllDigits [0x31, 0x41] ∧ ¬ AllDigits [0x3A] := by
  constructor
  · rw [allDigits_iff]; decide
  · rw [allDigits_iff]; decide

/-! ### C12 – nibble-aligned BCD -/

/-- C12 is false of the code for the left-aligned view: writing 1234 over the sign nibble
succeeds, and turns the neighbouring nibble `1` into `2` (numeric.py:118-131). -/
theorem C12_nibble_overflow_false :
    ¬ ∀ (v : Int) (c0 c1 : UInt8) (len : Option Nat), 999 < v →
        ∃ e, leftNibbleConv.set v len [c0, c1] () = ⟨.error e, (), []⟩ := by
  intro h
  obtain ⟨e, he⟩ := h 1234 0x10 0x00 none (by omega)
  have : leftNibbleConv.set 1234 none [0x10, 0x00] () = ⟨.ok [0x22, 0x34], (), []⟩ := by decide +kernel
  rw [this] at he
  simp at he

theorem C12_left_nibble_partial (v : Int) (c0 c1 : UInt8) (len : Option Nat) (h0 : 0 ≤ v) (h1 : v ≤ 999) :
    ∃ d0 d1 : UInt8, leftNibbleConv.set v len [c0, c1] () = ⟨.ok [d0, d1], (), []⟩ ∧
      leftNibbleConv.get [d0, d1] = .ok v ∧ d0.toNat / 16 = c0.toNat / 16 := by
  have hc : c0.toNat < 256 := c0.toNat_lt
  refine ⟨_, _, leftNibble_set h0 h1, ?_, ?_⟩
  · obtain ⟨n, rfl⟩ := Int.eq_ofNat_of_zero_le h0
    simp only [Int.toNat_natCast]
    have e1 : (UInt8.ofNat (c0.toNat / 16 * 16 + n / 100)).toNat % 16 = n / 100 := by
      rw [UInt8.toNat_ofNat']; omega
    have e2 : (UInt8.ofNat (16 * (n / 10 % 10) + n % 10)).toNat = 16 * (n / 10 % 10) + n % 10 := by
      rw [UInt8.toNat_ofNat']; omega
    rw [leftNibble_get, e1, e2]
    congr 2
    have e3 : (16 * (n / 10 % 10) + n % 10) / 16 = n / 10 % 10 := by omega
    have e4 : (16 * (n / 10 % 10) + n % 10) % 16 = n % 10 := by omega
    rw [e3, e4]; omega
  · rw [UInt8.toNat_ofNat']; omega

/-- C12 for the right-aligned view: three digits round-trip and keep the low nibble of the second
byte; anything else is rejected with an exception. -/
theorem C12_right_nibble (v : Int) (c0 c1 : UInt8) (len : Option Nat) :
    (0 ≤ v ∧ v ≤ 999 →
      ∃ d0 d1 : UInt8, rightNibbleConv.set v len [c0, c1] () = ⟨.ok [d0, d1], (), []⟩ ∧
        rightNibbleConv.get [d0, d1] = .ok v ∧ d1.toNat % 16 = c1.toNat % 16) ∧
    (¬ (0 ≤ v ∧ v ≤ 999) →
      rightNibbleConv.set v len [c0, c1] () = ⟨.error .overflowError, (), []⟩) := by
  have hc : c1.toNat < 256 := c1.toNat_lt
  constructor
  · rintro ⟨h0, h1⟩
    refine ⟨_, _, rightNibble_set h0 h1, ?_, ?_⟩
    · obtain ⟨n, rfl⟩ := Int.eq_ofNat_of_zero_le h0
      simp only [Int.toNat_natCast]
      have e1 : (UInt8.ofNat (16 * (n / 100) + n / 10 % 10)).toNat = 16 * (n / 100) + n / 10 % 10 := by
        rw [UInt8.toNat_ofNat']; omega
      have e2 : (UInt8.ofNat (16 * (n % 10) + c1.toNat % 16)).toNat = 16 * (n % 10) + c1.toNat % 16 := by
        rw [UInt8.toNat_ofNat']; omega
      rw [rightNibble_get, e1, e2]
      congr 2
      have e3 : (16 * (n / 100) + n / 10 % 10) / 16 = n / 100 := by omega
      have e4 : (16 * (n / 100) + n / 10 % 10) % 16 = n / 10 % 10 := by omega
      have e5 : (16 * (n % 10) + c1.toNat % 16) / 16 = n % 10 := by omega
      rw [e3, e4, e5]; omega
    · rw [UInt8.toNat_ofNat']; omega
  · intro h
    have : intToBytesBE (hexOfDecInt (10 * v)) 2 = .error .overflowError := by
      have hr := hexOfDecInt_range (10 * v) 2
      rw [intToBytesBE, if_pos]
      apply hr.mpr
      intro hh
      apply h
      have : ((100 ^ 2 : Nat) : Int) = 10000 := by norm_num
      omega
    simp only [rightNibbleConv, this, PyM.ofExcept_run]

/-- C12, values rejected by the left-aligned view: negative ones and those above 9999. -/
theorem C12_left_nibble_reject_partial (v : Int) (c0 c1 : UInt8) (len : Option Nat)
    (h : v < 0 ∨ 9999 < v) :
    leftNibbleConv.set v len [c0, c1] () = ⟨.error .overflowError, (), []⟩ := by
  have : intToBytesBE (hexOfDecInt v) 2 = .error .overflowError := by
    have hr := hexOfDecInt_range v 2
    rw [intToBytesBE, if_pos]
    apply hr.mpr
    intro hh
    have : ((100 ^ 2 : Nat) : Int) = 10000 := by norm_num
    omega
  simp only [leftNibbleConv, this, PyM.ofExcept_run]

example : leftNibbleConv.set 123 none [0x30, 0x00] () = ⟨.ok [0x31, 0x23], (), []⟩ ∧
    rightNibbleConv.set 456 none [0x00, 0x07] () = ⟨.ok [0x45, 0x67], (), []⟩ := by decide +kernel

/-! ### C14 – dates and revisions -/

/-- C14 is false of the code for oversized components: month 100 of day 1 is stored as day 2,
month 0 (flash.py:58-66). -/
theorem C14_date_false :
    ¬ ∀ (day month year : Int), 0 ≤ day → 0 ≤ month → 0 ≤ year →
      ∀ d ws, bcdDateConv.set (day, month, year) (some 4) [] () = ⟨.ok d, (), ws⟩ →
        bcdDateConv.get d = .ok (day, month, year) := by
  intro h
  have := h 1 100 2020 (by omega) (by omega) (by omega) [0x02, 0x00, 0x20, 0x20] [] (by decide +kernel)
  revert this
  decide +kernel

/-- A byte holding the last two decimal digits of `n` contributes those digits. -/
theorem bcdStep_hex (a n : Nat) : bcdStep a (UInt8.ofNat (hexOfDec n)) = a * 100 + n % 100 := by
  rw [bcdStep, ofNat_hex_toNat]; omega

theorem bcdGet_bytes4 (d0 d1 d2 d3 : UInt8) :
    bcdDateConv.get [d0, d1, d2, d3] = .ok (bcdGet [d0], bcdGet [d1], bcdGet [d2, d3]) := rfl

theorem toLE_four (n : Nat) : (toLE 4 (hexOfDec n)).reverse =
    [UInt8.ofNat (hexOfDec (n / 1000000)), UInt8.ofNat (hexOfDec (n / 10000)),
      UInt8.ofNat (hexOfDec (n / 100)), UInt8.ofNat (hexOfDec n)] := by
  simp only [toLE, hexOfDec_div, Nat.div_div_eq_div_mul, List.reverse_cons, List.reverse_nil,
    List.nil_append, List.cons_append]

theorem dateGet_toLE (n : Nat) : sectionGet bcdDateConv ⟨false, (toLE 4 (hexOfDec n)).reverse⟩ =
    .ok (((n / 1000000 % 100 : Nat) : Int), ((n / 10000 % 100 : Nat) : Int), ((n % 10000 : Nat) : Int)) := by
  rw [toLE_four]
  simp only [sectionGet, bcdGet_bytes4, wrapIndexError, bcdGet, List.foldl_cons, List.foldl_nil, bcdStep_hex]
  have f3 : (0 * 100 + n / 100 % 100) * 100 + n % 100 = n % 10000 := by omega
  rw [f3, Nat.zero_mul, Nat.zero_add, Nat.zero_add]

theorem dateSet_eq {x : Int × Int × Int} {n : Nat} (hx : x.1 * 100 ^ 3 + x.2.1 * 100 ^ 2 + x.2.2 = n)
    (hn : n < 100 ^ 4) (b : Buf) :
    sectionSet bcdDateConv (some 4) x b = ⟨.ok (), ⟨false, (toLE 4 (hexOfDec n)).reverse⟩, []⟩ := by
  have hs : bcdDateConv.set x (some 4) b.bytes () = ⟨.ok (toLE 4 (hexOfDec n)).reverse, (), []⟩ := by
    simp only [bcdDateConv, bcdConv, PyM.ofExcept_run, hx]
    rw [bcdSet_ok (by omega) (by omega), Int.toNat_natCast]
  rw [sectionSet_run, setRaw_ok hs, fitWidth_eq (by simp)]
  rfl

/-- C14. Dates within range round-trip, all four bytes are decimal digits. -/
theorem C14_date_partial (day month year : Nat) (hd : day < 100) (hm : month < 100) (hy : year < 10000)
    (b : Buf) :
    ∃ d : Bytes, sectionSet bcdDateConv (some 4) ((day : Int), (month : Int), (year : Int)) b
        = ⟨.ok (), ⟨false, d⟩, []⟩ ∧ d.length = 4 ∧ AllDigits d ∧
      sectionGet bcdDateConv ⟨false, d⟩ = .ok ((day : Int), (month : Int), (year : Int)) := by
  obtain ⟨n, hn⟩ : ∃ n, n = day * 1000000 + month * 10000 + year := ⟨_, rfl⟩
  have hv : ((day : Int) * 100 ^ 3 + (month : Int) * 100 ^ 2 + (year : Int)) = (n : Int) := by
    rw [hn]; push_cast; norm_num
  refine ⟨(toLE 4 (hexOfDec n)).reverse, dateSet_eq hv (by rw [hn]; norm_num; omega) b, by simp, ?_, ?_⟩
  · rw [allDigits_reverse]; exact allDigits_toLE _ _
  · rw [dateGet_toLE]
    have h1 : n / 1000000 % 100 = day := by omega
    have h2 : n / 10000 % 100 = month := by omega
    have h3 : n % 10000 = year := by omega
    rw [h1, h2, h3]

/-- C14. Revisions `major.minor` with both parts below 100 round-trip. -/
theorem C14_revision_partial (major minor : Nat) (h1 : major < 100) (h2 : minor < 100) (b : Buf) :
    ∃ d : Bytes, sectionSet bcdRevisionConv (some 2) (natRepr major ++ '.' :: natRepr minor) b
        = ⟨.ok (), ⟨false, d⟩, []⟩ ∧ d.length = 2 ∧ AllDigits d ∧
      sectionGet bcdRevisionConv ⟨false, d⟩ = .ok (natRepr major ++ '.' :: natRepr minor) := by
  have hdig : ∀ n, (natRepr n).all isDig = true := fun n => (natRepr_spec n).1
  have hsplit : splitChar '.' (natRepr major ++ '.' :: natRepr minor) = [natRepr major, natRepr minor] := by
    rw [splitChar_append (not_mem_of_digits (hdig _) (by decide)),
      splitChar_of_not_mem (not_mem_of_digits (hdig _) (by decide))]
  have hparse : ∀ n, parseInt (natRepr n) = .ok (n : Int) := fun n => by
    rw [parseInt_of_digits (hdig n) (natRepr_spec n).2.2, (natRepr_spec n).2.1]
  refine ⟨(toLE 2 (hexOfDec (100 * major + minor))).reverse, ?_, by simp, ?_, ?_⟩
  · have hs : bcdRevisionConv.set (natRepr major ++ '.' :: natRepr minor) (some 2) b.bytes ()
        = ⟨.ok (toLE 2 (hexOfDec (100 * major + minor))).reverse, (), []⟩ := by
      simp only [bcdRevisionConv, hsplit, hparse]
      rw [PyM.bind_ok (PyM.ofExcept_run _ _), PyM.bind_ok (PyM.ofExcept_run _ _)]
      simp only [bcdConv, PyM.ofExcept_run]
      rw [show (100 * (major : Int) + (minor : Int)) = ((100 * major + minor : Nat) : Int) by push_cast; rfl]
      rw [bcdSet_ok (by omega) (by norm_num; omega), Int.toNat_natCast]
      rfl
    rw [sectionSet_run, setRaw_ok hs, fitWidth_eq (by simp)]
    rfl
  · rw [allDigits_reverse]; exact allDigits_toLE _ _
  · have : (toLE 2 (hexOfDec (100 * major + minor))).reverse
        = [UInt8.ofNat (hexOfDec ((100 * major + minor) / 100)), UInt8.ofNat (hexOfDec (100 * major + minor))] := by
      simp only [toLE, hexOfDec_div, List.reverse_cons, List.reverse_nil, List.nil_append, List.cons_append]
    rw [this]
    simp only [sectionGet, bcdRevisionConv, wrapIndexError, List.take, List.drop, bcdGet, List.foldl_cons,
      List.foldl_nil, bcdStep, ofNat_hex_toNat]
    congr 2
    · congr 1; omega
    · congr 2; omega

/-- C14, revisions: what goes wrong outside the range (flash.py:90-101). -/
theorem C14_revision_false :
    ¬ ∀ (s : Str) (d : Bytes) (ws : List Warn), bcdRevisionConv.set s (some 2) [] () = ⟨.ok d, (), ws⟩ →
        bcdRevisionConv.get d = .ok s := by
  intro h
  have := h "1.150".toList [0x02, 0x50] [] (by decide +kernel)
  revert this
  decide +kernel

example : sectionSet bcdDateConv (some 4) (14, 3, 2024) ⟨true, []⟩ =
    ⟨.ok (), ⟨false, [0x14, 0x03, 0x20, 0x24]⟩, []⟩ := by decide +kernel

end Verif
