import Verif.Proofs.DecStr
import Mathlib.Tactic.FieldSimp

/-! Property theorems C15-C20 and C66: loading and reading real numbers. -/

namespace Verif

open Spec

/-! ### C15 -/

/-- C15. Loading any decimal literal without redundant leading zeros into a nine-byte number:
* a literal of value zero is stored with a zero mantissa and the literal's sign;
* a literal in the exponent range is stored, normalised, as its value truncated toward zero to 14
  significant digits, with the literal's sign;
* any other literal raises `OverflowError`.
The subtype and graph bits (the low seven bits of the first byte) are kept. -/
theorem C15_load_decimal (l : Literal) (hv : l.Valid) (hz : l.NoLeadingZeros) (s : Str)
    (hs : squash s = l.render) (b0 : UInt8) (rest : Bytes) (hl : rest.length = 8) :
    (l.magnitude = 0 → ∃ b', realLoadString s ⟨true, b0 :: rest⟩ = ⟨.ok (), ⟨true, b'⟩, []⟩ ∧ b'.length = 9 ∧
      realDecimal ⟨true, b'⟩ = .ok (0, -13) ∧ signV.get ⟨true, b'⟩ = .ok (if l.sign.isNeg then 1 else 0) ∧
      (b'.headD 0).toNat % 128 = b0.toNat % 128) ∧
    (InExponentRange l.magnitude → ∃ b' m e,
      realLoadString s ⟨true, b0 :: rest⟩ = ⟨.ok (), ⟨true, b'⟩, []⟩ ∧ b'.length = 9 ∧
      Truncates14 l.magnitude m e ∧ realDecimal ⟨true, b'⟩ = .ok (l.sgn * m, e) ∧
      signV.get ⟨true, b'⟩ = .ok (if l.sign.isNeg then 1 else 0) ∧
      (b'.headD 0).toNat % 128 = b0.toNat % 128) ∧
    (l.magnitude ≠ 0 → ¬ InExponentRange l.magnitude →
      (realLoadString s ⟨true, b0 :: rest⟩).res = .error .overflowError) := by
  refine ⟨fun h0 => ?_, fun hr => ?_, fun h0 hr => ?_⟩
  · refine ⟨_, realLoad_zero hv hs h0 b0 rest hl, by simp, ?_, sign_realBytes _ _ _ _ _, head_realBytes _ _ _ _⟩
    rw [realDecimal_realBytes _ _ _ _ (by omega) (by omega)]; simp
  · have h0 : l.magnitude ≠ 0 := (lt_of_lt_of_le (ten_zpow_pos _) hr.1).ne'
    obtain ⟨M, e, ht, -⟩ := realParse_value l hv s hs hz h0
    obtain ⟨h1, h2⟩ := (truncates14_range ht).mp hr
    refine ⟨_, M, e, realLoad_value hv hs hz ht hr b0 rest hl, by simp, ht, ?_, sign_realBytes _ _ _ _ _,
      head_realBytes _ _ _ _⟩
    rw [realDecimal_realBytes _ _ _ _ (by omega) ht.2.1]
    rw [Literal.sgn]
    congr 2
    omega
  · obtain ⟨M, e, ht, hp⟩ := realParse_value l hv s hs hz h0
    match rest, hl with
    | b1 :: rest, hl =>
      rw [realLoadString_of_parse hp, realStore_overflow (by omega) (by have := ht.2.1; omega)
        (fun h => hr ((truncates14_range ht).mpr h)) b0 b1 rest (by simpa using hl)]

/-- The literal `-12.34567890123456789e-5`: sixteen fraction digits are cut. -/
example : realLoadString "-12.34567890123456789E-5".toList ⟨true, [0, 0, 0, 0, 0, 0, 0, 0, 0]⟩ =
    ⟨.ok (), ⟨true, [0x80, 0x7C, 0x12, 0x34, 0x56, 0x78, 0x90, 0x12, 0x34]⟩, []⟩ := by decide +kernel

example : let l : Literal := ⟨.tilde, "12".toList, some "34567890123456789".toList, some (.pE, .minus, "5".toList)⟩
    l.Valid ∧ l.NoLeadingZeros ∧ squash "~12 . 34567890123456789 |E-5".toList = l.render := by
  refine ⟨⟨?_, ?_, ?_⟩, Or.inr (by decide), by decide +kernel⟩
  · intro c hc; revert c; simp [IsDigit]
  · intro f hf; cases hf; intro c hc; revert c; simp [IsDigit]
  · intro m s x hx; cases hx
    exact ⟨by intro c hc; revert c; simp [IsDigit], by simp⟩

/-! ### C16 -/

/-- C16 is false of the code: `"01"` stores `0.1`. -/
theorem C16_leading_zeros_false :
    ¬ ∀ (l : Literal) (s s' : Str) (b : Bytes), l.Valid → b.length = 9 → s = l.render →
      s' = ({ l with int := '0' :: l.int } : Literal).render →
      realLoadString s' ⟨true, b⟩ = realLoadString s ⟨true, b⟩ := by
  intro h
  have := h ⟨.none, ['1'], none, none⟩ ['1'] ['0', '1'] [0, 0, 0, 0, 0, 0, 0, 0, 0]
    ⟨by intro c hc; revert c; simp [IsDigit], by simp, by simp⟩ rfl rfl rfl
  revert this
  decide +kernel

/-- C16, the part that holds: leading zeros are harmless when the integer part is zero, that is for
every literal of magnitude below one (and for zero). Missing: integer parts with a nonzero digit,
where the code is wrong. -/
theorem C16_leading_zeros_partial (l l' : Literal) (hv : l.Valid) (hv' : l'.Valid)
    (h0 : digitsValue l.int = 0) (k : Nat)
    (hl' : l' = { l with int := List.replicate k '0' ++ l.int }) (b0 : UInt8) (rest : Bytes) (hb : rest.length = 8)
    (hr : l.magnitude = 0 ∨ InExponentRange l.magnitude) :
    realLoadString l'.render ⟨true, b0 :: rest⟩ = realLoadString l.render ⟨true, b0 :: rest⟩ := by
  subst hl'
  have hc : ({ l with int := List.replicate k '0' ++ l.int } : Literal).magnitude = l.magnitude := by
    unfold Literal.magnitude
    congr 2
    rw [Literal.coeff, Literal.coeff, digitsValue_eq, digitsValue_eq, List.append_assoc, natVal_append,
      natVal_replicate_zero]
    simp [Literal.fracDigits]
  rcases hr with hm | hr
  · rw [realLoad_zero hv (squash_render l hv) hm b0 rest hb,
      realLoad_zero hv' (squash_render _ hv') (hc.trans hm) b0 rest hb]
  · have hz : l.NoLeadingZeros := Or.inl h0
    have hz' : ({ l with int := List.replicate k '0' ++ l.int } : Literal).NoLeadingZeros := by
      left
      rw [digitsValue_eq, natVal_append, natVal_replicate_zero]
      rw [digitsValue_eq] at h0
      simp [h0]
    have hm : l.magnitude ≠ 0 := (lt_of_lt_of_le (ten_zpow_pos _) hr.1).ne'
    obtain ⟨M, e, ht, -⟩ := realParse_value l hv _ (squash_render l hv) hz hm
    rw [realLoad_value hv (squash_render l hv) hz ht hr b0 rest hb,
      realLoad_value hv' (squash_render _ hv') hz' (hc ▸ ht) (hc ▸ hr) b0 rest hb]

example : realLoadString "000.05".toList ⟨true, [0, 0, 0, 0, 0, 0, 0, 0, 0]⟩
    = realLoadString ".05".toList ⟨true, [0, 0, 0, 0, 0, 0, 0, 0, 0]⟩ := by decide +kernel

/-! ### C17 -/

/-- C17, first half. Take a stored number (nine bytes, decimal mantissa digits, first digit nonzero)
and let `c * 10 ^ e` be the value `decimal()` reads. Loading any literal of that value, written
without redundant leading zeros, into the number stores the same nine bytes. -/
theorem C17_reload (b : Bytes) (hb : b.length = 9) (hd : AllDigits (b.drop 2)) (c e : Int)
    (hr : realDecimal ⟨true, b⟩ = .ok (c, e)) (hn : 10 ^ 13 ≤ c.natAbs)
    (l : Literal) (hv : l.Valid) (hz : l.NoLeadingZeros) (hval : l.value = (c : ℚ) * 10 ^ e)
    (s : Str) (hs : squash s = l.render) :
    realLoadString s ⟨true, b⟩ = ⟨.ok (), ⟨true, b⟩, []⟩ := by
  match b, hb with
  | b0 :: b1 :: rest, hb =>
    have hl : rest.length = 7 := by simpa using hb
    simp only [List.drop_succ_cons, List.drop_zero] at hd
    have hlt : bcdGet rest < 10 ^ 14 := by
      rw [← List.reverse_reverse rest, bcdGet_reverse]
      have := bcdLE_lt ((allDigits_reverse rest).mpr hd)
      rw [List.length_reverse, hl] at this
      exact lt_of_lt_of_eq this (by norm_num)
    have hback : (toLE 7 (hexOfDec (bcdGet rest))).reverse = rest := by
      have := toLE_bcdLE ((allDigits_reverse rest).mpr hd)
      rw [List.length_reverse, hl, ← bcdGet_reverse, List.reverse_reverse] at this
      rw [this, List.reverse_reverse]
    simp only [realDecimal, realSign, sign_get _ _ _ _ hl, exponent_get _ _ _ _ hl,
      mantissa_get _ _ _ _ hl, exceptOk_bind, Except.ok.injEq, Prod.mk.injEq] at hr
    obtain ⟨hc, he⟩ := hr
    have hb0 := b0.toNat_lt
    have hb1 := b1.toNat_lt
    have hdiv : b0.toNat / 128 = 0 ∨ b0.toNat / 128 = 1 := by omega
    generalize hm : bcdGet rest = m at *
    -- the sign and magnitude of the literal are those stored
    have hp := ten_zpow_pos e
    have hmag : 0 ≤ l.magnitude := by
      unfold Literal.magnitude; exact mul_nonneg (by positivity) (ten_zpow_pos _).le
    have hm13 : 10 ^ 13 ≤ m := by
      rcases hdiv with h | h <;> rw [h] at hc <;> simp at hc <;> omega
    have key : l.sign.isNeg = decide (b0.toNat / 128 = 1) ∧ l.magnitude = (m : ℚ) * 10 ^ e := by
      have hmpos : (0 : ℚ) < (m : ℚ) * 10 ^ e := by
        apply mul_pos _ hp
        have : 0 < m := by omega
        exact_mod_cast this
      rw [Literal.value, Literal.sgn] at hval
      rcases hdiv with h | h <;> rw [h] at hc <;> simp at hc <;> subst hc <;> rw [h] <;>
        cases hn : l.sign.isNeg <;> rw [hn] at hval <;> simp at hval ⊢ <;>
        first | exact hval | linarith
    have ht : Truncates14 l.magnitude m e := by
      refine ⟨hm13, hlt, key.2.ge, ?_⟩
      rw [key.2]; nlinarith
    have hrange : InExponentRange l.magnitude := (truncates14_range ht).mpr (by omega)
    rw [realLoad_value hv hs hz ht hrange b0 (b1 :: rest) (by simpa using hb), key.1]
    have e1 : UInt8.ofNat ((if decide (b0.toNat / 128 = 1) = true then 128 else 0) + b0.toNat % 128) = b0 := by
      apply UInt8.toNat_inj.mp
      rcases hdiv with h | h <;> rw [h] <;> simp <;> omega
    have e2 : UInt8.ofNat (e + 13 + 0x80).toNat = b1 := by
      apply UInt8.toNat_inj.mp
      rw [UInt8.toNat_ofNat_of_lt' (by show _ < 256; omega)]; omega
    rw [realBytes, e1, e2, hback]

/-- C17, first half, through `decimal()` and `load_decimal`: any decimal of the stored value. -/
theorem C17_reload_decimal (b : Bytes) (hb : b.length = 9) (hd : AllDigits (b.drop 2)) (c e : Int)
    (hr : realDecimal ⟨true, b⟩ = .ok (c, e)) (hn : 10 ^ 13 ≤ c.natAbs)
    (d : PyDec) (hval : d.value = (c : ℚ) * 10 ^ e) :
    realLoadDecimal d ⟨true, b⟩ = ⟨.ok (), ⟨true, b⟩, []⟩ :=
  C17_reload b hb hd c e hr hn (decLit d) (decLit_valid d) (decLit_noLeading d)
    ((decLit_value d).trans hval) (decStr d)
    (by rw [← decLit_render]; exact squash_render _ (decLit_valid d))

/-- C17, first half, zero: a stored zero reads as zero and reloading any literal of value zero
keeps all bytes but the sign bit. -/
theorem C17_reload_zero (b0 : UInt8) (c e : Int)
    (hr : realDecimal ⟨true, b0 :: 0x80 :: List.replicate 7 0⟩ = .ok (c, e))
    (l : Literal) (hv : l.Valid) (hval : l.value = (c : ℚ) * 10 ^ e) (s : Str) (hs : squash s = l.render) :
    c = 0 ∧ ∃ b0' : UInt8, b0'.toNat % 128 = b0.toNat % 128 ∧
      realLoadString s ⟨true, b0 :: 0x80 :: List.replicate 7 0⟩ =
        ⟨.ok (), ⟨true, b0' :: 0x80 :: List.replicate 7 0⟩, []⟩ := by
  have hl : (List.replicate 7 (0 : UInt8)).length = 7 := rfl
  simp only [realDecimal, realSign, sign_get _ _ _ _ hl, exponent_get _ _ _ _ hl,
    mantissa_get _ _ _ _ hl, exceptOk_bind, Except.ok.injEq, Prod.mk.injEq] at hr
  have hc : c = 0 := by
    have : bcdGet (List.replicate 7 0) = 0 := by decide +kernel
    rw [← hr.1, this]; simp
  refine ⟨hc, ?_⟩
  have hm : l.magnitude = 0 := by
    rw [Literal.value, hc] at hval
    simp only [Int.cast_zero, zero_mul, mul_eq_zero] at hval
    rcases hval with h | h
    · unfold Literal.sgn at h; split at h <;> simp at h
    · exact h
  rw [realLoad_zero hv hs hm b0 _ (by simp)]
  have e1 : (toLE 7 (hexOfDec 0)).reverse = List.replicate 7 0 := by decide +kernel
  refine ⟨UInt8.ofNat ((if l.sign.isNeg = true then 128 else 0) + b0.toNat % 128), ?_, ?_⟩
  · have := head_realBytes b0 l.sign.isNeg 0x80 0
    simpa [realBytes] using this
  · rw [realBytes, e1]; rfl

/-- C17, second half: a decimal with at most 14 significant digits and an exponent in range is
stored and read back exactly. -/
theorem C17_decimal_exact (d : PyDec) (n j : Nat) (hdig : d.coeff = n * 10 ^ j) (hn : n < 10 ^ 14)
    (hr : InExponentRange |d.value|) (b0 : UInt8) (rest : Bytes) (hl : rest.length = 8) :
    ∃ b' c e, realLoadDecimal d ⟨true, b0 :: rest⟩ = ⟨.ok (), ⟨true, b'⟩, []⟩ ∧
      realDecimal ⟨true, b'⟩ = .ok (c, e) ∧ (c : ℚ) * 10 ^ e = d.value := by
  have hv := decLit_valid d
  have hs : squash (decStr d) = (decLit d).render := by rw [← decLit_render]; exact squash_render _ hv
  have hmag : (decLit d).magnitude = (n : ℚ) * 10 ^ (d.exp + j) := by
    rw [Literal.magnitude, decLit_coeff, decLit_scale, hdig, ten_zpow_add]; push_cast; rw [zpow_natCast]; ring
  have habs : |d.value| = (decLit d).magnitude := by
    have h0 : 0 ≤ (decLit d).magnitude := by rw [hmag]; exact mul_nonneg (by positivity) (ten_zpow_pos _).le
    rw [← decLit_value, Literal.value, abs_mul, abs_of_nonneg h0]
    unfold Literal.sgn; split <;> simp
  rw [habs] at hr
  have h0 : (decLit d).magnitude ≠ 0 := (lt_of_lt_of_le (ten_zpow_pos _) hr.1).ne'
  obtain ⟨-, h, -⟩ := C15_load_decimal (decLit d) hv (decLit_noLeading d) (decStr d) hs b0 rest hl
  obtain ⟨b', m, e, h1, -, h3, h4, -, -⟩ := h hr
  refine ⟨b', _, e, h1, h4, ?_⟩
  -- a value with at most 14 digits is not changed by the truncation
  have hex : (decLit d).magnitude = (m : ℚ) * 10 ^ e := by
    obtain ⟨g1, g2, g3, g4⟩ := h3
    by_cases hje : e ≤ d.exp + j
    · -- the value is a multiple of 10 ^ e
      have : (decLit d).magnitude = ((n * 10 ^ (d.exp + j - e).toNat : Nat) : ℚ) * 10 ^ e := by
        rw [hmag, show d.exp + j = ((d.exp + j - e).toNat : Int) + e by omega, ten_zpow_add, zpow_natCast]
        push_cast
        rw [show (((d.exp + j - e).toNat : Int) + e - e).toNat = (d.exp + j - e).toNat by omega]
        ring
      rw [this] at g3 g4 ⊢
      have hp := ten_zpow_pos e
      have a := le_of_mul_le_mul_right g3 hp
      have b := lt_of_mul_lt_mul_right g4 hp.le
      have a' : m ≤ n * 10 ^ (d.exp + j - e).toNat := by exact_mod_cast a
      have b' : n * 10 ^ (d.exp + j - e).toNat < m + 1 := by exact_mod_cast b
      rw [show n * 10 ^ (d.exp + j - e).toNat = m by omega]
    · -- impossible: the value would be at least 10 ^ 14 * 10 ^ (d.exp + j)
      exfalso
      have l1 : (10 : ℚ) ^ (13 + e) ≤ (n : ℚ) * 10 ^ (d.exp + j) := by
        rw [← hmag]; exact (truncates14_bounds ⟨g1, g2, g3, g4⟩).1
      have l2 : (10 : ℚ) ^ (14 + (d.exp + j)) ≤ 10 ^ (13 + e) := ten_zpow_le.mpr (by omega)
      have l3 := le_trans l2 l1
      rw [ten_zpow_add] at l3
      have l4 := le_of_mul_le_mul_right l3 (ten_zpow_pos _)
      rw [show (14 : Int) = ((14 : Nat) : Int) from rfl, zpow_natCast] at l4
      have : 10 ^ 14 ≤ n := by exact_mod_cast l4
      omega
  rw [← decLit_value, Literal.value, hex]; push_cast; ring

example : realLoadDecimal ⟨true, 314159265358979, -14⟩ ⟨true, [0, 0, 0, 0, 0, 0, 0, 0, 0]⟩
    = ⟨.ok (), ⟨true, [0x80, 0x80, 0x31, 0x41, 0x59, 0x26, 0x53, 0x58, 0x97]⟩, []⟩ := by decide +kernel

/-- The hypotheses of `C17_decimal_exact` and `C17_reload` are met by `-1.5`. -/
example : InExponentRange |(⟨true, 15, -1⟩ : PyDec).value| ∧
    realDecimal ⟨true, [0x80, 0x80, 0x15, 0, 0, 0, 0, 0, 0]⟩ = .ok (-15000000000000, -13) ∧
    AllDigits ([0x80, 0x80, 0x15, 0, 0, 0, 0, 0, 0].drop 2) := by
  refine ⟨?_, by decide +kernel, by simp [AllDigits, nibbles]⟩
  have : |(⟨true, 15, -1⟩ : PyDec).value| = 3 / 2 := by
    simp [PyDec.value, abs_mul]; norm_num
  rw [this]
  constructor
  · calc (10 : ℚ) ^ (-128 : Int) ≤ 10 ^ (0 : Int) := ten_zpow_le.mpr (by omega)
      _ ≤ 3 / 2 := by norm_num
  · calc (3 / 2 : ℚ) < 10 ^ (1 : Int) := by norm_num
      _ ≤ 10 ^ (128 : Int) := ten_zpow_le.mpr (by omega)

/-! ### C18 -/

/-- A necessary condition for the decimal `v` to be converted to the (normal) double `f`: the
rounding error of round-to-nearest is at most `|f| / 2 ^ 53`. -/
def CouldRoundTo (v f : ℚ) : Prop := |v - f| ≤ |f| / 2 ^ 53

/-- C18 is false of the code: the float `1.23` (`2769713770832855 / 2 ^ 51`) is stored as
`1.2299999999999`, which does not read back as `1.23`. -/
theorem C18_load_float_false :
    ¬ ∀ (neg : Bool) (m : Nat) (q : Int) (b : Bytes), b.length = 9 → m % 2 = 1 → m < 2 ^ 53 →
      ∃ b' c e, realLoadFloat neg m q ⟨true, b⟩ = ⟨.ok (), ⟨true, b'⟩, []⟩ ∧
        realDecimal ⟨true, b'⟩ = .ok (c, e) ∧
        CouldRoundTo ((c : ℚ) * 10 ^ e) ((if neg then -1 else 1) * ((m : ℚ) * 2 ^ q)) := by
  intro h
  obtain ⟨b', c, e, h1, h2, h3⟩ := h false 2769713770832855 (-51) [0, 0, 0, 0, 0, 0, 0, 0, 0] rfl (by decide) (by decide)
  have h1' : realLoadFloat false 2769713770832855 (-51) ⟨true, [0, 0, 0, 0, 0, 0, 0, 0, 0]⟩
      = ⟨.ok (), ⟨true, [0, 0x80, 0x12, 0x29, 0x99, 0x99, 0x99, 0x99, 0x99]⟩, []⟩ := by decide +kernel
  rw [h1'] at h1
  have hb : [0, 0x80, 0x12, 0x29, 0x99, 0x99, 0x99, 0x99, 0x99] = b' := by
    injection h1 with _ h1 _; injection h1
  subst hb
  have h2' : realDecimal ⟨true, [0, 0x80, 0x12, 0x29, 0x99, 0x99, 0x99, 0x99, 0x99]⟩ = .ok (12299999999999, -13) := by
    decide +kernel
  rw [h2'] at h2
  injection h2 with h2
  injection h2 with hc he
  subst hc; subst he
  unfold CouldRoundTo at h3
  rw [show (-13 : Int) = -((13 : Nat) : Int) from rfl, zpow_neg, zpow_natCast,
    show (-51 : Int) = -((51 : Nat) : Int) from rfl, zpow_neg, zpow_natCast] at h3
  rw [abs_le] at h3
  have h4 := h3.1
  norm_num at h4

/-- C18, the part that holds: a float whose exact decimal expansion has at most 14 significant digits
(every integer below `10 ^ 14`, `0.5`, `0.125`, …) reads back exactly. Missing: every other float is
truncated instead of rounded, so its shortest decimal is not the one stored. -/
theorem C18_load_float_partial (neg : Bool) (m : Nat) (q : Int) (n : Nat) (j : Int)
    (hdig : (m : ℚ) * 2 ^ q = (n : ℚ) * 10 ^ j) (hn : n < 10 ^ 14)
    (hr : InExponentRange ((m : ℚ) * 2 ^ q)) (b0 : UInt8) (rest : Bytes) (hl : rest.length = 8) :
    ∃ b' c e, realLoadFloat neg m q ⟨true, b0 :: rest⟩ = ⟨.ok (), ⟨true, b'⟩, []⟩ ∧
      realDecimal ⟨true, b'⟩ = .ok (c, e) ∧ (c : ℚ) * 10 ^ e = (if neg then -1 else 1) * ((m : ℚ) * 2 ^ q) := by
  have hval : (decOfFloat neg m q).value = (if neg then -1 else 1) * ((m : ℚ) * 2 ^ q) := by
    unfold decOfFloat PyDec.value
    by_cases hq : 0 ≤ q
    · rw [if_pos hq]
      obtain ⟨k, rfl⟩ := Int.eq_ofNat_of_zero_le hq
      cases neg <;> simp
    · rw [if_neg hq]
      obtain ⟨k, hk⟩ := Int.eq_ofNat_of_zero_le (show 0 ≤ -q by omega)
      obtain rfl : q = -(k : Int) := by omega
      have e5 : ((5 : ℚ) ^ k) * (10 : ℚ) ^ (-(k : Int)) = 2 ^ (-(k : Int)) := by
        rw [zpow_neg, zpow_neg, zpow_natCast, zpow_natCast,
          show (10 : ℚ) = 5 * 2 by norm_num, mul_pow]
        field_simp
      simp only [hk, Int.toNat_natCast]
      push_cast
      rw [mul_assoc (m : ℚ), e5]
  have hpos : 0 < (m : ℚ) * 2 ^ q := lt_of_lt_of_le (ten_zpow_pos _) hr.1
  have habs : |(decOfFloat neg m q).value| = (m : ℚ) * 2 ^ q := by
    rw [hval, abs_mul, abs_of_pos hpos]; cases neg <;> simp
  -- write the printed decimal as a short one
  have hv := decLit_valid (decOfFloat neg m q)
  have hs : squash (decStr (decOfFloat neg m q)) = (decLit (decOfFloat neg m q)).render := by
    rw [← decLit_render]; exact squash_render _ hv
  have hmag : (decLit (decOfFloat neg m q)).magnitude = (n : ℚ) * 10 ^ j := by
    have h0 : 0 ≤ (decLit (decOfFloat neg m q)).magnitude :=
      mul_nonneg (by positivity) (ten_zpow_pos _).le
    have : |(decLit (decOfFloat neg m q)).value| = (decLit (decOfFloat neg m q)).magnitude := by
      rw [Literal.value, abs_mul, abs_of_nonneg h0]
      unfold Literal.sgn; split <;> simp
    rw [← this, decLit_value, habs, hdig]
  -- the same number as the short decimal `n * 10 ^ j`
  have hd' : (decLit ⟨neg, n, j⟩).magnitude = (n : ℚ) * 10 ^ j := by
    rw [Literal.magnitude, decLit_coeff, decLit_scale]
  have hv' := decLit_valid ⟨neg, n, j⟩
  have hs' : squash (decStr ⟨neg, n, j⟩) = (decLit ⟨neg, n, j⟩).render := by
    rw [← decLit_render]; exact squash_render _ hv'
  have hval' : (⟨neg, n, j⟩ : PyDec).value = (if neg then -1 else 1) * ((m : ℚ) * 2 ^ q) := by
    rw [hdig, PyDec.value]; cases neg <;> simp
  rw [hdig] at hr
  obtain ⟨M, e, ht, -⟩ := realParse_value _ hv _ hs (decLit_noLeading _)
    (by rw [hmag, ← hdig]; exact hpos.ne')
  obtain ⟨b', c, e', h1, h2, h3⟩ := C17_decimal_exact ⟨neg, n, j⟩ n 0 (by simp) hn
    (by rw [hval', abs_mul, abs_of_pos hpos, hdig]; cases neg <;> simpa using hr) b0 rest hl
  refine ⟨b', c, e', ?_, h2, h3.trans hval'⟩
  rw [← h1, realLoadFloat, realLoadDecimal, realLoadDecimal,
    realLoad_value hv hs (decLit_noLeading _) ht (hmag ▸ hr) b0 rest hl,
    realLoad_value hv' hs' (decLit_noLeading _) (by rw [hd', ← hmag]; exact ht) (by rw [hd']; exact hr) b0 rest hl,
    decLit_sign, decLit_sign]
  have : (decOfFloat neg m q).neg = neg := by unfold decOfFloat; split <;> rfl
  rw [this]

example : realLoadFloat true 13 (-3) ⟨true, [0, 0, 0, 0, 0, 0, 0, 0, 0]⟩ =
    ⟨.ok (), ⟨true, [0x80, 0x80, 0x16, 0x25, 0, 0, 0, 0, 0]⟩, []⟩ := by decide +kernel

example : (13 : ℚ) * 2 ^ (-3 : Int) = 1625 * 10 ^ (-3 : Int) := by norm_num

/-! ### C19 -/

/-- C19 is false of the code: loading `"1e200"` raises after the mantissa was written. -/
theorem C19_failed_load_false :
    ¬ ∀ (s : Str) (b b' : Bytes) (e : PyErr) (w : List Warn), b.length = 9 →
      realLoadString s ⟨true, b⟩ = ⟨.error e, ⟨true, b'⟩, w⟩ → b' = b := by
  intro h
  have := h "1e200".toList [0, 0x80, 0, 0, 0, 0, 0, 0, 0] [0, 0x80, 0x10, 0, 0, 0, 0, 0, 0] .overflowError [] rfl
    (by decide +kernel)
  revert this
  decide +kernel

/-- C19, the part that holds: a load that fails for any reason other than a number out of range
(`OverflowError`) leaves the number unchanged. Missing: out-of-range exponents, where the mantissa has
already been overwritten. -/
theorem C19_failed_load_partial (s : Str) (b : Bytes) (b' : Buf) (e : PyErr) (w : List Warn) (hb : b.length = 9)
    (h : realLoadString s ⟨true, b⟩ = ⟨.error e, b', w⟩) (he : e ≠ .overflowError) : b' = ⟨true, b⟩ := by
  match b, hb with
  | b0 :: b1 :: rest, hb =>
    have hr : rest.length = 7 := by simpa using hb
    cases hp : realParse s with
    | error e' =>
      unfold realLoadString at h
      split at h
      · next hs => subst hs; rw [realParse_nil] at hp; cases hp
      · rw [PyM.bind_error (PyM.ofExcept_run _ _ |>.trans (by rw [hp]))] at h
        injection h with _ h _; exact h.symm
    | ok p =>
      obtain ⟨m, x, neg⟩ := p
      rw [realLoadString_of_parse hp] at h
      by_cases hm : 0 ≤ m ∧ m < 10 ^ 14
      · by_cases hx : 0 ≤ x ∧ x < 256
        · rw [realStore_ok hm.1 hm.2 hx.1 hx.2 b0 (b1 :: rest) (by simpa using hb)] at h
          injection h with h _ _; cases h
        · rw [realStore_overflow hm.1 hm.2 hx b0 b1 rest hr] at h
          injection h with h _ _; cases h; exact absurd rfl he
      · rw [realStore, PyM.bind_error (mantissa_put_error hm true _ hb)] at h
        injection h with h _ _; cases h; exact absurd rfl he

example : realLoadString "1.2.3".toList ⟨true, [0, 0x80, 0x15, 0, 0, 0, 0, 0, 0]⟩ =
    ⟨.error .valueError, ⟨true, [0, 0x80, 0x15, 0, 0, 0, 0, 0, 0]⟩, []⟩ := by decide +kernel

/-! ### C20 -/

/-- C20. Negating a number flips bit 7 of the first byte and nothing else, negating twice is the
identity, and the value read is negated. -/
theorem C20_negation (b0 : UInt8) (rest : Bytes) (hr : rest.length = 8) :
    ∃ b0' : UInt8, realNeg ⟨true, b0 :: rest⟩ = ⟨.ok (), ⟨true, b0' :: rest⟩, []⟩ ∧
      (∀ i, i < 7 → b0'.toNat.testBit i = b0.toNat.testBit i) ∧ b0'.toNat.testBit 7 = !b0.toNat.testBit 7 ∧
      realNeg ⟨true, b0' :: rest⟩ = ⟨.ok (), ⟨true, b0 :: rest⟩, []⟩ ∧
      ∀ c e, realDecimal ⟨true, b0 :: rest⟩ = .ok (c, e) → realDecimal ⟨true, b0' :: rest⟩ = .ok (-c, e) := by
  match rest, hr with
  | b1 :: rest, hr =>
    have hr : rest.length = 7 := by simpa using hr
    have step : ∀ a : UInt8, realNeg ⟨true, a :: b1 :: rest⟩ =
        ⟨.ok (), ⟨true, UInt8.ofNat ((if a.toNat / 128 = 0 then 128 else 0) + a.toNat % 128) :: b1 :: rest⟩, []⟩ := by
      intro a
      have ha := a.toNat_lt
      rw [realNeg, PyM.bind_ok (PyM.get_run _), PyM.bind_ok (PyM.ofExcept_run _ _ |>.trans (by rw [sign_get _ _ _ _ hr]))]
      have hs := sign_put (decide (a.toNat / 128 = 0)) a b1 rest hr
      have : (1 - ((a.toNat / 128 : Nat) : Int)) = if decide (a.toNat / 128 = 0) = true then 1 else 0 := by
        by_cases h : a.toNat / 128 = 0
        · simp [h]
        · have : a.toNat / 128 = 1 := by omega
          simp [this]
      rw [this, hs]
      simp
    have hb0 := b0.toNat_lt
    have hv : (UInt8.ofNat ((if b0.toNat / 128 = 0 then 128 else 0) + b0.toNat % 128)).toNat
        = (if b0.toNat / 128 = 0 then 128 else 0) + b0.toNat % 128 :=
      UInt8.toNat_ofNat_of_lt' (by show _ < 256; split <;> omega)
    refine ⟨_, step b0, ?_, ?_, ?_, ?_⟩
    · intro i hi
      rw [hv]
      have h1 : ∀ x : Nat, x.testBit i = (x % 128).testBit i := by
        intro x
        rw [show 128 = 2 ^ 7 from rfl, Nat.testBit_mod_two_pow]; simp [hi]
      rw [h1, h1 b0.toNat]; congr 1; split <;> omega
    · rw [hv]
      simp only [Nat.testBit, Nat.shiftRight_eq_div_pow]
      have : b0.toNat / 128 = 0 ∨ b0.toNat / 128 = 1 := by omega
      have e1 : b0.toNat % 128 / 128 = 0 := by omega
      have e2 : (128 + b0.toNat % 128) / 128 = 1 := by omega
      rcases this with h | h <;> simp [h, e1, e2]
    · rw [step, hv]
      congr 4
      apply UInt8.toNat_inj.mp
      have : b0.toNat / 128 = 0 ∨ b0.toNat / 128 = 1 := by omega
      rcases this with h | h
      · rw [if_pos h, if_neg (by omega), UInt8.toNat_ofNat_of_lt' (by show _ < 256; omega)]; omega
      · rw [if_neg (show ¬ b0.toNat / 128 = 0 by omega), if_pos (by omega),
          UInt8.toNat_ofNat_of_lt' (by show _ < 256; omega)]; omega
    · intro c e h
      simp only [realDecimal, realSign, sign_get _ _ _ _ hr, exponent_get _ _ _ _ hr,
        mantissa_get _ _ _ _ hr, exceptOk_bind, Except.ok.injEq, Prod.mk.injEq, hv] at h ⊢
      obtain ⟨h1, h2⟩ := h
      refine ⟨?_, h2⟩
      rw [← h1]
      have : b0.toNat / 128 = 0 ∨ b0.toNat / 128 = 1 := by omega
      rcases this with h | h
      · rw [h]
        have : (128 + b0.toNat % 128) / 128 = 1 := by omega
        simp [this]
      · rw [h]
        have : b0.toNat % 128 / 128 = 0 := by omega
        simp [this]

example : realNeg ⟨true, [0x58, 0x80, 0x15, 0, 0, 0, 0, 0, 0]⟩ =
    ⟨.ok (), ⟨true, [0xD8, 0x80, 0x15, 0, 0, 0, 0, 0, 0]⟩, []⟩ := by decide +kernel

/-! ### C66 -/

/-- C66. Loading any string into a real number terminates: the digit-shifting loop never exhausts the
iteration bound the model runs it with. -/
theorem C66_load_string_terminates (s : Str) (b : Bytes) (hb : b.length = 9) :
    (realLoadString s ⟨true, b⟩).res ≠ .error .recursionError := by
  match b, hb with
  | b0 :: b1 :: rest, hb =>
    have hr : rest.length = 7 := by simpa using hb
    cases hp : realParse s with
    | error e =>
      unfold realLoadString
      split
      · next hs => subst hs; rw [realParse_nil] at hp; cases hp
      · rw [PyM.bind_error (PyM.ofExcept_run _ _ |>.trans (by rw [hp]))]
        intro h; cases h; exact realParse_terminates s hp
    | ok p =>
      obtain ⟨m, x, neg⟩ := p
      rw [realLoadString_of_parse hp]
      by_cases hm : 0 ≤ m ∧ m < 10 ^ 14
      · by_cases hx : 0 ≤ x ∧ x < 256
        · rw [realStore_ok hm.1 hm.2 hx.1 hx.2 b0 (b1 :: rest) (by simpa using hb)]; simp
        · rw [realStore_overflow hm.1 hm.2 hx b0 b1 rest hr]; simp
      · rw [realStore, PyM.bind_error (mantissa_put_error hm true _ hb)]; simp

/-- The loop really iterates: many digits on either side of the point. -/
example : (realLoadString "123456789012345678.5".toList ⟨true, List.replicate 9 0⟩).res = .ok () ∧
    (realLoadString "0.000000000000000000005".toList ⟨true, List.replicate 9 0⟩).res = .ok () ∧
    (realLoadString "12a".toList ⟨true, List.replicate 9 0⟩).res = .error .valueError := by decide +kernel

end Verif
