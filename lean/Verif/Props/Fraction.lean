import Verif.Proofs.FractionLoad

/-! Property theorems C21 and C78-C83: fractions and multiples of π. -/

namespace Verif

open Spec

/-! ### C21 -/

/-- C21. A fraction with denominator at most 10000 and absolute value below `10^6` (the claim asks
for `10^5`) is read back exactly after it was loaded into a fraction entry. The subtype and the graph
bit (the low seven bits of the first byte) are kept. -/
theorem C21_fraction (f : ℚ) (hq : f.den ≤ 10000) (hv : |f| < 1000000) (b0 : UInt8) (rest : Bytes)
    (hl : rest.length = 8) :
    ∃ b', loadFraction f ⟨true, b0 :: rest⟩ = ⟨.ok (), ⟨true, b'⟩, []⟩ ∧ b'.length = 9 ∧
      realFraction ⟨true, b'⟩ = .ok f ∧ (b'.headD 0).toNat % 128 = b0.toNat % 128 := by
  have e6 : (10 : ℚ) ^ (6 : Int) = 1000000 := by
    rw [show (6 : Int) = ((6 : Nat) : Int) from rfl, zpow_natCast]; norm_num
  obtain ⟨b', c, e, h1, h2, h3, h4, h5⟩ := storeFraction f hq 6 (by omega) (by rw [e6]; exact hv) b0 rest hl
  refine ⟨b', h1, h2, realFraction_near h3 hq (h4.trans_eq ?_), h5⟩
  rw [show ((6 : Int) - 14) = -((8 : Nat) : Int) by norm_num, zpow_neg, zpow_natCast]; norm_num

/-- The bound of C21 cannot be raised: a fraction just above `10^6` is read back as another one. -/
theorem C21_sharp : ∃ f : ℚ, f.den ≤ 10000 ∧ |f| < 1000001 ∧ ∃ b',
    loadFraction f ⟨true, [0x18, 0, 0, 0, 0, 0, 0, 0, 0]⟩ = ⟨.ok (), ⟨true, b'⟩, []⟩ ∧
      realFraction ⟨true, b'⟩ ≠ .ok f := by
  refine ⟨mkRat 9999000001 9999, by decide +kernel, ?_,
    [0x18, 0x86, 0x10, 0x00, 0x00, 0x00, 0x00, 0x10, 0x00], by decide +kernel, by decide +kernel⟩
  rw [show mkRat 9999000001 9999 = 9999000001 / 9999 by rw [Rat.mkRat_eq_div]; norm_num, abs_of_pos (by norm_num)]
  norm_num

/-- `-22/7` is stored as `-3.1428571428571` and read back. -/
example : loadFraction (-22 / 7) ⟨true, [0x18, 0, 0, 0, 0, 0, 0, 0, 0]⟩ =
      ⟨.ok (), ⟨true, [0x98, 0x80, 0x31, 0x42, 0x85, 0x71, 0x42, 0x85, 0x71]⟩, []⟩ ∧
    realFraction ⟨true, [0x98, 0x80, 0x31, 0x42, 0x85, 0x71, 0x42, 0x85, 0x71]⟩ = .ok (-22 / 7) := by
  decide +kernel

/-! ### C78 -/

/-- C78. Loading any fraction rounds it to 14 significant digits, to the nearest, ties to even. If the
rounded number is zero or its exponent fits it is stored, the subtype and the graph bit being kept;
otherwise `OverflowError` is raised. -/
theorem C78_rounding (f : ℚ) (b0 : UInt8) (rest : Bytes) (hl : rest.length = 8) :
    ∃ x : ℚ, Rounds 14 f x ∧
      ((x = 0 ∨ InExponentRange |x|) → ∃ b' c e,
        loadFraction f ⟨true, b0 :: rest⟩ = ⟨.ok (), ⟨true, b'⟩, []⟩ ∧ b'.length = 9 ∧
        realDecimal ⟨true, b'⟩ = .ok (c, e) ∧ (c : ℚ) * 10 ^ e = x ∧
        (b'.headD 0).toNat % 128 = b0.toNat % 128) ∧
      (x ≠ 0 → ¬ InExponentRange |x| → (loadFraction f ⟨true, b0 :: rest⟩).res = .error .overflowError) := by
  obtain ⟨hr, hc⟩ := fractionDec_rounds f
  refine ⟨_, hr, fun h => ?_, fun h0 h => ?_⟩
  · exact loadDec hc h b0 rest hl
  · have habs := decLit_abs (decDiv 14 (decOfInt f.num) (decOfInt f.den))
    have hv := decLit_valid (decDiv 14 (decOfInt f.num) (decOfInt f.den))
    refine (C15_load_decimal _ hv (decLit_noLeading _) _
      (by rw [← decLit_render]; exact squash_render _ hv) b0 rest hl).2.2 ?_ ?_
    · rw [← habs]; exact fun h => h0 (abs_eq_zero.mp h)
    · rw [← habs]; exact h

/-- `2/3` rounds up, `10^13 + 1/2` rounds to the even `10^13`. -/
example : loadFraction (2 / 3) ⟨true, [0x18, 0, 0, 0, 0, 0, 0, 0, 0]⟩ =
      ⟨.ok (), ⟨true, [0x18, 0x7F, 0x66, 0x66, 0x66, 0x66, 0x66, 0x66, 0x67]⟩, []⟩ ∧
    loadFraction (20000000000001 / 2) ⟨true, [0x18, 0, 0, 0, 0, 0, 0, 0, 0]⟩ =
      ⟨.ok (), ⟨true, [0x18, 0x8D, 0x10, 0, 0, 0, 0, 0, 0]⟩, []⟩ ∧
    (loadFraction (10 ^ 128) ⟨true, [0x18, 0, 0, 0, 0, 0, 0, 0, 0]⟩).res = .error .overflowError := by
  decide +kernel

/-! ### C79 -/

/-- C79, decimal text: what is loaded is the fraction the literal denotes, so that C78 applies to its
exact value. -/
theorem C79_text (l : Literal) (hv : l.Valid) (hf : FractionLiteral l) (s : Str) (hs : squash s = l.render) (b : Buf) :
    fractionLoadString s b = loadFraction l.value b := by
  unfold fractionLoadString
  rw [PyM.bind_ok (PyM.ofExcept_run _ _ |>.trans (by rw [hs, parseFraction_literal hv hf]))]
  rfl

/-- C79, a ratio of two integers. -/
theorem C79_ratio (sg : Sign) (hs : sg ≠ .tilde) (p q : Str) (hp : Digits p) (hp0 : p ≠ []) (hq : Digits q)
    (hq0 : digitsValue q ≠ 0) (s : Str) (hsq : squash s = sg.str ++ (p ++ '/' :: q)) (b : Buf) :
    fractionLoadString s b =
      loadFraction ((if sg.isNeg then -1 else 1) * ((digitsValue p : ℚ) / digitsValue q)) b := by
  have hqne : q ≠ [] := by rintro rfl; exact hq0 rfl
  unfold fractionLoadString
  rw [digitsValue_eq] at hq0
  rw [PyM.bind_ok (PyM.ofExcept_run _ _ |>.trans (by rw [hsq, parseFraction_ratio hs hp hp0 hq hq0 hqne])),
    digitsValue_eq, digitsValue_eq]
  rfl

/-- C79, a ratio with denominator zero is refused. -/
theorem C79_zero (sg : Sign) (hs : sg ≠ .tilde) (p q : Str) (hp : Digits p) (hp0 : p ≠ []) (hq : Digits q) (hq0 : q ≠ [])
    (hz : digitsValue q = 0) (s : Str) (hsq : squash s = sg.str ++ (p ++ '/' :: q)) (b : Buf) :
    fractionLoadString s b = ⟨.error .zeroDivisionError, b, []⟩ := by
  unfold fractionLoadString
  rw [digitsValue_eq] at hz
  rw [PyM.bind_error (PyM.ofExcept_run _ _ |>.trans (by rw [hsq, parseFraction_ratio_zero hs hp hp0 hq hz hq0]))]

example : fractionLoadString "3/0".toList ⟨true, [0x18, 0, 0, 0, 0, 0, 0, 0, 0]⟩ =
    ⟨.error .zeroDivisionError, ⟨true, [0x18, 0, 0, 0, 0, 0, 0, 0, 0]⟩, []⟩ := by decide +kernel

/-- C79, decimals. -/
theorem C79_decimal (d : PyDec) (b : Buf) : fractionLoadDecimal d b = loadFraction d.value b := by
  unfold fractionLoadDecimal fractionLoadString
  rw [PyM.bind_ok (PyM.ofExcept_run _ _ |>.trans (by rw [parseFraction_dec]))]
  rfl

/-- C79, floats: a finite float `± m * 2^q` is loaded as its exact value, so that it is rounded and not
truncated as by `TIReal` (C18). -/
theorem C79_float (neg : Bool) (m : Nat) (q : Int) (b : Buf) :
    fractionLoadFloat neg m q b = loadFraction ((if neg then -1 else 1) * ((m : ℚ) * 2 ^ q)) b := by
  unfold fractionLoadFloat
  rw [C79_decimal, decOfFloat_value]

/-- The float `1.23`, which `TIReal` stores as `1.2299999999999`. -/
example : fractionLoadFloat false 2769713770832855 (-51) ⟨true, [0x18, 0, 0, 0, 0, 0, 0, 0, 0]⟩ =
      ⟨.ok (), ⟨true, [0x18, 0x80, 0x12, 0x30, 0, 0, 0, 0, 0]⟩, []⟩ ∧
    fractionLoadString " - 3/ 4".toList ⟨true, [0x18, 0, 0, 0, 0, 0, 0, 0, 0]⟩ =
      ⟨.ok (), ⟨true, [0x98, 0x7F, 0x75, 0, 0, 0, 0, 0, 0]⟩, []⟩ ∧
    fractionLoadString "1.5e2".toList ⟨true, [0x18, 0, 0, 0, 0, 0, 0, 0, 0]⟩ =
      ⟨.ok (), ⟨true, [0x18, 0x82, 0x15, 0, 0, 0, 0, 0, 0]⟩, []⟩ := by
  decide +kernel

/-! ### C80 -/

/-- C80. The text of a fraction entry below `10^6` loads into any fraction entry as the same fraction. -/
theorem C80_text_roundtrip (b : Buf) (f : ℚ) (hf : realFraction b = .ok f) (hv : |f| < 1000000) (b0 : UInt8)
    (rest : Bytes) (hl : rest.length = 8) :
    ∃ s b', fractionStr b = .ok s ∧ fractionLoadString s ⟨true, b0 :: rest⟩ = ⟨.ok (), ⟨true, b'⟩, []⟩ ∧
      realFraction ⟨true, b'⟩ = .ok f ∧ fractionStr ⟨true, b'⟩ = .ok s := by
  have hq := realFraction_den hf
  obtain ⟨b', h1, -, h3, -⟩ := C21_fraction f hq hv b0 rest hl
  refine ⟨fracStr f, b', by unfold fractionStr; rw [hf], ?_, h3, by unfold fractionStr; rw [h3]⟩
  unfold fractionLoadString
  rw [PyM.bind_ok (PyM.ofExcept_run _ _ |>.trans (by rw [parseFraction_str]))]
  exact h1

example : fractionStr ⟨true, [0x98, 0x80, 0x31, 0x42, 0x85, 0x71, 0x42, 0x85, 0x71]⟩ = .ok "-22/7".toList := by
  decide +kernel

/-! ### C81 -/

/-- C81. A fraction with denominator at most 10000 and absolute value below `10^5` loaded into an entry
for fractional multiples of π is read back exactly, although reading multiplies by π, rounds to 14 digits
and divides by π again. -/
theorem C81_pi_fraction (f : ℚ) (hq : f.den ≤ 10000) (hv : |f| < 100000) (b0 : UInt8) (rest : Bytes)
    (hl : rest.length = 8) :
    ∃ b', loadFraction f ⟨true, b0 :: rest⟩ = ⟨.ok (), ⟨true, b'⟩, []⟩ ∧ b'.length = 9 ∧
      piFraction ⟨true, b'⟩ = .ok f ∧ (b'.headD 0).toNat % 128 = b0.toNat % 128 := by
  have e5 : (10 : ℚ) ^ (5 : Int) = 100000 := by
    rw [show (5 : Int) = ((5 : Nat) : Int) from rfl, zpow_natCast]; norm_num
  obtain ⟨b', c, e, h1, h2, h3, h4, h5⟩ := storeFraction f hq 5 (by omega) (by rw [e5]; exact hv) b0 rest hl
  refine ⟨b', h1, h2, piFraction_near h3 hq hv (h4.trans_eq ?_), h5⟩
  rw [show ((5 : Int) - 14) = -((9 : Nat) : Int) by norm_num, zpow_neg, zpow_natCast]; norm_num

/-- The bound of C81 is needed: `1191831132/9913`, a little above `10^5`, is read back as another fraction,
although an ordinary fraction entry keeps it. -/
theorem C81_sharp : ∃ f : ℚ, f.den ≤ 10000 ∧ |f| < 120230 ∧ ∃ b',
    loadFraction f ⟨true, [0x21, 0, 0, 0, 0, 0, 0, 0, 0]⟩ = ⟨.ok (), ⟨true, b'⟩, []⟩ ∧
      realFraction ⟨true, b'⟩ = .ok f ∧ piFraction ⟨true, b'⟩ ≠ .ok f := by
  refine ⟨mkRat 1191831132 9913, by decide +kernel, ?_,
    [0x21, 0x85, 0x12, 0x02, 0x29, 0x10, 0x64, 0x25, 0x91], by decide +kernel, by decide +kernel, by decide +kernel⟩
  rw [show mkRat 1191831132 9913 = 1191831132 / 9913 by rw [Rat.mkRat_eq_div]; norm_num, abs_of_pos (by norm_num)]
  norm_num

example : loadFraction (-3 / 4) ⟨true, [0x21, 0, 0, 0, 0, 0, 0, 0, 0]⟩ =
      ⟨.ok (), ⟨true, [0xA1, 0x7F, 0x75, 0, 0, 0, 0, 0, 0]⟩, []⟩ ∧
    piFraction ⟨true, [0xA1, 0x7F, 0x75, 0, 0, 0, 0, 0, 0]⟩ = .ok (-3 / 4) := by
  decide +kernel

/-! ### C82 -/

/-- C82 is false: the entry for `3π` prints as `3`, which cannot be loaded. -/
theorem C82_pi_text_false :
    ¬ ∀ (b : Bytes) (f : ℚ) (s : Str), b.length = 9 → piFraction ⟨true, b⟩ = .ok f → |f| < 100000 →
      piFractionStr ⟨true, b⟩ = .ok s → (piFractionLoadString s ⟨true, b⟩).res = .ok () := by
  intro h
  have := h [0x21, 0x80, 0x30, 0, 0, 0, 0, 0, 0] 3 ['3'] rfl (by decide +kernel)
    (by rw [abs_of_pos (by norm_num)]; norm_num) (by decide +kernel)
  revert this
  decide +kernel

/-- C82, the part that holds: the text of an entry whose fraction is not a whole number, or is zero, loads
back as the same fraction. Missing: whole multiples of π, where the code is wrong. -/
theorem C82_pi_text_partial (b : Buf) (f : ℚ) (hf : piFraction b = .ok f) (hv : |f| < 100000)
    (hw : f.den ≠ 1 ∨ f = 0) (b0 : UInt8) (rest : Bytes) (hl : rest.length = 8) :
    ∃ s b', piFractionStr b = .ok s ∧ piFractionLoadString s ⟨true, b0 :: rest⟩ = ⟨.ok (), ⟨true, b'⟩, []⟩ ∧
      piFraction ⟨true, b'⟩ = .ok f ∧ piFractionStr ⟨true, b'⟩ = .ok s := by
  have hq := piFraction_den hf
  obtain ⟨b', h1, -, h3, -⟩ := C81_pi_fraction f hq hv b0 rest hl
  refine ⟨replaceStr ['/'] ['π', '/'] (fracStr f), b', by unfold piFractionStr; rw [hf], ?_, h3,
    by unfold piFractionStr; rw [h3]⟩
  obtain ⟨g1, g2⟩ := piText f hw
  unfold piFractionLoadString
  rw [if_neg g1, g2]
  unfold fractionLoadString
  rw [PyM.bind_ok (PyM.ofExcept_run _ _ |>.trans (by rw [parseFraction_str]))]
  exact h1

example : piFractionStr ⟨true, [0xA1, 0x7F, 0x75, 0, 0, 0, 0, 0, 0]⟩ = .ok "-3π/4".toList ∧
    piFractionLoadString "-3π/4".toList ⟨true, [0x21, 0x80, 0, 0, 0, 0, 0, 0, 0]⟩ =
      ⟨.ok (), ⟨true, [0xA1, 0x7F, 0x75, 0, 0, 0, 0, 0, 0]⟩, []⟩ := by
  decide +kernel

/-! ### C83 -/

/-- C83 is false: a bare `π` is loaded as zero times π. -/
theorem C83_pi_false :
    ¬ ∀ b : Bytes, b.length = 9 → piLoadString ['π'] ⟨true, b⟩ = realLoadString ['1'] ⟨true, b⟩ := by
  intro h
  have := h [0x20, 0x80, 0, 0, 0, 0, 0, 0, 0] rfl
  revert this
  decide +kernel

/-- C83, the part that holds: a decimal literal followed by `π`, `pi`, `*π` or `*pi` is loaded as the text of
the literal alone is loaded into an ordinary number, and text with neither `π` nor `p` raises `ValueError`.
Missing: `π`, `+π` and `-π` should mean one, while the empty text and a lone sign are loaded as zero. -/
theorem C83_pi_partial (s : Str) (b : Buf) :
    (∀ l : Literal, l.Valid → s = l.render →
      ∀ u, u = "π".toList ∨ u = "pi".toList ∨ u = "*π".toList ∨ u = "*pi".toList →
        piLoadString (s ++ u) b = realLoadString s b) ∧
    ('π' ∉ s → 'p' ∉ s → piLoadString s b = ⟨.error .valueError, b, []⟩) := by
  constructor
  · rintro l hv rfl u hu
    obtain ⟨h1, h2, h3⟩ := render_not_mem l hv
    have key : replaceStr ['*'] [] (replaceStr ['p', 'i'] ['π'] (l.render ++ u)) = l.render ++ ['π'] := by
      rcases hu with rfl | rfl | rfl | rfl
      · rw [replaceStr_not_mem 'p' ['i'] _ _ (by rw [List.mem_append, not_or]; exact ⟨h2, by decide⟩),
          replaceStr_not_mem '*' [] _ _ (by rw [List.mem_append, not_or]; exact ⟨h3, by decide⟩)]
        rfl
      · have := replaceStr_once 'p' ['i'] ['π'] l.render [] h2 (by simp)
        rw [List.append_nil, List.append_nil] at this
        rw [show "pi".toList = ['p', 'i'] by decide, this,
          replaceStr_not_mem '*' [] _ _ (by rw [List.mem_append, not_or]; exact ⟨h3, by decide⟩)]
      · rw [replaceStr_not_mem 'p' ['i'] _ _ (by rw [List.mem_append, not_or]; exact ⟨h2, by decide⟩)]
        have := replaceStr_once '*' [] [] l.render ['π'] h3 (by decide)
        rw [List.append_nil, List.append_assoc] at this
        exact this
      · have := replaceStr_once 'p' ['i'] ['π'] (l.render ++ ['*']) []
          (by rw [List.mem_append, not_or]; exact ⟨h2, by decide⟩) (by simp)
        rw [List.append_nil, List.append_nil, List.append_assoc] at this
        rw [show "*pi".toList = ['*'] ++ ['p', 'i'] by decide, this]
        have := replaceStr_once '*' [] [] l.render ['π'] h3 (by decide)
        rw [List.append_nil] at this
        exact this
    unfold piLoadString
    simp only [key]
    rw [if_pos (by simp), strip_pi _ h1]
  · intro h1 h2
    unfold piLoadString
    simp only
    rw [replaceStr_not_mem 'p' ['i'] _ _ h2, replaceStr_single, if_neg]
    · rfl
    · rw [List.mem_flatMap]
      rintro ⟨c, hc, hm⟩
      by_cases hs : c = '*'
      · simp [hs] at hm
      · simp only [if_neg hs, List.mem_singleton] at hm
        exact h1 (hm ▸ hc)

example : piLoadString "-1.5*pi".toList ⟨true, [0x20, 0x80, 0, 0, 0, 0, 0, 0, 0]⟩ =
      ⟨.ok (), ⟨true, [0xA0, 0x80, 0x15, 0, 0, 0, 0, 0, 0]⟩, []⟩ ∧
    piLoadString "1.5".toList ⟨true, [0x20, 0x80, 0, 0, 0, 0, 0, 0, 0]⟩ =
      ⟨.error .valueError, ⟨true, [0x20, 0x80, 0, 0, 0, 0, 0, 0, 0]⟩, []⟩ := by decide +kernel

end Verif
