import Verif.Proofs.Hex

/-! C107: entries as hexadecimal text. -/

namespace Verif
open Spec

/-- C107: the text of an entry for a specification of an optional width, `x` or `X`, and an optional separator. Without
width and separator it is the digits of the bytes, in the case of the letter. Otherwise the bytes come in groups - of the
width, or of one byte when only a separator is given - with the separator between them, or a space when only a width is
given; for a positive width the first group is the one which may be smaller, for a negative one the last, and for zero all
bytes form one group. -/
theorem C107_hex (own : Str) (d : Bytes) (wt st : Str) (u : Bool) (n : Int) (sep : Char)
    (hw : wt = [] ∧ n = 1 ∨ WidthText wt n) (hl : wt.countP isDig ≤ 4300)
    (hs : st = [] ∧ sep = ' ' ∨ st = [sep] ∧ isDig sep = false)
    (hn : -2 ^ 31 ≤ n ∧ n < 2 ^ 31) (ha : sep.toNat < 128) :
    (wt = [] ∧ st = [] → formatHex own d (wt ++ hexLetter u :: st) = .ok (hexText u d)) ∧
    (¬(wt = [] ∧ st = []) → ∃ gs, Grouped n d gs ∧
      formatHex own d (wt ++ hexLetter u :: st) = .ok (joinWith (casedChar u sep) (gs.map (hexText u)))) := by
  have hs' : st = [] ∧ (if st = [] then none else some sep) = none ∨
      ∃ c, st = [c] ∧ (if st = [] then none else some sep) = some c ∧ isDig c = false := by
    rcases hs with ⟨rfl, -⟩ | ⟨rfl, h⟩
    · exact .inl ⟨rfl, rfl⟩
    · exact .inr ⟨sep, rfl, by simp, h⟩
  obtain ⟨gs, hg, hb⟩ := bytesHex_groups (d := d) (sep := sep) (n := n) (by omega) (by omega)
  have hcased : ∀ s : Str, (if u = true then upperAscii s else lowerAscii s) = cased u s := cased_eq u
  constructor
  · rintro ⟨rfl, rfl⟩
    unfold formatHex
    rw [List.nil_append, matchHex_plain u hs']
    show Except.ok (if u = true then _ else _) = _
    rw [hcased, cased_hexOf]
  · intro hne
    refine ⟨gs, hg, ?_⟩
    unfold formatHex
    rcases hw with ⟨rfl, rfl⟩ | hw
    · rcases hs with ⟨rfl, -⟩ | ⟨rfl, h⟩
      · exact absurd ⟨rfl, rfl⟩ hne
      · rw [List.nil_append, matchHex_plain u hs']
        show (bytesHex d sep 1).map _ = _
        rw [hb]
        show Except.ok (if u = true then _ else _) = _
        rw [hcased, cased_join]
    · obtain ⟨h1, h2⟩ := matchHex_width hw u hs'
      rw [h1]
      have h2 := widthInt_ok h2 hl
      have hbody : hexBody d ⟨some wt, u, if st = [] then none else some sep⟩ = bytesHex d sep n := by
        rcases hs with ⟨rfl, rfl⟩ | ⟨rfl, -⟩
        · simp [hexBody, h2]
        · simp [hexBody, h2]
      show (hexBody d _).map _ = _
      rw [hbody, hb]
      show Except.ok (if u = true then _ else _) = _
      rw [hcased, cased_join]

/-- Five bytes in groups of two, counted from the end; and from the start with another separator. -/
example : formatHex [] [0x12, 0xab, 0x34, 0xcd, 0x56] "2x".toList = .ok "12 ab34 cd56".toList ∧
    formatHex [] [0x12, 0xab, 0x34, 0xcd, 0x56] "-2X:".toList = .ok "12AB:34CD:56".toList ∧
    formatHex [] [0x12, 0xab, 0x34, 0xcd, 0x56] "x_".toList = .ok "12_ab_34_cd_56".toList ∧
    formatHex [] [0x12, 0xab, 0x34, 0xcd, 0x56] "X".toList = .ok "12AB34CD56".toList := by
  refine ⟨?_, ?_, ?_, ?_⟩ <;> decide +kernel

/-- C107: the bytes can be had from the text: removing the separator and reading pairs of digits gives them, whatever the
width, when the separator is not itself a hexadecimal digit. -/
theorem C107_back (own : Str) (d : Bytes) (wt st : Str) (u : Bool) (n : Int) (sep : Char)
    (hw : wt = [] ∧ n = 1 ∨ WidthText wt n) (hl : wt.countP isDig ≤ 4300)
    (hs : st = [] ∧ sep = ' ' ∨ st = [sep] ∧ isDig sep = false)
    (hn : -2 ^ 31 ≤ n ∧ n < 2 ^ 31) (ha : sep.toNat < 128) (hx : isHexDigit (casedChar u sep) = false) :
    ∃ t, formatHex own d (wt ++ hexLetter u :: st) = .ok t ∧ unhex (t.filter (· ≠ casedChar u sep)) = some d := by
  obtain ⟨h1, h2⟩ := C107_hex own d wt st u n sep hw hl hs hn ha
  by_cases h : wt = [] ∧ st = []
  · refine ⟨_, h1 h, ?_⟩
    have := filter_join hx u [d]
    simp only [List.map_cons, List.map_nil, joinWith, List.flatten_cons, List.flatten_nil, List.append_nil] at this
    rw [this, unhex_hexText]
  · obtain ⟨gs, hg, h3⟩ := h2 h
    refine ⟨_, h3, ?_⟩
    rw [filter_join hx, hg.1, unhex_hexText]

/-- A colon between pairs of bytes. -/
example : unhex ("12:ab34:cd56".toList.filter (· ≠ ':')) = some [0x12, 0xab, 0x34, 0xcd, 0x56] := by decide +kernel

/-- C107: `bytes.fromhex` reads the text as it is when it was formatted without a separator or with a blank one, and gives
the bytes. -/
theorem C107_fromhex (own : Str) (d : Bytes) (wt st : Str) (u : Bool) (n : Int) (sep : Char)
    (hw : wt = [] ∧ n = 1 ∨ WidthText wt n) (hl : wt.countP isDig ≤ 4300)
    (hs : st = [] ∧ sep = ' ' ∨ st = [sep])
    (hn : -2 ^ 31 ≤ n ∧ n < 2 ^ 31) (hb : sep ∈ [' ', '\t', '\n', '\r', '\x0b', '\x0c']) :
    ∃ t, formatHex own d (wt ++ hexLetter u :: st) = .ok t ∧ fromHex t = some d := by
  have hchar : ∀ c ∈ [' ', '\t', '\n', '\r', '\x0b', '\x0c'],
      isDig c = false ∧ c.toNat < 128 ∧ isAsciiSpace (casedChar u c) = true := by
    cases u <;> decide +kernel
  obtain ⟨c1, c2, c3⟩ := hchar sep hb
  obtain ⟨h1, h2⟩ := C107_hex own d wt st u n sep hw hl (hs.imp id fun h => ⟨h, c1⟩) hn c2
  by_cases h : wt = [] ∧ st = []
  · refine ⟨_, h1 h, ?_⟩
    have := fromHex_join c3 u [d]
    simpa [joinWith] using this
  · obtain ⟨gs, hg, h3⟩ := h2 h
    refine ⟨_, h3, ?_⟩
    rw [fromHex_join c3, hg.1]

/-- Read back from groups of two. -/
example : fromHex "12 ab34 cd56".toList = some [0x12, 0xab, 0x34, 0xcd, 0x56] := by decide +kernel

/-- C107: every other specification is refused with a `TypeError`, but the empty one, which gives Python's own text. -/
theorem C107_refused (own : Str) (d : Bytes) (spec : Str)
    (h : ¬ ∃ wt u st, spec = wt ++ hexLetter u :: st ∧ (wt = [] ∨ ∃ n, WidthText wt n) ∧
      (st = [] ∨ ∃ c, st = [c] ∧ isDig c = false)) :
    formatHex own d spec = if spec = [] then .ok own else .error .typeError := by
  unfold formatHex
  cases hm : matchHex spec with
  | none => rfl
  | some m => exact absurd (matchHex_some hm) h

/-- A sign without digits, two separators, a digit as separator. -/
example : formatHex [] [1] "-x".toList = .error .typeError ∧ formatHex [] [1] "x::".toList = .error .typeError ∧
    formatHex [] [1] "x1".toList = .error .typeError := by
  refine ⟨?_, ?_, ?_⟩ <;> decide +kernel

/-- C107: a width of more than 4300 digits raises a `ValueError`, another one which does not fit a C `int` an
`OverflowError`, and a separator outside ASCII a `ValueError`. -/
theorem C107_range (own : Str) (d : Bytes) (wt st : Str) (u : Bool) (n : Int) (sep : Char)
    (hs : st = [] ∧ sep = ' ' ∨ st = [sep] ∧ isDig sep = false) :
    (WidthText wt n → 4300 < wt.countP isDig →
      formatHex own d (wt ++ hexLetter u :: st) = .error .valueError) ∧
    (WidthText wt n → wt.countP isDig ≤ 4300 → ¬(-2 ^ 31 ≤ n ∧ n < 2 ^ 31) →
      formatHex own d (wt ++ hexLetter u :: st) = .error .overflowError) ∧
    ((wt = [] ∧ n = 1 ∨ WidthText wt n) → wt.countP isDig ≤ 4300 → -2 ^ 31 ≤ n ∧ n < 2 ^ 31 → 128 ≤ sep.toNat →
      formatHex own d (wt ++ hexLetter u :: st) = .error .valueError) := by
  have hs' : st = [] ∧ (if st = [] then none else some sep) = none ∨
      ∃ c, st = [c] ∧ (if st = [] then none else some sep) = some c ∧ isDig c = false := by
    rcases hs with ⟨rfl, -⟩ | ⟨rfl, h⟩
    · exact .inl ⟨rfl, rfl⟩
    · exact .inr ⟨sep, rfl, by simp, h⟩
  have hbody : ∀ w, widthInt w = .ok n → hexBody d ⟨some w, u, if st = [] then none else some sep⟩ = bytesHex d sep n := by
    intro w hw
    rcases hs with ⟨rfl, rfl⟩ | ⟨rfl, -⟩
    · simp [hexBody, hw]
    · simp [hexBody, hw]
  refine ⟨?_, ?_, ?_⟩
  · intro hw hl
    obtain ⟨h1, -⟩ := matchHex_width hw u hs'
    have h2 := widthInt_long hl
    unfold formatHex
    rw [h1]
    show (hexBody d _).map _ = _
    have : hexBody d ⟨some wt, u, if st = [] then none else some sep⟩ = .error .valueError := by
      rcases hs with ⟨rfl, rfl⟩ | ⟨rfl, -⟩
      · simp [hexBody, h2]
      · simp [hexBody, h2]
    rw [this]
    rfl
  · intro hw hl hn
    obtain ⟨h1, h2⟩ := matchHex_width hw u hs'
    unfold formatHex
    rw [h1]
    show (hexBody d _).map _ = _
    rw [hbody wt (widthInt_ok h2 hl), bytesHex_overflow (by omega)]
    rfl
  · intro hw hl hn hsep
    unfold formatHex
    rcases hw with ⟨rfl, rfl⟩ | hw
    · rcases hs with ⟨rfl, rfl⟩ | ⟨rfl, h⟩
      · exact absurd hsep (by decide)
      · rw [List.nil_append, matchHex_plain u hs']
        show (bytesHex d sep 1).map _ = _
        rw [bytesHex_value (by omega) (by omega)]
        rfl
    · obtain ⟨h1, h2⟩ := matchHex_width hw u hs'
      rw [h1]
      show (hexBody d _).map _ = _
      rw [hbody wt (widthInt_ok h2 hl), bytesHex_value (by omega) (by omega)]
      rfl

/-- A width of ten digits, and a letter outside ASCII. -/
example : formatHex [] [1] "2147483648x".toList = .error .overflowError ∧
    formatHex [] [1] "xé".toList = .error .valueError := by
  refine ⟨?_, ?_⟩ <;> decide +kernel

/-- C107 fails as the plain statement "the separator given stands between the groups": the case of the letter is applied to
the separator as well, so `xT` separates with `t` and `Xb` with `B`, which is a digit. -/
theorem C107_separator_false : ¬ ∀ (own : Str) (d : Bytes) (u : Bool) (sep : Char), isDig sep = false → sep.toNat < 128 →
    formatHex own d [hexLetter u, sep] = .ok (joinWith sep (d.map fun b => hexText u [b])) := by
  intro h
  have := h [] [1, 2] false 'T' (by decide) (by decide)
  revert this
  decide +kernel

/-- What is written instead. -/
example : formatHex [] [1, 2] "xT".toList = .ok "01t02".toList := by decide +kernel

end Verif
