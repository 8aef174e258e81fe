import Verif.Proofs.FixedText
import Verif.Props.Typeable

/-! Property theorems about numbers, lists and matrices printed with a fixed number of decimals (C130). -/

namespace Verif
open Spec Ent
variable {V : Type} [LinearOrder V]

/-- C130 for all kinds of real numbers: `.Nf` gives a literal with exactly `N` decimals, without a point if there are none, without
exponent and without needless zeros in front, which is the decimal value rounded to `N` places, ties to even; it has a minus exactly
if the decimal value has one. `.Nt` gives the same with `~` for the minus. -/
theorem C130_real (places : Nat) (x : Ent) (hx : x.cls ∈ realClasses) (d : PyDec) (hd : realPartDecimal x.cls x.body = .ok d) :
    ∃ l : Literal, elemFixed places x = .ok l.render ∧ elemFixedTypeable places x = .ok l.calc ∧ l.Valid ∧ l.NoLeadingZeros ∧
      l.int ≠ [] ∧ l.exp = none ∧ l.fracDigits.length = places ∧ (l.frac = none ↔ places = 0) ∧
      l.sign = (if d.neg then .minus else .none) ∧ RoundsAt places d.value l.value := by
  have hp := fixedLit_printed places d
  have hc : x.cls.isSub .complexE = false ∧ x.cls ≠ .realE := by
    revert hx; generalize x.cls = c; revert c; decide
  have hf : elemFixed places x = .ok (fixedLit places d).render := by
    unfold elemFixed
    rw [hc.1, hd, fixedLit_render]
    simp [hc.2]
  refine ⟨fixedLit places d, hf, ?_, hp.valid, hp.zeros, hp.int, hp.exp, (fixedLit_frac _ _).1, ?_, rfl, fixedLit_rounds _ _⟩
  · unfold elemFixedTypeable
    rw [hf, hc.1]
    simp [typeable_lit hp]
  · simp only [fixedLit]
    by_cases h : places = 0 <;> simp [h]

/-- C130 for the numbers whose bytes are the digits of their value: what is printed is the stored number, rounded; both texts load
into any number as the number printed, if that has at most 14 digits and 128 decimals. -/
theorem C130_stored_partial (places : Nat) (x : Ent) (hx : x.cls ∈ decimalKinds) (hb : x.body.bytes.length = 9) (hd : AllDigits (x.body.bytes.drop 2)) :
    ∃ l : Literal, elemFixed places x = .ok l.render ∧ elemFixedTypeable places x = .ok l.calc ∧ l.fracDigits.length = places ∧
      RoundsAt places (storedNumber x.body.bytes) l.value ∧
      (places ≤ 128 → |storedNumber x.body.bytes| * 10 ^ places ≤ 10 ^ 14 - 1 → ∀ t, t = l.render ∨ t = l.calc →
        ∀ (b0 : UInt8) (rest : Bytes), rest.length = 8 → ∃ b' c e, realLoadString t ⟨true, b0 :: rest⟩ = ⟨.ok (), ⟨true, b'⟩, []⟩ ∧
          realDecimal ⟨true, b'⟩ = .ok (c, e) ∧ (c : ℚ) * 10 ^ e = l.value) := by
  obtain ⟨d, h1, h2, -, -⟩ := stored_decimal hx hb hd
  have hp := fixedLit_printed places d
  have hc : x.cls.isSub .complexE = false ∧ x.cls ≠ .realE := by
    revert hx; generalize x.cls = c; revert c; decide
  have hf : elemFixed places x = .ok (fixedLit places d).render := by
    unfold elemFixed
    rw [hc.1, show realPartDecimal x.cls x.body = .ok d from h1 x.body.mutable, fixedLit_render]
    simp [hc.2]
  refine ⟨fixedLit places d, hf, ?_, (fixedLit_frac _ _).1, h2 ▸ fixedLit_rounds _ _, fun hn hlt t ht b0 rest hl => ?_⟩
  · unfold elemFixedTypeable
    rw [hf, hc.1]
    simp [typeable_lit hp]
  · have hlt' := rescale_lt (h2.symm ▸ hlt)
    rcases ht with rfl | rfl
    · obtain ⟨b', c, e, g1, -, g3, g4⟩ := load_short hp.valid hp.zeros (squash_render _ hp.valid) (fixedLit_magnitude places d) hlt'
        (fixedLit_range hn hlt') b0 rest hl
      exact ⟨b', c, e, g1, g3, g4⟩
    · have hm : (tilLit (fixedLit places d)).magnitude = (fixedLit places d).magnitude := rfl
      have hv : (tilLit (fixedLit places d)).Valid := hp.valid
      have hs : squash (fixedLit places d).calc = (tilLit (fixedLit places d)).render := by rw [tilLit_render hp, lit_squash hp]
      obtain ⟨b', c, e, g1, -, g3, g4⟩ := load_short (l := tilLit (fixedLit places d)) hv hp.zeros hs
        (fixedLit_magnitude places d) hlt' (fixedLit_range hn hlt') b0 rest hl
      exact ⟨b', c, e, g1, g3, by rw [g4, tilLit_value]⟩

/-- `0.125` and `0.375` are rounded to an even last digit, `-1234.5` without decimals has no point, a small negative number keeps
its sign, and 1/3 as a fraction prints as a decimal. -/
example : let e (c : Cls) (b : Bytes) : Ent := ⟨c, [], [], [], [], [], ⟨true, b⟩⟩
    elemFixed 2 (e .real [0x00, 0x7F, 0x12, 0x50, 0, 0, 0, 0, 0]) = .ok "0.12".toList ∧
    elemFixed 2 (e .real [0x00, 0x7F, 0x37, 0x50, 0, 0, 0, 0, 0]) = .ok "0.38".toList ∧
    elemFixed 0 (e .real [0x80, 0x83, 0x12, 0x34, 0x50, 0, 0, 0, 0]) = .ok "-1234".toList ∧
    elemFixedTypeable 3 (e .real [0x80, 0x70, 0x12, 0x34, 0x50, 0, 0, 0, 0]) = .ok "~0.000".toList ∧
    elemFixedTypeable 4 (e .realFraction [0x18, 0x7F, 0x33, 0x33, 0x33, 0x33, 0x33, 0x33, 0x33]) = .ok "0.3333".toList ∧
    elemFixed 5 (e .realRadical [0x1C, 0x00, 0x07, 0x00, 0x30, 0x04, 0x00, 0x50, 0x02]) = .ok "1.76644".toList := by decide +kernel

/-- C130: a number without decimal value raises the error of `decimal`, in both specifications. -/
theorem C130_error (places : Nat) (x : Ent) (hx : x.cls ∈ realClasses) (y : PyErr) (hd : realPartDecimal x.cls x.body = .error y) :
    elemFixed places x = .error y ∧ elemFixedTypeable places x = .error y := by
  have hc : x.cls.isSub .complexE = false ∧ x.cls ≠ .realE := by
    revert hx; generalize x.cls = c; revert c; decide
  have hf : elemFixed places x = .error y := by
    unfold elemFixed
    rw [hc.1, hd]
    simp [hc.2]
  exact ⟨hf, by unfold elemFixedTypeable; rw [hf]⟩

/-- A radical with denominator zero. -/
example : elemFixed 2 ⟨.realRadical, [], [], [], [], [], ⟨true, [0x1C, 0x00, 0x00, 0x00, 0x30, 0x04, 0x00, 0x50, 0x02]⟩⟩ = .error .zeroDivisionError := by
  decide +kernel

/-- C130 for lists of both kinds: the texts of the elements, in square brackets and separated by commas and spaces, or for typing in
braces and separated by commas. -/
theorem C130_list (places : Nat) (env : Env V) (nm : Bytes) (e : Ent) (lst : List Ent) (hc : e.cls = .realList ∨ e.cls = .complexList)
    (hf : e.flashBytes ≠ []) (hfit : ∀ x ∈ lst, FitsList e.cls x) (hb : e.body.bytes.drop 2 = lst.flatMap fun x => x.body.bytes) (ts : List Str) :
    (List.Forall₂ (fun x t => elemFixed places x = .ok t) lst ts →
      listFixed env nm places e () = ⟨.ok (['['] ++ List.intercalate [',', ' '] ts ++ [']']), (), []⟩) ∧
    (List.Forall₂ (fun x t => elemFixedTypeable places x = .ok t) lst ts →
      listFixedTypeable env nm places e () = ⟨.ok (['{'] ++ List.intercalate [','] ts ++ ['}']), (), []⟩) := by
  obtain ⟨es, g1, g2⟩ := C50_list_read_partial env nm e lst hf hfit hb hc
  constructor <;> intro h
  · unfold listFixed
    rw [PyM.bind_ok g1, mapE_related (elemFixed_same places) h g2, intercalate_join]
    rfl
  · unfold listFixedTypeable
    rw [PyM.bind_ok g1, mapE_related (elemFixedTypeable_same places) h g2, intercalate_join]
    rfl

/-- C130 for matrices: the rows in square brackets, for typing without anything between them. -/
theorem C130_matrix (places : Nat) (env : Env V) (nm : Bytes) (e : Ent) (rows : List (List Ent)) (w : Nat) (hc : e.cls = .matrix)
    (hf : e.flashBytes ≠ []) (hw : 1 ≤ w) (hr : ∀ r ∈ rows, r.length = w) (hel : ∀ r ∈ rows, ∀ x ∈ r, RealElem x)
    (hsize : (e.body.bytes.take 2).map UInt8.toNat = [w, rows.length])
    (hb : e.body.bytes.drop 2 = rows.flatten.flatMap fun x => x.body.bytes) (tss : List (List Str)) :
    (List.Forall₂ (List.Forall₂ fun x t => elemFixed places x = .ok t) rows tss → matrixFixed env nm places e () =
      ⟨.ok (['['] ++ List.intercalate [',', ' '] (tss.map fun r => ['['] ++ List.intercalate [',', ' '] r ++ [']']) ++ [']']), (), []⟩) ∧
    (List.Forall₂ (List.Forall₂ fun x t => elemFixedTypeable places x = .ok t) rows tss → matrixFixedTypeable env nm places e () =
      ⟨.ok (['['] ++ (tss.map fun r => ['['] ++ List.intercalate [','] r ++ [']']).flatten ++ [']']), (), []⟩) := by
  obtain ⟨es, g1, g2⟩ := C52_matrix_read_partial env nm e rows w hc hf hw hr hel hsize hb
  constructor <;> intro h
  · unfold matrixFixed
    rw [PyM.bind_ok g1, mapE_rows (elemFixed_same places) h g2]
    simp only [intercalate_join]
    rfl
  · unfold matrixFixedTypeable
    rw [PyM.bind_ok g1, mapE_rows (elemFixedTypeable_same places) h g2]
    simp only [intercalate_join]
    rw [← join_flatten]
    rfl

/-- The list of 1 and 2/3 with two decimals. -/
example : (listFixed sampleEnv [] 2 sampleList ()).res = .ok "[1.00, 0.67]".toList ∧
    (listFixedTypeable sampleEnv [] 1 sampleList ()).res = .ok "{1.0,0.7}".toList := by decide +kernel

/-- C130 for complex numbers: `.Nf` gives both parts, as floats, rounded to `N` decimals, with a sign between them and `j` at the
end. A zero imaginary part has no minus; a zero real part has one just when both parts have. -/
theorem C130_complex (places : Nat) (x : Ent) (hx : x.cls.isSub .complexE = true) (a b : PyFloat) (h : complexParts' x = .ok (a, b)) :
    ∃ (l l' : Literal) (s : Bool), elemFixed places x = .ok (l.render ++ (if s then [] else ['+']) ++ l'.render ++ ['j']) ∧
      elemFixedTypeable places x = .ok (l.calc ++ (if s then [] else ['+']) ++ l'.calc ++ ['j']) ∧
      (∀ k ∈ [l, l'], k.Valid ∧ k.NoLeadingZeros ∧ k.int ≠ [] ∧ k.exp = none) ∧
      l.fracDigits.length = places ∧ l'.fracDigits.length = places ∧ l'.sign = (if s then .minus else .none) ∧
      RoundsAt places (floatValue a) l.value ∧ RoundsAt places (floatValue b) l'.value ∧
      (l.sign = .minus ↔ a.neg = true ∧ (a.m ≠ 0 ∨ b.neg = true)) ∧ (l'.sign = .minus ↔ b.neg = true ∧ b.m ≠ 0) := by
  obtain ⟨l, a1, a2, a3, -, a5, a6⟩ := floatFormat_lit places (zeroSigns a b).1
  obtain ⟨l', b1, b2, b3, -, b5, b6⟩ := floatFormat_lit places (zeroSigns a b).2
  rw [(zeroSigns_value a b).1] at a6
  rw [(zeroSigns_value a b).2] at b6
  have hf : elemFixed places x = .ok (l.render ++ (if (zeroSigns a b).2.neg then [] else ['+']) ++ l'.render ++ ['j']) := by
    unfold elemFixed
    rw [hx, h]
    simp only [if_true]
    unfold complexFormat
    simp only [a1, b1]
  refine ⟨l, l', _, hf, ?_, ?_, a3, b3, b5, a6, b6, ?_, ?_⟩
  rotate_left
  · intro k hk
    simp only [List.mem_cons, List.not_mem_nil, or_false] at hk
    rcases hk with rfl | rfl
    · exact ⟨a2.valid, a2.zeros, a2.int, a2.exp⟩
    · exact ⟨b2.valid, b2.zeros, b2.int, b2.exp⟩
  · rw [a5]
    unfold zeroSigns
    by_cases h0 : a.m = 0 <;> cases ha : a.neg <;> cases hb : b.neg <;> simp [h0, ha]
  · rw [b5]
    unfold zeroSigns
    by_cases h0 : b.m = 0 <;> cases hb : b.neg <;> simp [h0, hb]
  unfold elemFixedTypeable
  rw [hf, hx]
  simp only [if_true]
  rw [typeable_parts a2 b2]

/-- C130 is false of complex numbers: with decimals, no text for typing has the unit `[i]`; it ends with the letter `j`. -/
theorem C130_complex_false :
    (∀ (places : Nat) (x : Ent) (t : Str), x.cls.isSub .complexE = true → elemFixedTypeable places x = .ok t → 'i' ∉ t ∧ t.getLast? = some 'j') ∧
    elemFixedTypeable 2 ⟨.complex, [], [], [], [], [], ⟨true, [0x0C, 0x80, 0x10, 0, 0, 0, 0, 0, 0, 0x8C, 0x80, 0x25, 0, 0, 0, 0, 0, 0]⟩⟩ =
      .ok "1.00~2.50j".toList ∧
    elemTypeable ⟨.complex, [], [], [], [], [], ⟨true, [0x0C, 0x80, 0x10, 0, 0, 0, 0, 0, 0, 0x8C, 0x80, 0x25, 0, 0, 0, 0, 0, 0]⟩⟩ =
      .ok "1~2.5[i]".toList := by
  refine ⟨fun places x t hx ht => ?_, by decide +kernel, by decide +kernel⟩
  rcases hp : complexParts' x with y | ⟨a, b⟩
  · have : elemFixedTypeable places x = .error y := by
      unfold elemFixedTypeable elemFixed
      rw [hx, hp]
      simp
    rw [this] at ht
    cases ht
  · obtain ⟨l, l', s, -, h2, h3, -⟩ := C130_complex places x hx a b hp
    rw [h2] at ht
    injection ht with ht
    subst ht
    have h5 : ∀ k ∈ [l, l'], 'i' ∉ k.calc := fun k hk => calc_no (h3 k hk).1 (h3 k hk).2.2.2 (by decide) (by decide) (by decide) (by decide)
    have h6 := h5 l (by simp)
    have h7 := h5 l' (by simp)
    constructor
    · cases s <;> simp [h6, h7]
    · simp

example : elemFixed 1 ⟨.complex, [], [], [], [], [], ⟨true, [0x0C, 0x80, 0x10, 0, 0, 0, 0, 0, 0, 0x8C, 0x80, 0x25, 0, 0, 0, 0, 0, 0]⟩⟩ =
    .ok "1.0-2.5j".toList := by decide +kernel

/-- Stored zeros with a minus are zeros without; a part that is rounded to zero keeps its sign. -/
example : elemFixed 1 ⟨.complex, [], [], [], [], [], ⟨true, [0x8C, 0x80, 0, 0, 0, 0, 0, 0, 0, 0x8C, 0x80, 0, 0, 0, 0, 0, 0, 0]⟩⟩ =
      .ok "0.0+0.0j".toList ∧
    elemFixed 1 ⟨.complex, [], [], [], [], [], ⟨true, [0x8C, 0x7E, 0x10, 0, 0, 0, 0, 0, 0, 0x8C, 0x7E, 0x25, 0, 0, 0, 0, 0, 0]⟩⟩ =
      .ok "-0.0-0.0j".toList := by decide +kernel

end Verif
