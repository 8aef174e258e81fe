import Verif.Proofs.ComplexReload
import Verif.Proofs.ComplexOther
import Verif.Props.Complex

/-! Property theorems about complex numbers as text (C91, C92). -/

namespace Verif
open Spec

/-- C91, the part that holds: text of the form `a`, `bi`, `a+bi`, where the numbers have no redundant leading zeros, no
`+` or `-` in the exponent and are in range, and where a bare unit is not negative, loads as both values, truncated to
14 digits. Missing: the other forms of numbers (see `C91_load_false`). -/
theorem C91_load_partial (d : ComplexText) (hd : d.Valid) (hsafe : d.Safe) (s : Str) (hs : squash s = d.render) (e : Ent)
    (re im : Bytes) (hb : e.body = ⟨true, re ++ im⟩) (hr : re.length = 9) (hi : im.length = 9)
    (h1 : (re.headD 0).toNat % 64 = 0x0C) (h2 : (im.headD 0).toNat % 64 = 0x0C) :
    ∃ re' im', Ent.loadComplexString s e = ⟨.ok (), { e with cls := .complex, typeId := [0x0C], body := ⟨true, re' ++ im'⟩ }, []⟩ ∧
      (re'.headD 0).toNat % 64 = 0x0C ∧ (im'.headD 0).toNat % 64 = 0x0C ∧ Holds d.reValue re' ∧ Holds d.imValue im' := by
  have hz : zeroLit.magnitude = 0 := zeroLit_magnitude
  have hz' : zeroLit.value = 0 := by rw [Literal.value, hz, mul_zero]
  cases d with
  | re l =>
    have hp := Ent.complexParts_re (Ent.leadOf l.sign) (Ent.plain_body hd.1 hsafe) (Ent.body_ne hd) (hs.trans (Ent.render_lead l))
    rw [← Ent.render_unplus] at hp
    obtain ⟨re', im', g1, g2, g3, g4, g5⟩ := loadTwo hb hr hi h1 h2 (Ent.unplus_valid hd.1) zeroLit_valid (Ent.unplus_safe hsafe.1)
      (Or.inl (by decide)) (by rw [Ent.unplus_magnitude]; exact hsafe.2.1) (Or.inl hz) hp
    exact ⟨re', im', g1, g2, g3, g4.to (unplus_value l), g5.to hz'⟩
  | im f star u =>
    obtain ⟨q, q1, q2, q3⟩ := factor_pieces hd hsafe
    obtain ⟨f1, f2, f3, f4⟩ := factorLit_spec hd hsafe
    have hp := Ent.complexParts_im (Ent.leadOf f.sign) q1 (r := []) (by intro c hc; (cases hc)) star u (s := s) (by
      rw [hs]
      show f.render ++ unitStr star u = _
      rw [q2]; simp)
    rw [q3] at hp
    obtain ⟨re', im', g1, g2, g3, g4, g5⟩ := loadTwo hb hr hi h1 h2 zeroLit_valid f1 (Or.inl (by decide)) f2 (Or.inl hz) f3 hp
    exact ⟨re', im', g1, g2, g3, g4.to hz', g5.to f4⟩
  | both l f star u =>
    obtain ⟨d1, d2, d3⟩ := hd
    obtain ⟨s1, s2⟩ := hsafe
    obtain ⟨q, q1, q2, q3⟩ := factor_pieces d2 s2
    obtain ⟨f1, f2, f3, f4⟩ := factorLit_spec d2 s2
    have hp := Ent.complexParts_both (Ent.leadOf l.sign) (Ent.leadOf f.sign) (by rcases d3 with h | h <;> rw [h] <;> decide)
      (Ent.plain_body d1.1 s1) (Ent.body_ne d1) q1 (r := []) (by intro c hc; (cases hc)) star u (s := s) (by
      rw [hs]
      show l.render ++ f.render ++ unitStr star u = _
      rw [q2, Ent.render_lead l]; simp)
    rw [q3, ← Ent.render_unplus] at hp
    obtain ⟨re', im', g1, g2, g3, g4, g5⟩ := loadTwo hb hr hi h1 h2 (Ent.unplus_valid d1.1) f1 (Ent.unplus_safe s1.1) f2
      (by rw [Ent.unplus_magnitude]; exact s1.2.1) f3 hp
    exact ⟨re', im', g1, g2, g3, g4.to (unplus_value l), g5.to f4⟩

/-- C91 for every kind of part: the text is split at the sign between the parts, the unit and signs of multiplication are
dropped, a missing factor is 1, and each part is loaded by the class of its kind. -/
theorem C91_kinds_partial {e : Ent} {re im : Bytes} {c c' : Cls} {t t' : Nat} (hb : e.body = ⟨true, re ++ im⟩)
    (hr : re.length = 9) (hi : im.length = 9) (hc : e.realClass = .ok c) (hc' : e.imagClass = .ok c')
    (ht : partCode c = some t) (ht' : partCode c' = some t') (s1 s2 : Lead) (h2 : s2 ≠ .none) {p q r : Str} (hp : PlainText p)
    (hne : p ≠ []) (hq : PlainText q) (hr' : PlainText r) (star : Bool) (u : ImagUnit) {s : Str}
    (hs : squash s = s1.str ++ p ++ s2.str ++ q ++ unitStr star u ++ r) {f : Str}
    (hf : f = s2.keep ++ q ++ r ∧ f ≠ [] ∨ s2.keep ++ q ++ r = [] ∧ f = ['1']) {v v' : Bytes} {w w' : List Warn}
    (hv : v.length = 9) (hv' : v'.length = 9) (g1 : loadRealString c (s1.keep ++ p) ⟨true, Ent.clearFull c⟩ = ⟨.ok (), ⟨true, v⟩, w⟩)
    (g2 : loadRealString c' f ⟨true, Ent.clearFull c'⟩ = ⟨.ok (), ⟨true, v'⟩, w'⟩) :
    ∃ x x', Ent.loadComplexString s e = ⟨.ok (), { e with
        cls := complexKind c', typeId := [UInt8.ofNat t'], body := ⟨true, x ++ x'⟩ }, w ++ w'⟩ ∧
      SameButSubtype v x ∧ (x.headD 0).toNat % 64 = t ∧ SameButSubtype v' x' ∧ (x'.headD 0).toNat % 64 = t' := by
  have ho : Ent.complexParts.orOne (s2.keep ++ q ++ r) = f := by
    unfold Ent.complexParts.orOne
    rcases hf with ⟨h, hn⟩ | ⟨h, hn⟩
    · rw [← h, if_neg hn]
    · rw [if_pos h, hn]
  have hparts := Ent.complexParts_both s1 s2 h2 hp hne hq hr' star u (s := s) (by rw [hs]; simp)
  rw [ho] at hparts
  match v, hv, v', hv' with
  | b :: v, hv, b' :: v', hv' =>
    have hl : v.length = 8 := by simpa using hv
    have hl' : v'.length = 8 := by simpa using hv'
    obtain ⟨-, k, -⟩ := partCode_imagSubtype ht
    obtain ⟨-, k', -⟩ := partCode_imagSubtype ht'
    exact ⟨_, _, Ent.loadComplex_run hb hr hi hc hc' ht ht' hparts hl hl' g1 g2, sameButSubtype_retag k b hl, retag_mod k b,
      sameButSubtype_retag k' b' hl', retag_mod k' b'⟩

/-- C91 when the kind of the real part refuses its text: the first kind of number that reads it is taken. The imaginary part
keeps its kind. -/
theorem C91_other_kind {e : Ent} {re im : Bytes} {c c' k : Cls} {t t' : Nat} (hb : e.body = ⟨true, re ++ im⟩)
    (hr : re.length = 9) (hi : im.length = 9) (hc : e.realClass = .ok c) (hc' : e.imagClass = .ok c')
    (s1 s2 : Lead) (h2 : s2 ≠ .none) {p q r : Str} (hp : PlainText p)
    (hne : p ≠ []) (hq : PlainText q) (hr' : PlainText r) (star : Bool) (u : ImagUnit) {s : Str}
    (hs : squash s = s1.str ++ p ++ s2.str ++ q ++ unitStr star u ++ r) {f : Str}
    (hf : f = s2.keep ++ q ++ r ∧ f ≠ [] ∨ s2.keep ++ q ++ r = [] ∧ f = ['1'])
    {w0 : List Warn} (h0 : Ent.Refuses (s1.keep ++ p) c w0) {pre post : List Cls} (hk : numberKinds = pre ++ k :: post)
    {ws : List (List Warn)} (hpre : List.Forall₂ (Ent.Refuses (s1.keep ++ p)) pre ws)
    (ht : partCode k = some t) (ht' : partCode c' = some t') {v v' : Bytes} {w w' : List Warn}
    (hv : v.length = 9) (hv' : v'.length = 9) (g1 : loadRealString k (s1.keep ++ p) ⟨true, Ent.clearFull k⟩ = ⟨.ok (), ⟨true, v⟩, w⟩)
    (g2 : loadRealString c' f ⟨true, Ent.clearFull c'⟩ = ⟨.ok (), ⟨true, v'⟩, w'⟩) :
    ∃ x x', Ent.loadComplexString s e = ⟨.ok (), { e with
        cls := complexKind c', typeId := [UInt8.ofNat t'], body := ⟨true, x ++ x'⟩ }, w0 ++ (ws.flatten ++ w) ++ w'⟩ ∧
      SameButSubtype v x ∧ (x.headD 0).toNat % 64 = t ∧ SameButSubtype v' x' ∧ (x'.headD 0).toNat % 64 = t' := by
  have ho : Ent.complexParts.orOne (s2.keep ++ q ++ r) = f := by
    unfold Ent.complexParts.orOne
    rcases hf with ⟨h, hn⟩ | ⟨h, hn⟩
    · rw [← h, if_neg hn]
    · rw [if_pos h, hn]
  have hparts := Ent.complexParts_both s1 s2 h2 hp hne hq hr' star u (s := s) (by rw [hs]; simp)
  rw [ho] at hparts
  match v, hv, v', hv' with
  | b :: v, hv, b' :: v', hv' =>
    have hl : v.length = 8 := by simpa using hv
    have hl' : v'.length = 8 := by simpa using hv'
    obtain ⟨-, k, -⟩ := partCode_imagSubtype ht
    obtain ⟨-, k', -⟩ := partCode_imagSubtype ht'
    exact ⟨_, _, Ent.loadComplex_other hb hr hi hc hc' hparts h0 hk hpre ht ht' hl hl' g1 g2, sameButSubtype_retag k b hl,
      retag_mod k b, sameButSubtype_retag k' b' hl', retag_mod k' b'⟩

/-- C91 when no kind of number reads the text of the real part: `ValueError`, and the entry is as before. -/
theorem C91_no_kind {e : Ent} {c : Cls} (hc : e.realClass = .ok c)
    (s1 s2 : Lead) (h2 : s2 ≠ .none) {p q r : Str} (hp : PlainText p)
    (hne : p ≠ []) (hq : PlainText q) (hr' : PlainText r) (star : Bool) (u : ImagUnit) {s : Str}
    (hs : squash s = s1.str ++ p ++ s2.str ++ q ++ unitStr star u ++ r)
    {w0 : List Warn} (h0 : Ent.Refuses (s1.keep ++ p) c w0)
    {ws : List (List Warn)} (hall : List.Forall₂ (Ent.Refuses (s1.keep ++ p)) numberKinds ws) :
    Ent.loadComplexString s e = ⟨.error .valueError, e, w0 ++ ws.flatten⟩ :=
  Ent.loadComplex_none hc (Ent.complexParts_both s1 s2 h2 hp hne hq hr' star u (s := s) (by rw [hs]; simp)) h0 hall

/-- A fraction loads into the real part of an ordinary complex number, but not into the imaginary part. -/
example :
    (Ent.loadComplexString "1/4 + 2i".toList sampleComplex).res = .ok () ∧
    (Ent.loadComplexString "1/4 + 2i".toList sampleComplex).st.body.bytes =
      [0x1B, 0x7F, 0x25, 0, 0, 0, 0, 0, 0] ++ [0x0C, 0x80, 0x20, 0, 0, 0, 0, 0, 0] ∧
    (Ent.loadComplexString "2 + 1/4i".toList sampleComplex).res = .error .valueError ∧
    (Ent.loadComplexString "x + 2i".toList sampleComplex).res = .error .valueError ∧
    (Ent.loadComplexString "x + 2i".toList sampleComplex).st = sampleComplex := by
  decide +kernel

/-- The hypotheses of `C91_other_kind` for `1/4`. -/
example : Ent.Refuses "1/4".toList .real [] ∧ List.Forall₂ (Ent.Refuses "1/4".toList) [.real, .undefReal] [[], []] ∧
    (loadRealString .realFraction "1/4".toList ⟨true, Ent.clearFull .realFraction⟩).res = .ok () := by
  have h1 : Ent.Refuses "1/4".toList .real [] := ⟨.valueError, ⟨true, Ent.clearFull .real⟩, Or.inr (Or.inl rfl), by decide +kernel⟩
  have h2 : Ent.Refuses "1/4".toList .undefReal [] :=
    ⟨.valueError, ⟨true, Ent.clearFull .undefReal⟩, Or.inr (Or.inl rfl), by decide +kernel⟩
  exact ⟨h1, .cons h1 (.cons h2 .nil), by decide +kernel⟩

/-- A literal of digits. -/
def intLit (sign : Sign) (digits : Str) : Literal := ⟨sign, digits, none, none⟩

/-- `-3 + 2[i]` has the form of C91. -/
example : squash "-3 + 2[i]".toList =
    (ComplexText.both (intLit .minus ['3']) (.number (intLit .plus ['2'])) false .bracket).render ∧
    (Ent.loadComplexString "-3 + 2[i]".toList sampleComplex).st.body.bytes =
      [0x8C, 0x80, 0x30, 0, 0, 0, 0, 0, 0] ++ [0x0C, 0x80, 0x20, 0, 0, 0, 0, 0, 0] := by
  decide +kernel

example : (ComplexText.both (intLit .minus ['3']) (.number (intLit .plus ['2'])) false .bracket).Valid := by
  have d : ∀ c : Char, isDig c = true → Digits [c] := by
    intro c hc x hx
    rw [List.mem_singleton] at hx
    subst hx
    exact (isDig_iff x).1 hc
  refine ⟨⟨⟨d '3' (by decide), ?_, ?_⟩, by decide⟩, ⟨⟨d '2' (by decide), ?_, ?_⟩, by decide⟩, Or.inl rfl⟩ <;>
    intros <;> contradiction

/-- C91 is false: `1-i` loads with imaginary part 0. -/
theorem C91_load_false : ¬ ∀ (d : ComplexText), d.Valid → ∀ s, squash s = d.render → ∃ re' im',
    (Ent.loadComplexString s sampleComplex).st.body = ⟨true, re' ++ im'⟩ ∧ Holds d.reValue re' ∧ Holds d.imValue im' := by
  intro h
  have hv : (ComplexText.both oneLit (.bare .minus) false .i).Valid := ⟨⟨oneLit_spec.1, by decide⟩, trivial, Or.inr rfl⟩
  obtain ⟨re', im', h1, ⟨h2, -, -⟩, -, -, h3⟩ := h _ hv "1-i".toList (by decide)
  have hb : (Ent.loadComplexString "1-i".toList sampleComplex).st.body =
      ⟨true, [0x0C, 0x80, 0x10, 0, 0, 0, 0, 0, 0] ++ [0x8C, 0x80, 0, 0, 0, 0, 0, 0, 0]⟩ := by decide +kernel
  rw [hb] at h1
  have hi := congrArg (fun b : Buf => b.bytes.drop 9) h1
  simp only [List.drop_left' h2] at hi
  obtain ⟨m, x, ⟨hm, -⟩, hx⟩ := h3 (by
    show (if Sign.minus.isNeg then (-1 : ℚ) else 1) ≠ 0
    norm_num [Sign.isNeg])
  rw [← hi] at hx
  have : realDecimal ⟨true, [0x8C, 0x80, 0, 0, 0, 0, 0, 0, 0]⟩ = .ok (0, -13) := by decide +kernel
  rw [show List.drop 9 ([0x0C, 0x80, 0x10, 0, 0, 0, 0, 0, 0] ++ [0x8C, 0x80, 0, 0, 0, 0, 0, 0, 0] : Bytes) =
    [0x8C, 0x80, 0, 0, 0, 0, 0, 0, 0] from rfl, this] at hx
  injection hx with hx
  injection hx with hx _
  split at hx <;> omega

/-- More of C91: a sign in an exponent splits the number, a sum of two real numbers is taken for a complex number,
further summands are ignored, the imaginary part cannot come first, the empty text raises `IndexError`. -/
theorem C91_forms_false :
    (Ent.loadComplexString "1e-5+2i".toList sampleComplex).res = .ok () ∧
    (Ent.loadComplexString "1e-5+2i".toList sampleComplex).st.body.bytes =
      [0x0C, 0x80, 0x10, 0, 0, 0, 0, 0, 0] ++ [0x8C, 0x80, 0x50, 0, 0, 0, 0, 0, 0] ∧
    Ent.loadComplexString "1+2".toList sampleComplex = Ent.loadComplexString "1+2i".toList sampleComplex ∧
    Ent.loadComplexString "1+2+3i".toList sampleComplex = Ent.loadComplexString "1+2i".toList sampleComplex ∧
    (Ent.loadComplexString "i+1".toList sampleComplex).res = .error .valueError ∧
    (Ent.loadComplexString [] sampleComplex).res = .error .indexError := by
  decide +kernel

/-! ### C92 -/

/-- C92 is false: 2−i prints as `2 - i`, which loads as 2−0i. -/
theorem C92_reload_false :
    ∃ e : Ent, e.body.bytes = [0x0C, 0x80, 0x20, 0, 0, 0, 0, 0, 0] ++ [0x8C, 0x80, 0x10, 0, 0, 0, 0, 0, 0] ∧
      e.complexStr = .ok "2 - i".toList ∧
      (Ent.loadComplexString "2 - i".toList e).st.body.bytes =
        [0x0C, 0x80, 0x20, 0, 0, 0, 0, 0, 0] ++ [0x8C, 0x80, 0, 0, 0, 0, 0, 0, 0] := by
  refine ⟨{ sampleComplex with
    body := ⟨true, [0x0C, 0x80, 0x20, 0, 0, 0, 0, 0, 0] ++ [0x8C, 0x80, 0x10, 0, 0, 0, 0, 0, 0]⟩ }, rfl, ?_, ?_⟩ <;>
    decide +kernel

/-- C92, the part that holds: the text of a complex number with ordinary parts of at most 14 decimals, other than
`a-i` with `a` not zero, loads into any such number as the same parts. Missing: `a-i`, numbers with smaller digits
(C85), and the other kinds of parts (`C92_fraction_false`). -/
theorem C92_reload_partial {e : Ent} {re im : Bytes} (hb : e.body = ⟨true, re ++ im⟩) {c x c' x' : Int}
    (h1 : ShortNumber re c x) (h2 : ShortNumber im c' x') (hne : c = 0 ∨ (c' : ℚ) * 10 ^ x' ≠ -1) :
    ∃ s, e.complexStr = .ok s ∧ ∀ (e2 : Ent) (re2 im2 : Bytes), e2.body = ⟨true, re2 ++ im2⟩ → re2.length = 9 → im2.length = 9 →
      (re2.headD 0).toNat % 64 = 0x0C → (im2.headD 0).toNat % 64 = 0x0C →
      ∃ re' im', Ent.loadComplexString s e2 =
          ⟨.ok (), { e2 with cls := .complex, typeId := [0x0C], body := ⟨true, re' ++ im'⟩ }, []⟩ ∧
        (re'.headD 0).toNat % 64 = 0x0C ∧ (im'.headD 0).toNat % 64 = 0x0C ∧
        realDecimal ⟨true, re'⟩ = .ok (if c = 0 then (0, -13) else (c, x)) ∧
        realDecimal ⟨true, im'⟩ = .ok (if c' = 0 then (0, -13) else (c', x')) := by
  obtain ⟨s, hs, hsq, p1, p2, p3, p4, -⟩ := complex_printed hb h1 h2 hne
  obtain ⟨a1, a2, a3, a4, a5, n, a6⟩ := h1
  obtain ⟨b1, b2, b3, b4, b5, n', b6⟩ := h2
  obtain ⟨r1, r2, r3⟩ := realDecimal_bounds a1 a3 a4
  obtain ⟨s1, s2, s3⟩ := realDecimal_bounds b1 b3 b4
  refine ⟨s, hs, fun e2 re2 im2 k1 k2 k3 k4 k5 => ?_⟩
  obtain ⟨re', im', g1, g2, g3, g4, g5⟩ := C91_load_partial _ p1 p2 s hsq e2 re2 im2 k1 k2 k3 k4 k5
  exact ⟨re', im', g1, g2, g3, holds_decimal a5 r1 (g4.to p3), holds_decimal b5 s1 (g5.to p4)⟩

/-- −2.5+i prints as `-2.5 + i`. -/
example : ShortNumber [0x8C, 0x80, 0x25, 0, 0, 0, 0, 0, 0] (-25000000000000) (-13) ∧
    ShortNumber [0x0C, 0x80, 0x10, 0, 0, 0, 0, 0, 0] 10000000000000 (-13) ∧
    Ent.complexStr { sampleComplex with
      body := ⟨true, [0x8C, 0x80, 0x25, 0, 0, 0, 0, 0, 0] ++ [0x0C, 0x80, 0x10, 0, 0, 0, 0, 0, 0]⟩ } = .ok "-2.5 + i".toList := by
  refine ⟨⟨rfl, rfl, ?_, ?_, Or.inr (by decide), -250000000000000, ?_⟩, ⟨rfl, rfl, ?_, ?_, Or.inr (by decide), 100000000000000, ?_⟩, ?_⟩
  · unfold AllDigits; decide +kernel
  · decide +kernel
  · rw [show (-13 : Int) = -((13 : Nat) : Int) from rfl, zpow_neg, zpow_natCast]; norm_num
  · unfold AllDigits; decide +kernel
  · decide +kernel
  · rw [show (-13 : Int) = -((13 : Nat) : Int) from rfl, zpow_neg, zpow_natCast]; norm_num
  · decide +kernel

/-- A complex number with fractional parts. -/
def sampleFraction (re im : Bytes) : Ent :=
  { sampleComplex with cls := .complexFraction, typeId := [0x1B], body := ⟨true, re ++ im⟩ }

/-- More of C92: with fractional parts, the unit is lost when the imaginary part is an integer, so that 3+2i prints as
`3 + 2` and 2i as `2`; and 3+i/2 prints as `3 + i/2`, which cannot be loaded. -/
theorem C92_fraction_false :
    (sampleFraction [0x1B, 0x80, 0x30, 0, 0, 0, 0, 0, 0] [0x1B, 0x80, 0x20, 0, 0, 0, 0, 0, 0]).complexStr = .ok "3 + 2".toList ∧
    (sampleFraction [0x1B, 0x80, 0, 0, 0, 0, 0, 0, 0] [0x1B, 0x80, 0x20, 0, 0, 0, 0, 0, 0]).complexStr = .ok "2".toList ∧
    (sampleFraction [0x1B, 0x80, 0x30, 0, 0, 0, 0, 0, 0] [0x1B, 0x7F, 0x50, 0, 0, 0, 0, 0, 0]).complexStr = .ok "3 + i/2".toList ∧
    (Ent.loadComplexString "3 + i/2".toList
      (sampleFraction [0x1B, 0x80, 0x30, 0, 0, 0, 0, 0, 0] [0x1B, 0x7F, 0x50, 0, 0, 0, 0, 0, 0])).res = .error .valueError := by
  decide +kernel

/-- Parts of other kinds: 3/4 + 5i/8. -/
example : (Ent.loadComplexString "3/4 + 5i/8".toList
      (sampleFraction [0x1B, 0x80, 0x30, 0, 0, 0, 0, 0, 0] [0x1B, 0x7F, 0x50, 0, 0, 0, 0, 0, 0])).st.body.bytes =
    [0x1B, 0x7F, 0x75, 0, 0, 0, 0, 0, 0] ++ [0x1B, 0x7F, 0x62, 0x50, 0, 0, 0, 0, 0] := by
  decide +kernel

end Verif
