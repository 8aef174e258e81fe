import Verif.Proofs.ElemText
import Verif.Spec.ArrayText
import Verif.Spec.Array
import Verif.Props.RadicalText

/-! Loading numbers whose class is chosen by their text. -/

namespace Verif
open Spec Ent

theorem firstReal_hit {s : Str} {t : Int} {c : Cls} {rest : List (Int × Cls)} {b : Bytes} {w : List Warn}
    (h : loadRealString c s ⟨true, clearFull c⟩ = ⟨.ok (), ⟨true, b⟩, w⟩) : firstReal s ((t, c) :: rest) = .ok (c, b) := by
  unfold firstReal; rw [h]

theorem firstReal_miss {s : Str} {t : Int} {c : Cls} {rest : List (Int × Cls)} {x : PyErr} {b : Buf} {w : List Warn}
    (h : loadRealString c s ⟨true, clearFull c⟩ = ⟨.error x, b, w⟩) : firstReal s ((t, c) :: rest) = firstReal s rest := by
  conv_lhs => unfold firstReal
  rw [h]

theorem realOfString_ok {s : Str} {c : Cls} {b : Bytes} (h : firstReal s realTypes = .ok (c, b)) :
    realOfString s () = ⟨.ok (elem c b), (), []⟩ := by
  unfold realOfString; rw [h]; rfl

/-- Text that ordinary numbers refuse is not the text of an undefined one either. -/
theorem firstReal_real_miss {s : Str} (h : ∀ b, realLoadString s b = ⟨.error .valueError, b, []⟩) :
    firstReal s realTypes = firstReal s [(0x18, .realFraction), (0x1C, .realRadical), (0x20, .realPi), (0x21, .realPiFraction)] := by
  unfold realTypes
  rw [firstReal_miss (c := .real) (h _), firstReal_miss (c := .undefReal) (h _)]

theorem firstReal_fraction_miss {s : Str} (h : ∀ b, realLoadString s b = ⟨.error .valueError, b, []⟩)
    (h' : ∀ b, fractionLoadString s b = ⟨.error .valueError, b, []⟩) :
    firstReal s realTypes = firstReal s [(0x1C, .realRadical), (0x20, .realPi), (0x21, .realPiFraction)] := by
  rw [firstReal_real_miss h, firstReal_miss (c := .realFraction) (h' _)]

theorem firstReal_radical_miss {s : Str} (h : ∀ b, realLoadString s b = ⟨.error .valueError, b, []⟩)
    (h' : ∀ b, fractionLoadString s b = ⟨.error .valueError, b, []⟩) (h'' : ∀ b, radLoadString s b = ⟨.error .valueError, b, []⟩) :
    firstReal s realTypes = firstReal s [(0x20, .realPi), (0x21, .realPiFraction)] := by
  rw [firstReal_fraction_miss h h', firstReal_miss (c := .realRadical) (h'' _)]

theorem blank_real {c : Cls} {t : Nat} (h : (c, t) ∈ [(Cls.real, 0x00), (.realFraction, 0x18), (.realRadical, 0x1C), (.realPi, 0x20),
    (.realPiFraction, 0x21)]) : clearFull c = UInt8.ofNat t :: List.replicate 8 0 ∧ (UInt8.ofNat t).toNat = t ∧ t < 64 ∧
      c.typeId = some t ∧ c ∈ realClasses := by
  simp only [List.mem_cons, Prod.mk.injEq, List.not_mem_nil, or_false] at h
  rcases h with ⟨rfl, rfl⟩ | ⟨rfl, rfl⟩ | ⟨rfl, rfl⟩ | ⟨rfl, rfl⟩ | ⟨rfl, rfl⟩ <;> refine ⟨?_, ?_, ?_, ?_, ?_⟩ <;> decide

theorem realElem_of {c : Cls} {t : Nat} (h : (c, t) ∈ [(Cls.real, 0x00), (.realFraction, 0x18), (.realRadical, 0x1C), (.realPi, 0x20),
    (.realPiFraction, 0x21)]) {b : Bytes} (hb : b.length = 9) (hm : (b.headD 0).toNat % 128 = (UInt8.ofNat t).toNat % 128) :
    RealElem (elem c b) := by
  obtain ⟨-, h2, h3, h4, h5⟩ := blank_real h
  refine ⟨h5, hb, ?_⟩
  show c.typeId = some ((b.getD 0 0).toNat % 64)
  have : b.getD 0 0 = b.headD 0 := by cases b <;> rfl
  rw [h4, this]
  congr 1
  omega

/-- A decimal loaded into a blank number of some class that stores decimals. -/
theorem loadDecimal {l : Literal} (hv : l.Valid) (hz : l.NoLeadingZeros) (hm : l.magnitude = 0 ∨ InExponentRange l.magnitude) {s : Str}
    (hs : squash s = l.render) (b0 : UInt8) : ∃ b : Bytes, realLoadString s ⟨true, b0 :: List.replicate 8 0⟩ = ⟨.ok (), ⟨true, b⟩, []⟩ ∧
      Holds l.value b ∧ (b.headD 0).toNat % 128 = b0.toNat % 128 := by
  obtain ⟨h1, h2, -⟩ := C15_load_decimal l hv hz s hs b0 (List.replicate 8 0) (by simp)
  rcases hm with hm | hm
  · obtain ⟨b', g1, g2, g3, -, g5⟩ := h1 hm
    refine ⟨b', g1, ⟨g2, fun _ => g3, fun h => absurd ?_ h⟩, g5⟩
    simp [Literal.value, hm]
  · have h0 : l.magnitude ≠ 0 := (lt_of_lt_of_le (ten_zpow_pos _) hm.1).ne'
    obtain ⟨b', m, x, g1, g2, g3, g4, -, g6⟩ := h2 hm
    obtain ⟨k1, k2, k3⟩ := literal_sign l h0
    refine ⟨b', g1, ⟨g2, fun h => absurd h k2, fun _ => ⟨m, x, ?_, ?_⟩⟩, g6⟩
    · rw [k1]; exact g3
    · rw [k3]; exact g4

theorem odd_slash : Odd '/' := by unfold Odd; decide
theorem odd_pi : Odd 'π' := by unfold Odd; decide
theorem odd_p : Odd 'p' := by unfold Odd; decide
theorem odd_s : Odd 's' := by unfold Odd; decide
theorem odd_surd : Odd '√' := by unfold Odd; decide

/-- What `squash` leaves. -/
theorem mem_of_squash {s t : Str} (h : squash s = t) {c : Char} (hc : isSpaceChar c = false) : c ∈ s ↔ c ∈ t := by
  rw [← h]
  exact ⟨mem_squash hc, List.mem_of_mem_filter⟩

theorem sign_mem {g : Sign} {c : Char} (h : c ∈ g.str) : c = '+' ∨ c = '-' ∨ c = '~' := by
  cases g <;> simp [Sign.str] at h <;> simp [h]

theorem ratio_chars {g : Sign} {p r : Str} (hp : Digits p) (hr : ∀ x ∈ r, isDig x = true ∨ x = '/' ∨ x = 'π') :
    ∀ x ∈ g.str ++ (p ++ r), isDig x = true ∨ x = '+' ∨ x = '-' ∨ x = '~' ∨ x = '/' ∨ x = 'π' := by
  intro x hx
  rcases List.mem_append.1 hx with h | h
  · rcases sign_mem h with h | h | h <;> simp [h]
  · rcases List.mem_append.1 h with h | h
    · exact Or.inl ((isDig_iff x).2 (hp x h))
    · rcases hr x h with h | h | h <;> simp [h]

theorem slash_chars {q : Str} (hq : Digits q) : ∀ x ∈ '/' :: q, isDig x = true ∨ x = '/' ∨ x = 'π' := by
  intro x hx
  rcases List.mem_cons.1 hx with h | h
  · simp [h]
  · exact Or.inl ((isDig_iff x).2 (hq x h))

theorem pi_chars {q : Str} (hq : Digits q) : ∀ x ∈ 'π' :: '/' :: q, isDig x = true ∨ x = '/' ∨ x = 'π' := by
  intro x hx
  rcases List.mem_cons.1 hx with h | h
  · simp [h]
  · exact slash_chars hq x h

theorem not_mem_chars {s : Str} {c : Char} (hs : ∀ x ∈ s, isDig x = true ∨ x = '+' ∨ x = '-' ∨ x = '~' ∨ x = '/' ∨ x = 'π')
    (hc : (isDig c || c == '+' || c == '-' || c == '~' || c == '/' || c == 'π') = false) : c ∉ s := by
  intro h
  have := hs c h
  revert hc
  rcases this with h | h | h | h | h | h <;> simp [h]

/-- The characters of the texts of radicals. -/
def radChars : List Char := ['+', '-', '~', '(', ')', '*', 's', 'q', 'r', 't', '√', '/']

theorem digits_in {d : Str} (h : Digits d) (ch : List Char) : ∀ x ∈ d, isDig x = true ∨ x ∈ ch :=
  fun x hx => Or.inl ((isDig_iff x).2 (h x hx))

theorem append_in {a b : Str} {ch : List Char} (ha : ∀ x ∈ a, isDig x = true ∨ x ∈ ch) (hb : ∀ x ∈ b, isDig x = true ∨ x ∈ ch) :
    ∀ x ∈ a ++ b, isDig x = true ∨ x ∈ ch := fun x hx => (List.mem_append.1 hx).elim (ha x) (hb x)

theorem consts_in {a ch : List Char} (h : ∀ x ∈ a, x ∈ ch) : ∀ x ∈ a, isDig x = true ∨ x ∈ ch := fun x hx => Or.inr (h x hx)

theorem sign_in (g : Sign) : ∀ x ∈ g.str, isDig x = true ∨ x ∈ radChars :=
  consts_in (by cases g <;> decide)

theorem root_in {r : Root} (h : Digits r.digits) : ∀ x ∈ r.render, isDig x = true ∨ x ∈ radChars := by
  unfold Root.render
  refine append_in (append_in (consts_in ?_) (consts_in ?_)) ?_
  · split <;> decide
  · split <;> decide
  · split
    · exact append_in (a := '(' :: r.digits) (append_in (a := ['(']) (consts_in (by decide)) (digits_in h _)) (consts_in (by decide))
    · exact digits_in h _

theorem term_in {t : RadTerm} (h : t.Valid) : ∀ x ∈ t.render, isDig x = true ∨ x ∈ radChars := by
  unfold RadTerm.render
  refine append_in (append_in (sign_in _) (digits_in h.1 _)) ?_
  unfold RadTerm.rootStr
  cases hr : t.root with
  | none => intro x hx; cases hx
  | some r => exact root_in (h.2.2 r hr).1

theorem rad_in {t : RadText} (h : t.Valid) : ∀ x ∈ t.render, isDig x = true ∨ x ∈ radChars := by
  have hsum : ∀ x ∈ t.sum, isDig x = true ∨ x ∈ radChars := by
    unfold RadText.sum
    refine append_in (term_in h.1) ?_
    unfold RadText.secondStr
    cases hu : t.second with
    | none => intro x hx; cases hx
    | some u => exact term_in (h.2.1 u hu).1
  unfold RadText.render
  refine append_in ?_ ?_
  · split
    · exact append_in (a := '(' :: t.sum) (append_in (a := ['(']) (consts_in (by decide)) hsum) (consts_in (by decide))
    · exact hsum
  · unfold RadText.denStr
    rcases hd : t.den with _ | ⟨g, d⟩
    · intro x hx; cases hx
    · exact append_in (a := '/' :: g.str) (append_in (a := ['/']) (consts_in (by decide)) (sign_in g)) (digits_in (h.2.2 g d hd).1 _)

theorem not_in {s : Str} {ch : List Char} {c : Char} (hs : ∀ x ∈ s, isDig x = true ∨ x ∈ ch) (h1 : isDig c = false) (h2 : c ∉ ch) :
    c ∉ s := fun h => (hs c h).elim (fun h => by rw [h1] at h; cases h) h2

theorem root_sign (r : Root) : 's' ∈ r.render ∨ '√' ∈ r.render := by
  unfold Root.render
  cases r.word <;> simp

theorem term_sign {t : RadTerm} (h : t.root ≠ none) : 's' ∈ t.render ∨ '√' ∈ t.render := by
  unfold RadTerm.render RadTerm.rootStr
  cases hr : t.root with
  | none => exact absurd hr h
  | some r =>
    refine (root_sign r).imp ?_ ?_ <;> intro h <;> simp [h]

theorem rad_sign {t : RadText} (h : t.first.root ≠ none ∨ ∃ u, t.second = some u ∧ u.root ≠ none) : 's' ∈ t.render ∨ '√' ∈ t.render := by
  have hsum : 's' ∈ t.sum ∨ '√' ∈ t.sum := by
    unfold RadText.sum RadText.secondStr
    rcases h with h | ⟨u, hu, h⟩
    · refine (term_sign h).imp ?_ ?_ <;> intro h <;> simp [h]
    · rw [hu]
      refine (term_sign h).imp ?_ ?_ <;> intro h <;> simp [h]
  unfold RadText.render
  refine hsum.imp ?_ ?_ <;> intro h <;> split <;> simp [h]

theorem elem_ratio {g : Sign} {p q s : Str} (hv : (NumText.ratio g p q).Valid) (hf : (NumText.ratio g p q).Fits)
    (hs : squash s = g.str ++ (p ++ '/' :: q)) : ∃ b : Bytes, firstReal s realTypes = .ok (.realFraction, b) ∧ b.length = 9 ∧
      (b.headD 0).toNat % 128 = (UInt8.ofNat 0x18).toNat % 128 ∧ realFraction ⟨true, b⟩ = .ok (ratioValue g p q) := by
  obtain ⟨v1, v2, v3, v4⟩ := hv
  obtain ⟨f1, f2, f3⟩ := hf
  have hch := ratio_chars (g := g) v1 (slash_chars v3)
  have hr := real_odd odd_slash ((mem_of_squash hs (by decide)).2 (by simp)) (fun h => not_mem_chars hch (by decide)
    ((mem_of_squash hs (by decide)).1 h)) (fun h => not_mem_chars hch (by decide) ((mem_of_squash hs (by decide)).1 h))
  obtain ⟨hb, -⟩ := blank_real (c := .realFraction) (t := 0x18) (by simp)
  obtain ⟨b, g1, g2, g3, g4⟩ := C21_fraction _ f2 f3 (UInt8.ofNat 0x18) (List.replicate 8 0) (by simp)
  refine ⟨b, ?_, g2, g4, g3⟩
  rw [firstReal_real_miss hr]
  refine firstReal_hit (w := []) ?_
  rw [hb]
  show fractionLoadString _ _ = _
  rw [C79_ratio g f1 p q v1 v2 v3 v4 s hs]
  exact g1

theorem elem_radical {t : RadText} {s : Str} (hv : (NumText.radical t).Valid) (hf : (NumText.radical t).Fits) (hs : squash s = t.render) :
    ∃ b : Bytes, firstReal s realTypes = .ok (.realRadical, b) ∧ b.length = 9 ∧ b[0]? = some (UInt8.ofNat 0x1C) ∧
      ∃ (x y : Int) (m n : Nat), radFields ⟨true, b⟩ = .ok ((t.denominator.natAbs : Int), x, (m : Int), y, (n : Int)) ∧
        ((x : ℝ) * Real.sqrt m + y * Real.sqrt n) / (t.denominator.natAbs : ℝ) = t.value := by
  obtain ⟨v1, v2⟩ := hv
  obtain ⟨f1, f2⟩ := hf
  have hch := rad_in v1
  have he : 'e' ∉ s := fun h => not_in hch (by decide) (by decide) ((mem_of_squash hs (by decide)).1 h)
  have hE : 'E' ∉ s := fun h => not_in hch (by decide) (by decide) ((mem_of_squash hs (by decide)).1 h)
  obtain ⟨hb, -⟩ := blank_real (c := .realRadical) (t := 0x1C) (by simp)
  obtain ⟨b, g1, g2, g3, x, y, m, n, g4, -, -, g5⟩ := C87_load_partial v1 f1 f2 hs (clearFull .realRadical) (by rw [hb]; simp)
  refine ⟨b, ?_, g2, by rw [g3, hb]; rfl, x, y, m, n, g4, g5⟩
  rcases rad_sign v2 with h | h
  · have hm := (mem_of_squash hs (by decide)).2 h
    rw [firstReal_fraction_miss (real_odd odd_s hm he hE) (fraction_odd odd_s (by decide) hm he hE)]
    exact firstReal_hit (w := []) g1
  · have hm := (mem_of_squash hs (by decide)).2 h
    rw [firstReal_fraction_miss (real_odd odd_surd hm he hE) (fraction_odd odd_surd (by decide) hm he hE)]
    exact firstReal_hit (w := []) g1

/-- The characters of a literal without exponent. -/
theorem literal_in {l : Literal} (hv : l.Valid) (he : l.exp = none) : ∀ x ∈ l.render, isDig x = true ∨ x ∈ ['+', '-', '~', '.'] := by
  unfold Literal.render Literal.expStr
  rw [he]
  refine append_in (append_in (append_in (consts_in ?_) (digits_in hv.1 _)) ?_) (by intro x hx; cases hx)
  · cases l.sign <;> decide
  · unfold Literal.fracStr
    cases hf : l.frac with
    | none => intro x hx; cases hx
    | some f => exact append_in (a := ['.']) (consts_in (by decide)) (digits_in (hv.2.1 f hf) _)

theorem piLoad_spaced {a : Str} (h1 : 'π' ∉ a) (h2 : 'p' ∉ a) (h3 : '*' ∉ a) (star word : Bool) (b : Buf) :
    piLoadString (a ++ piStrOf star word) b = realLoadString a b := by
  have key : replaceStr ['*'] [] (replaceStr ['p', 'i'] ['π'] (a ++ piStrOf star word)) = a ++ ['π'] := by
    have hst : ∀ d : Str, d = [] ∨ d = ['*'] → replaceStr ['*'] [] (a ++ d ++ ['π']) = a ++ ['π'] := by
      rintro d (rfl | rfl)
      · rw [List.append_nil, replaceStr_not_mem '*' [] _ _ (by rw [List.mem_append, not_or]; exact ⟨h3, by decide⟩)]
      · have := replaceStr_once '*' [] [] a ['π'] h3 (by decide)
        rw [List.append_nil] at this
        exact this
    have hd : (if star then ['*'] else [] : Str) = [] ∨ (if star then ['*'] else [] : Str) = ['*'] := by cases star <;> simp
    have hdp : 'p' ∉ a ++ (if star then ['*'] else []) := by
      rw [List.mem_append, not_or]; exact ⟨h2, by cases star <;> decide⟩
    unfold piStrOf
    rw [← List.append_assoc]
    cases word with
    | false =>
      rw [if_neg (c := false = true) (by decide), replaceStr_not_mem 'p' ['i'] _ _ (by rw [List.mem_append, not_or]; exact ⟨hdp, by decide⟩)]
      exact hst _ hd
    | true =>
      have := replaceStr_once 'p' ['i'] ['π'] (a ++ (if star then ['*'] else [])) [] hdp (by simp)
      rw [List.append_nil, List.append_nil] at this
      rw [if_pos (c := true = true) rfl, this]
      exact hst _ hd
  unfold piLoadString
  simp only [key]
  rw [if_pos (by simp), strip_pi _ h1]

theorem elem_multiple {l : Literal} {star word : Bool} {s : Str} (hv : l.Valid) (hf : (NumText.multiple l star word).Fits)
    (hs : (NumText.multiple l star word).Writes s) : ∃ b : Bytes, firstReal s realTypes = .ok (.realPi, b) ∧ Holds l.value b ∧
      (b.headD 0).toNat % 128 = (UInt8.ofNat 0x20).toNat % 128 := by
  obtain ⟨f1, f2, f3⟩ := hf
  obtain ⟨a, ha, rfl⟩ := hs
  have hch := literal_in hv f1
  have na : ∀ c, isDig c = false → isSpaceChar c = false → c ∉ ['+', '-', '~', '.'] → c ∉ a := fun c h1 h2 h3 h =>
    not_in hch h1 h3 ((mem_of_squash ha h2).1 h)
  have he : 'e' ∉ a ++ piStrOf star word := by
    rw [List.mem_append, not_or]
    exact ⟨na _ (by decide) (by decide) (by decide), by cases star <;> cases word <;> decide⟩
  have hE : 'E' ∉ a ++ piStrOf star word := by
    rw [List.mem_append, not_or]
    exact ⟨na _ (by decide) (by decide) (by decide), by cases star <;> cases word <;> decide⟩
  obtain ⟨c, hc, hc1, hc2, hm⟩ : ∃ c, Odd c ∧ c ≠ '/' ∧ c ∉ ['(', ')', '*', 's', 'q', 'r', 't', '√', '/'] ∧ c ∈ a ++ piStrOf star word := by
    cases word with
    | false => exact ⟨'π', odd_pi, by decide, by decide, by simp [piStrOf]⟩
    | true => exact ⟨'p', odd_p, by decide, by decide, by simp [piStrOf]⟩
  obtain ⟨hb, -⟩ := blank_real (c := .realPi) (t := 0x20) (by simp)
  obtain ⟨b, g1, g2, g3⟩ := loadDecimal hv f2 f3 ha (UInt8.ofNat 0x20)
  refine ⟨b, ?_, g2, g3⟩
  rw [firstReal_radical_miss (real_odd hc hm he hE) (fraction_odd hc hc1 hm he hE) (radical_odd hc hc2 hm)]
  refine firstReal_hit (w := []) ?_
  rw [hb]
  show piLoadString _ _ = _
  rw [piLoad_spaced (na _ (by decide) (by decide) (by decide)) (na _ (by decide) (by decide) (by decide))
    (na _ (by decide) (by decide) (by decide))]
  exact g1

theorem elem_piRatio {g : Sign} {p q s : Str} (hv : (NumText.piRatio g p q).Valid) (hf : (NumText.piRatio g p q).Fits)
    (hs : squash s = g.str ++ (p ++ 'π' :: '/' :: q)) : ∃ b : Bytes, firstReal s realTypes = .ok (.realPiFraction, b) ∧ b.length = 9 ∧
      (b.headD 0).toNat % 128 = (UInt8.ofNat 0x21).toNat % 128 ∧ piFraction ⟨true, b⟩ = .ok (ratioValue g p q) := by
  obtain ⟨v1, v2, v3, v4⟩ := hv
  obtain ⟨f1, f2, f3⟩ := hf
  have hch := ratio_chars (g := g) v1 (pi_chars v3)
  have ns : ∀ c, isSpaceChar c = false → (isDig c || c == '+' || c == '-' || c == '~' || c == '/' || c == 'π') = false → c ∉ s :=
    fun c h1 h2 h => not_mem_chars hch h2 ((mem_of_squash hs h1).1 h)
  have he := ns 'e' (by decide) (by decide)
  have hE := ns 'E' (by decide) (by decide)
  have hm : 'π' ∈ s := (mem_of_squash hs (by decide)).2 (by simp)
  have hsl : '/' ∈ s := (mem_of_squash hs (by decide)).2 (by simp)
  obtain ⟨hb, -⟩ := blank_real (c := .realPiFraction) (t := 0x21) (by simp)
  obtain ⟨b, g1, g2, g3, g4⟩ := C81_pi_fraction _ f2 f3 (UInt8.ofNat 0x21) (List.replicate 8 0) (by simp)
  refine ⟨b, ?_, g2, g4, g3⟩
  rw [firstReal_radical_miss (real_odd odd_slash hsl he hE) (fraction_odd odd_pi (by decide) hm he hE) (radical_odd odd_pi (by decide) hm)]
  have hpi : ∀ b, piLoadString s b = ⟨.error .valueError, b, []⟩ := by
    intro b
    unfold piLoadString
    simp only
    rw [replaceStr_not_mem 'p' ['i'] _ _ (ns _ (by decide) (by decide)), replaceStr_not_mem '*' [] _ _ (ns _ (by decide) (by decide)), if_pos hm]
    refine real_odd odd_slash (mem_strip (by decide) hsl) (fun h => he ?_) (fun h => hE ?_) b
    all_goals
      unfold stripChars rstripChars lstripChars at h
      rw [List.mem_reverse] at h
      exact (List.dropWhile_suffix _).subset (List.mem_reverse.1 ((List.dropWhile_suffix _).subset h))
  rw [firstReal_miss (c := .realPi) (hpi _)]
  refine firstReal_hit (w := []) ?_
  rw [hb]
  show piFractionLoadString _ _ = _
  unfold piFractionLoadString
  rw [if_neg (by rintro ⟨-, h⟩; exact h hm), C79_ratio g f1 p q v1 v2 v3 v4 _ ?_]
  · exact g1
  · have : squash (s.filter (· ≠ 'π')) = (squash s).filter (· ≠ 'π') := by
      unfold squash
      rw [List.filter_filter, List.filter_filter]
      congr 1
      funext c
      exact Bool.and_comm _ _
    rw [this, hs]
    have hp : ∀ d : Str, Digits d → d.filter (· ≠ 'π') = d := by
      intro d hd
      rw [List.filter_eq_self]
      intro x hx
      have : x ≠ 'π' := by rintro rfl; exact notDigit (by decide) (hd _ hx)
      simpa using this
    have hg : g.str.filter (· ≠ 'π') = g.str := by cases g <;> decide
    rw [List.filter_append, List.filter_append, hg, hp p v1]
    congr 2
    rw [List.filter_cons, if_neg (by decide), List.filter_cons, if_pos (by decide), hp q v3]

end Verif
