import Verif.Proofs.ArrayReload
import Verif.Model.Typeable

/-! Lemmas about the text that can be typed on a calculator. -/

namespace Verif
open Spec Ent

/-! ### Replacing characters -/

/-- What becomes of a character of the text of a real number. -/
def keyOf (c : Char) : Str := if c = '-' then ['~'] else if c = '/' then ['n', '/', 'd'] else [c]

theorem replace_keys (s : Str) : replaceStr ['/'] ['n', '/', 'd'] (replaceStr ['-'] ['~'] s) = s.flatMap keyOf := by
  rw [replaceStr_single, replaceStr_single, List.flatMap_assoc]
  congr 1
  funext c
  unfold keyOf
  by_cases h : c = '-'
  · simp [h]
  · simp [h]

theorem keys_plain {s : Str} (h1 : '-' ∉ s) (h2 : '/' ∉ s) : s.flatMap keyOf = s := by
  induction s with
  | nil => rfl
  | cons c s ih =>
    simp only [List.mem_cons, not_or] at h1 h2
    rw [List.flatMap_cons, ih h1.2 h2.2, keyOf, if_neg (Ne.symm h1.1), if_neg (Ne.symm h2.1)]
    rfl

theorem digit_not {s : Str} (h : Digits s) {c : Char} (hc : isDig c = false) : c ∉ s :=
  not_mem_of_digits ((digits_iff _).2 h) hc

theorem keys_digits {s : Str} (h : Digits s) : s.flatMap keyOf = s := keys_plain (digit_not h (by decide)) (digit_not h (by decide))

theorem keys_sign (s : Sign) : s.str.flatMap keyOf = s.calc := by cases s <;> decide

/-! ### Roots -/

theorem sqrtSubGo_enough : ∀ (n m : Nat) (s : Str), s.length ≤ n → s.length ≤ m → sqrtSubGo n s = sqrtSubGo m s
  | 0, 0, _, _, _ => rfl
  | 0, m + 1, s, h, _ => by
    have : s = [] := by simpa using h
    subst this; rfl
  | n + 1, 0, s, _, h => by
    have : s = [] := by simpa using h
    subst this; rfl
  | n + 1, m + 1, [], _, _ => rfl
  | n + 1, m + 1, c :: s, h, h' => by
    simp only [List.length_cons, Nat.add_le_add_iff_right] at h h'
    have hd := (List.dropWhile_suffix isDig (l := s)).length_le
    unfold sqrtSubGo
    rw [sqrtSubGo_enough n m s h h', sqrtSubGo_enough n m (s.dropWhile isDig) (by omega) (by omega)]

theorem sqrtSub_cons {c : Char} (h : c ≠ '√') (s : Str) : sqrtSub (c :: s) = c :: sqrtSub s := by
  show sqrtSubGo (s.length + 1) (c :: s) = _
  rw [sqrtSubGo, if_neg h]
  rfl

theorem sqrtSub_plain {a : Str} (h : '√' ∉ a) (b : Str) : sqrtSub (a ++ b) = a ++ sqrtSub b := by
  induction a with
  | nil => rfl
  | cons c a ih =>
    simp only [List.mem_cons, not_or] at h
    rw [List.cons_append, sqrtSub_cons (Ne.symm h.1), ih h.2]
    rfl

/-- The text does not go on with a digit. -/
def NoDigit (s : Str) : Prop := ∀ c, s.head? = some c → isDig c = false

theorem sqrtSub_root {d : Str} (h : Digits d) {b : Str} (hb : NoDigit b) :
    sqrtSub ('√' :: (d ++ b)) = ['s', 'q', 'r', 't', '('] ++ d ++ [')'] ++ sqrtSub b := by
  have hd := (digits_iff _).2 h
  have h1 : (d ++ b).takeWhile isDig = d ∧ (d ++ b).dropWhile isDig = b := by
    clear h
    induction d with
    | nil =>
      cases b with
      | nil => exact ⟨rfl, rfl⟩
      | cons c b =>
        have := hb c rfl
        constructor
        · simp [this]
        · simp [this]
    | cons c d ih =>
      simp only [List.all_cons, Bool.and_eq_true] at hd
      have := ih hd.2
      simp [hd.1, this.1, this.2]
  show sqrtSubGo ((d ++ b).length + 1) ('√' :: (d ++ b)) = _
  rw [sqrtSubGo, if_pos rfl, h1.1, h1.2]
  congr 1
  exact sqrtSubGo_enough _ _ _ (by simp) le_rfl

theorem sqrtSub_nil : sqrtSub [] = [] := rfl

theorem sqrtSub_none {a : Str} (h : '√' ∉ a) : sqrtSub a = a := by
  have := sqrtSub_plain h []
  simpa [sqrtSub_nil] using this

/-! ### Literals -/

theorem calc_no_root (s : Sign) : '√' ∉ s.calc := by cases s <;> decide

theorem squash_calc (s : Sign) : squash s.calc = s.calc := by cases s <;> decide

theorem squash_key {s : Str} (h : Digits s) : squash s = s := squash_digits ((digits_iff _).2 h)

theorem printed_frac {l : Literal} (h : l.Valid) : '-' ∉ l.fracStr ∧ '/' ∉ l.fracStr ∧ '√' ∉ l.fracStr ∧ squash l.fracStr = l.fracStr := by
  unfold Literal.fracStr
  rcases hf : l.frac with _ | f
  · exact ⟨by simp, by simp, by simp, rfl⟩
  · have := h.2.1 f hf
    refine ⟨?_, ?_, ?_, ?_⟩
    · simp [digit_not this (c := '-') (by decide)]
    · simp [digit_not this (c := '/') (by decide)]
    · simp [digit_not this (c := '√') (by decide)]
    · show squash (['.'] ++ f) = ['.'] ++ f
      rw [squash_append, squash_key this]; rfl

theorem calc_lit {l : Literal} (h : Printed l) : l.calc = l.sign.calc ++ l.int ++ l.fracStr := by
  unfold Literal.calc
  rw [h.exp]; simp

theorem keys_lit {l : Literal} (h : Printed l) : l.render.flatMap keyOf = l.calc := by
  have hf := printed_frac h.valid
  rw [calc_lit h]
  have : l.expStr = [] := by unfold Literal.expStr; rw [h.exp]
  unfold Literal.render
  rw [this, List.append_nil, List.flatMap_append, List.flatMap_append, keys_sign, keys_digits h.valid.1, keys_plain hf.1 hf.2.1]

theorem lit_no_root {l : Literal} (h : Printed l) : '√' ∉ l.calc := by
  rw [calc_lit h]
  simp [calc_no_root, digit_not h.valid.1 (c := '√') (by decide), (printed_frac h.valid).2.2.1]

theorem lit_squash {l : Literal} (h : Printed l) : squash l.calc = l.calc := by
  rw [calc_lit h, squash_append, squash_append, squash_calc, squash_key h.valid.1, (printed_frac h.valid).2.2.2]

/-! ### Radicals -/

theorem keys_term {t : RadTerm} (h : t.Valid) (hp : ∀ r, t.root = some r → r.star = false ∧ r.word = false ∧ r.paren = false)
    {b : Str} (hb : NoDigit b) : sqrtSub (t.render.flatMap keyOf ++ b) = t.calc ++ sqrtSub b := by
  unfold RadTerm.render RadTerm.rootStr RadTerm.calc
  rw [List.flatMap_append, List.flatMap_append, keys_sign, keys_digits h.1, List.append_assoc, List.append_assoc,
    sqrtSub_plain (calc_no_root _), sqrtSub_plain (digit_not h.1 (by decide))]
  rcases hr : t.root with _ | r
  · simp
  · obtain ⟨e1, e2, e3⟩ := hp r hr
    have hd := (h.2.2 r hr).1
    have : r.render = '√' :: r.digits := by unfold Root.render; rw [e1, e2, e3]; rfl
    simp only [this, List.flatMap_cons, keys_digits hd]
    show _ ++ (_ ++ sqrtSub ('√' :: (r.digits ++ b))) = _
    rw [sqrtSub_root hd hb]
    simp

theorem squash_termCalc {t : RadTerm} (h : t.Valid) : squash t.calc = t.calc := by
  unfold RadTerm.calc
  rw [squash_append, squash_append, squash_calc, squash_key h.1]
  rcases hr : t.root with _ | r
  · rfl
  · simp only
    rw [squash_append, squash_append, squash_key (h.2.2 r hr).1]
    rfl

theorem noDigit_of {c : Char} (h : isDig c = false) (s : Str) : NoDigit (c :: s) := by
  intro d hd
  cases hd; exact h

theorem keys_sum {t : RadText} (h : t.Valid) (hp : AsPrinted (.radical t)) {b : Str} (hb : NoDigit b) :
    sqrtSub (t.sum.flatMap keyOf ++ b) = t.calcSum ++ sqrtSub b := by
  unfold RadText.sum RadText.secondStr RadText.calcSum
  rw [List.flatMap_append, List.append_assoc]
  rcases hu : t.second with _ | u
  · simp only [List.flatMap_nil, List.nil_append, List.append_nil]
    exact keys_term h.1 hp.1 hb
  · have hs := (h.2.1 u hu).2
    have hd : NoDigit (u.render.flatMap keyOf ++ b) := by
      unfold RadTerm.render
      rw [List.flatMap_append, List.flatMap_append, keys_sign]
      cases hq : u.sign with
      | none => exact absurd hq hs
      | _ => exact noDigit_of (by decide) _
    simp only
    rw [keys_term h.1 hp.1 hd, keys_term (h.2.1 u hu).1 (hp.2 u hu) hb, List.append_assoc]

theorem keys_rad {t : RadText} (h : t.Valid) (hp : AsPrinted (.radical t)) : sqrtSub (t.render.flatMap keyOf) = t.calc := by
  have hden : NoDigit (t.denStr.flatMap keyOf) ∧ sqrtSub (t.denStr.flatMap keyOf) = t.calcDen := by
    unfold RadText.denStr RadText.calcDen
    rcases hd : t.den with _ | ⟨s, d⟩
    · exact ⟨fun c hc => by simp at hc, rfl⟩
    · have hdd := (h.2.2 s d hd).1
      have : ('/' :: s.str ++ d).flatMap keyOf = ['n', '/', 'd'] ++ s.calc ++ d := by
        rw [List.flatMap_append, List.flatMap_cons, keys_sign, keys_digits hdd]
        rfl
      simp only [this]
      refine ⟨noDigit_of (by decide) _, ?_⟩
      rw [sqrtSub_none]
      simp [calc_no_root, digit_not hdd (c := '√') (by decide)]
  unfold RadText.render RadText.calc
  rw [List.flatMap_append]
  cases hpar : t.paren
  · simp only [Bool.false_eq_true, if_false]
    rw [keys_sum h hp hden.1, hden.2]
  · simp only [if_true]
    rw [List.flatMap_append, List.flatMap_cons]
    show sqrtSub ('(' :: (t.sum.flatMap keyOf ++ [')']) ++ _) = _
    rw [List.cons_append, sqrtSub_cons (by decide), List.append_assoc, List.singleton_append,
      keys_sum h hp (noDigit_of (by decide) _)]
    show '(' :: (t.calcSum ++ sqrtSub (')' :: _)) = _
    rw [sqrtSub_cons (by decide), hden.2]
    simp

theorem squash_rad {t : RadText} (h : t.Valid) : squash t.calc = t.calc := by
  have hs : squash t.calcSum = t.calcSum := by
    unfold RadText.calcSum
    rw [squash_append, squash_termCalc h.1]
    rcases hu : t.second with _ | u
    · rfl
    · simp only [squash_termCalc (h.2.1 u hu).1]
  unfold RadText.calc RadText.calcDen
  rw [squash_append]
  congr 1
  · cases t.paren
    · exact hs
    · simp only [if_true]
      rw [squash_append, squash_append, hs]; rfl
  · rcases hd : t.den with _ | ⟨s, d⟩
    · rfl
    · simp only
      rw [squash_append, squash_append, squash_calc, squash_key (h.2.2 s d hd).1]; rfl

/-! ### All forms -/

/-- What the text becomes. -/
theorem typeable_calc {n : NumText} (hv : n.Valid) (hp : AsPrinted n) {t : Str} (hw : n.Writes t) (hs : squash t = t) :
    typeableReal t = n.calc := by
  unfold typeableReal
  rw [replace_keys]
  have hsq : ∀ {g : Sign} {p q w : Str}, Digits p → Digits q → squash w = w → squash (g.calc ++ p ++ w ++ q) = g.calc ++ p ++ w ++ q := by
    intro g p q w h1 h2 h3
    rw [squash_append, squash_append, squash_append, squash_calc, squash_key h1, squash_key h2, h3]
  cases n with
  | literal l =>
    have : t = l.render := hs.symm.trans hw
    rw [this, keys_lit hp, sqrtSub_none (lit_no_root hp), lit_squash hp]; rfl
  | ratio g p q =>
    have : t = g.str ++ (p ++ '/' :: q) := hs.symm.trans hw
    have hk : t.flatMap keyOf = g.calc ++ p ++ ['n', '/', 'd'] ++ q := by
      rw [this, List.flatMap_append, List.flatMap_append, List.flatMap_cons, keys_sign, keys_digits hv.1, keys_digits hv.2.2.1]
      simp [keyOf]
    rw [hk, sqrtSub_none, hsq hv.1 hv.2.2.1 rfl]; rfl
    simp [calc_no_root, digit_not hv.1 (c := '√') (by decide), digit_not hv.2.2.1 (c := '√') (by decide)]
  | radical r =>
    have : t = r.render := hs.symm.trans hw
    rw [this, keys_rad hv.1 hp, squash_rad hv.1]; rfl
  | multiple l star word =>
    obtain ⟨hp, rfl, rfl⟩ := hp
    obtain ⟨a, ha, rfl⟩ := hw
    have : a = l.render := by
      rw [squash_append] at hs
      rw [← ha]
      exact (List.append_cancel_right (hs : squash a ++ squash (piStrOf false false) = _)).symm
    rw [this, List.flatMap_append, keys_lit hp, sqrtSub_plain (lit_no_root hp), squash_append, lit_squash hp]; rfl
  | piRatio g p q =>
    have : t = g.str ++ (p ++ 'π' :: '/' :: q) := hs.symm.trans hw
    have hk : t.flatMap keyOf = g.calc ++ p ++ ['π', 'n', '/', 'd'] ++ q := by
      rw [this, List.flatMap_append, List.flatMap_append, List.flatMap_cons, List.flatMap_cons, keys_sign, keys_digits hv.1,
        keys_digits hv.2.2.1]
      simp [keyOf]
    rw [hk, sqrtSub_none, hsq hv.1 hv.2.2.1 rfl]; rfl
    simp [calc_no_root, digit_not hv.1 (c := '√') (by decide), digit_not hv.2.2.1 (c := '√') (by decide)]

/-! ### The text as a text that can be loaded -/

/-- The sign of the calculator. -/
def tilSign : Sign → Sign
  | .minus => .tilde
  | s => s

theorem til_str (s : Sign) : (tilSign s).str = s.calc := by cases s <;> rfl

theorem til_neg (s : Sign) : (tilSign s).isNeg = s.isNeg := by cases s <;> rfl

def tilLit (l : Literal) : Literal := { l with sign := tilSign l.sign }

def tilTerm (t : RadTerm) : RadTerm := ⟨tilSign t.sign, t.scalar, t.root.map fun r => ⟨false, true, true, r.digits⟩⟩

def tilRad (t : RadText) : RadText := ⟨t.paren, tilTerm t.first, t.second.map tilTerm, t.den⟩

def tilNum : NumText → NumText
  | .literal l => .literal (tilLit l)
  | .radical t => .radical (tilRad t)
  | .multiple l star word => .multiple (tilLit l) star word
  | n => n

theorem tilLit_render {l : Literal} (h : Printed l) : (tilLit l).render = l.calc := by
  rw [calc_lit h]
  have : (tilLit l).expStr = [] := by
    unfold Literal.expStr tilLit
    rw [show ({ l with sign := tilSign l.sign } : Literal).exp = none from h.exp]
  unfold Literal.render
  rw [this, List.append_nil]
  show (tilSign l.sign).str ++ l.int ++ l.fracStr = _
  rw [til_str]

theorem tilLit_value (l : Literal) : (tilLit l).value = l.value := by
  unfold Literal.value Literal.sgn
  show ((if (tilSign l.sign).isNeg then (-1 : Int) else 1 : Int) : ℚ) * l.magnitude = _
  rw [til_neg]

theorem tilTerm_render (t : RadTerm) : (tilTerm t).render = t.calc := by
  unfold RadTerm.render RadTerm.calc RadTerm.rootStr tilTerm
  simp only [til_str]
  cases t.root <;> rfl

theorem tilTerm_valid {t : RadTerm} (h : t.Valid) : (tilTerm t).Valid := by
  refine ⟨h.1, fun hr => h.2.1 ?_, fun r hr => ?_⟩
  · simpa [tilTerm] using hr
  · simp only [tilTerm, Option.map_eq_some_iff] at hr
    obtain ⟨r', h1, rfl⟩ := hr
    exact h.2.2 r' h1

theorem tilTerm_factor (t : RadTerm) : (tilTerm t).factor = t.factor := by
  unfold RadTerm.factor tilTerm
  simp only [til_neg]

theorem tilTerm_radicand (t : RadTerm) : (tilTerm t).radicand = t.radicand := by
  unfold RadTerm.radicand tilTerm
  cases t.root <;> rfl

theorem tilRad_second (t : RadText) : (tilRad t).factor2 = t.factor2 ∧ (tilRad t).radicand2 = t.radicand2 := by
  unfold RadText.factor2 RadText.radicand2 tilRad
  cases t.second with
  | none => exact ⟨rfl, rfl⟩
  | some u => exact ⟨tilTerm_factor u, tilTerm_radicand u⟩

theorem tilRad_lead (t : RadText) : (tilRad t).lead = t.lead := by
  have h1 : (tilRad t).first.factor = t.first.factor := tilTerm_factor t.first
  have h2 : (tilRad t).first.radicand = t.first.radicand := tilTerm_radicand t.first
  unfold RadText.lead
  rw [h1, h2, (tilRad_second t).1, (tilRad_second t).2]

theorem tilRad_render {t : RadText} (h : t.den = none) : (tilRad t).render = t.calc := by
  have hsum : (tilRad t).sum = t.calcSum := by
    unfold RadText.sum RadText.calcSum RadText.secondStr tilRad
    simp only [tilTerm_render]
    cases t.second with
    | none => rfl
    | some u => simp only [Option.map_some, tilTerm_render]
  have hden : (tilRad t).denStr = [] := by
    unfold RadText.denStr tilRad
    simp only [h]
  unfold RadText.render RadText.calc RadText.calcDen
  rw [hsum, hden, h]
  rfl

theorem tilRad_some {t : RadText} {u : RadTerm} (h : (tilRad t).second = some u) : ∃ v, t.second = some v ∧ tilTerm v = u := by
  simpa [tilRad, Option.map_eq_some_iff] using h

theorem tilSign_ne {s : Sign} (h : s ≠ .none) : tilSign s ≠ .none := by
  cases s <;> first | exact absurd rfl h | (intro h'; cases h')

/-- A text without denominator loads as written on the calculator. -/
theorem til_fits {n : NumText} (hv : n.Valid) (hf : n.Fits) (hp : AsPrinted n) (hw : Whole n) :
    (tilNum n).Valid ∧ (tilNum n).Fits ∧ (∀ s, squash s = [] → (tilNum n).Writes (s ++ n.calc)) ∧ (tilNum n).kind = n.kind ∧
      ∀ y, Stored (tilNum n) y → Stored n y := by
  have happ : ∀ {s t : Str}, squash s = [] → squash (s ++ t) = squash t := by
    intro s t hs; rw [squash_append, hs, List.nil_append]
  cases n with
  | literal l =>
    refine ⟨hv, hf, fun s hs => ?_, rfl, fun y hy => ?_⟩
    · show squash (s ++ l.calc) = _
      rw [happ hs, lit_squash hp, tilLit_render hp]
    · show Holds l.value _
      rw [← tilLit_value]; exact hy
  | ratio g p q => exact absurd hw id
  | radical t =>
    have hw : t.den = none := hw
    have h1 : (tilRad t).first.factor = t.first.factor := tilTerm_factor t.first
    have h2 : (tilRad t).first.radicand = t.first.radicand := tilTerm_radicand t.first
    have hden : (tilRad t).denominator = t.denominator := rfl
    refine ⟨⟨⟨tilTerm_valid hv.1.1, fun u hu => ?_, hv.1.2.2⟩, ?_⟩, ⟨⟨?_, fun u hu => ?_, hf.1.den, ?_⟩, ⟨?_, fun u hu hr => ?_, fun s d h => ?_⟩⟩,
      fun s hs => ?_, rfl, fun y hy => ?_⟩
    · obtain ⟨v, hv', rfl⟩ := tilRad_some hu
      exact ⟨tilTerm_valid (hv.1.2.1 v hv').1, tilSign_ne (hv.1.2.1 v hv').2⟩
    · rcases hv.2 with h | ⟨u, hu, h⟩
      · left; simpa [tilRad, tilTerm] using h
      · right
        exact ⟨tilTerm u, by simp [tilRad, hu], by simpa [tilTerm] using h⟩
    · rw [h1, h2]; exact hf.1.first
    · obtain ⟨v, hv', rfl⟩ := tilRad_some hu
      rw [tilTerm_factor, tilTerm_radicand]
      exact hf.1.second v hv'
    · rw [tilRad_lead]; exact hf.1.lead
    · rw [tilRad_lead]; exact hf.2.lead
    · obtain ⟨v, hv', rfl⟩ := tilRad_some hu
      have := hf.2.roots v hv' (by simpa [tilRad, tilTerm] using hr)
      simpa [tilTerm] using this
    · intro _ hd
      have : t.den = some (s, d) := hd
      rw [hw] at this; cases this
    · show squash (s ++ t.calc) = _
      rw [happ hs, squash_rad hv.1, tilRad_render hw]
    · obtain ⟨a, b, m, n, g1, g2⟩ := hy
      refine ⟨a, b, m, n, g1, g2.trans ?_⟩
      unfold RadText.value
      rw [h1, h2, (tilRad_second t).1, (tilRad_second t).2]
      rfl
  | multiple l star word =>
    obtain ⟨hp, rfl, rfl⟩ := hp
    refine ⟨hv, hf, fun s hs => ⟨s ++ l.calc, ?_, ?_⟩, rfl, fun y hy => ?_⟩
    · rw [happ hs, lit_squash hp, tilLit_render hp]
    · show s ++ (l.calc ++ ['π']) = _
      simp [piStrOf]
    · show Holds l.value _
      rw [← tilLit_value]; exact hy
  | piRatio g p q => exact absurd hw id

/-- With a denominator there is a letter that no class reads. -/
theorem calc_letters {n : NumText} (hv : n.Valid) (hp : AsPrinted n) (hw : ¬ Whole n) : 'd' ∈ n.calc ∧ 'e' ∉ n.calc ∧ 'E' ∉ n.calc := by
  have hs : ∀ g : Sign, 'e' ∉ g.calc ∧ 'E' ∉ g.calc := by intro g; cases g <;> decide
  have hdig : ∀ {s : Str}, Digits s → 'e' ∉ s ∧ 'E' ∉ s := fun h => ⟨digit_not h (by decide), digit_not h (by decide)⟩
  cases n with
  | literal l => exact absurd trivial hw
  | multiple l s w => exact absurd trivial hw
  | ratio g p q =>
    refine ⟨by simp [NumText.calc], ?_, ?_⟩
    · simp [NumText.calc, hs, hdig hv.1, hdig hv.2.2.1]
    · simp [NumText.calc, hs, hdig hv.1, hdig hv.2.2.1]
  | piRatio g p q =>
    refine ⟨by simp [NumText.calc], ?_, ?_⟩
    · simp [NumText.calc, hs, hdig hv.1, hdig hv.2.2.1]
    · simp [NumText.calc, hs, hdig hv.1, hdig hv.2.2.1]
  | radical t =>
    have ht : ∀ u : RadTerm, u.Valid → 'e' ∉ u.calc ∧ 'E' ∉ u.calc := by
      intro u hu
      unfold RadTerm.calc
      rcases hr : u.root with _ | r
      · simp [hs, hdig hu.1]
      · simp [hs, hdig hu.1, hdig (hu.2.2 r hr).1]
    have hsum : 'e' ∉ t.calcSum ∧ 'E' ∉ t.calcSum := by
      unfold RadText.calcSum
      rcases hu : t.second with _ | u
      · simp [ht _ hv.1.1]
      · simp [ht _ hv.1.1, ht _ (hv.1.2.1 u hu).1]
    show 'd' ∈ t.calc ∧ 'e' ∉ t.calc ∧ 'E' ∉ t.calc
    unfold RadText.calc RadText.calcDen
    rcases hd : t.den with _ | ⟨s, d⟩
    · exact absurd hd hw
    · cases t.paren <;> simp [hsum, hs, hdig (hv.1.2.2 s d hd).1]

theorem of_mem_replaceGo {old new : Str} {c : Char} : ∀ (fuel : Nat) (s : Str), c ∈ replaceStr.go old new s fuel → c ∈ s ∨ c ∈ new
  | 0, s, h => Or.inl h
  | fuel + 1, [], h => by simp [replaceStr.go] at h
  | fuel + 1, a :: s, h => by
    rw [replaceStr.go] at h
    split at h
    · rcases List.mem_append.1 h with h | h
      · exact Or.inr h
      · exact (of_mem_replaceGo fuel _ h).imp List.mem_of_mem_drop id
    · rcases List.mem_cons.1 h with rfl | h
      · exact Or.inl (by simp)
      · exact (of_mem_replaceGo fuel _ h).imp (List.mem_cons_of_mem _) id

theorem of_mem_replaceStr {old new s : Str} {c : Char} (h : c ∈ replaceStr old new s) : c ∈ s ∨ c ∈ new := of_mem_replaceGo _ _ h

theorem of_mem_strip {chars s : Str} {c : Char} (h : c ∈ stripChars chars s) : c ∈ s := by
  unfold stripChars rstripChars lstripChars at h
  have h1 := List.mem_reverse.1 ((List.dropWhile_suffix _).subset (List.mem_reverse.1 h))
  exact (List.dropWhile_suffix _).subset h1

/-- Text with a letter `d` is not a number. -/
theorem letter_refused {s : Str} (h : 'd' ∈ s) (h1 : 'e' ∉ s) (h2 : 'E' ∉ s) : ∀ c ∈ realClasses, ∃ x,
    (loadRealString c s ⟨true, clearFull c⟩).res = .error x := by
  have hodd : Odd 'd' := by unfold Odd; decide
  have hreal : ∀ b, realLoadString s b = ⟨.error .valueError, b, []⟩ := real_odd hodd h h1 h2
  intro c hc
  refine ⟨.valueError, ?_⟩
  have hcases : c = .real ∨ c = .undefReal ∨ c = .realFraction ∨ c = .realRadical ∨ c = .realPi ∨ c = .realPiFraction := by
    revert hc; revert c; decide
  rcases hcases with rfl | rfl | rfl | rfl | rfl | rfl
  · show (realLoadString s _).res = _
    rw [hreal]
  · show (realLoadString s _).res = _
    rw [hreal]
  · show (fractionLoadString s _).res = _
    rw [fraction_odd hodd (by decide) h h1 h2]
  · show (radLoadString s _).res = _
    rw [radical_odd hodd (by decide) h]
  · show (piLoadString s _).res = _
    unfold piLoadString
    simp only
    split
    · have hin : ∀ c : Char, c ≠ 'π' → c ∈ stripChars ['π'] (replaceStr ['*'] [] (replaceStr ['p', 'i'] ['π'] s)) → c ∈ s := by
        intro c hc h
        rcases of_mem_replaceStr (of_mem_strip h) with h | h
        · rcases of_mem_replaceStr h with h | h
          · exact h
          · exact absurd (List.mem_singleton.1 h) hc
        · cases h
      rw [real_odd hodd (mem_strip (by decide) (mem_replaceStr _ (by decide) (by decide) (mem_replaceStr _ (by decide) (by decide) h)))
        (fun h => h1 (hin _ (by decide) h)) fun h => h2 (hin _ (by decide) h)]
    · rfl
  · show (piFractionLoadString s _).res = _
    unfold piFractionLoadString
    split
    · rfl
    · rw [fraction_odd hodd (by decide) (List.mem_filter.2 ⟨h, by decide⟩) (fun h => h1 (List.mem_of_mem_filter h))
        fun h => h2 (List.mem_of_mem_filter h)]

end Verif
