import Verif.Proofs.Real
import Verif.Spec.Real

/-! Helper lemmas for `TIReal.load_string`. -/

namespace Verif
open Spec

/-! ### Spec digits and model digits agree -/

theorem isDig_iff (c : Char) : isDig c = true ↔ IsDigit c := by
  constructor
  · exact isDig_cases
  · rintro ⟨h1, h2⟩
    have e : c = Char.ofNat c.toNat := (Char.ofNat_toNat c).symm
    have key : ∀ n, n < 58 → 48 ≤ n → isDig (Char.ofNat n) = true := by decide +kernel
    rw [e]; exact key c.toNat (by omega) h1

theorem digits_iff (s : Str) : s.all isDig = true ↔ Digits s := by
  simp only [List.all_eq_true, Digits, isDig_iff]

theorem digitsValue_eq (s : Str) : digitsValue s = natVal s := by
  induction s with
  | nil => rfl
  | cons c cs ih => rw [digitsValue, natVal_cons, ih]; rfl

/-! ### `str.replace` -/

theorem replaceStr_go_single (a : Char) (new s : Str) (fuel : Nat) (h : s.length ≤ fuel) :
    replaceStr.go [a] new s fuel = s.flatMap fun c => if c = a then new else [c] := by
  induction fuel generalizing s with
  | zero =>
    have : s = [] := by simpa using h
    subst this; rfl
  | succ fuel ih =>
    cases s with
    | nil => rfl
    | cons c cs =>
      have hl : cs.length ≤ fuel := by simpa using h
      by_cases hc : c = a
      · subst hc
        rw [replaceStr.go]
        simp [ih cs hl]
      · rw [replaceStr.go]
        have hp : [a].isPrefixOf (c :: cs) = false := by
          simp [List.isPrefixOf]; exact fun h => hc h.symm
        simp [hp, hc, ih cs hl]

theorem replaceStr_single (a : Char) (new s : Str) :
    replaceStr [a] new s = s.flatMap fun c => if c = a then new else [c] :=
  replaceStr_go_single a new s _ (Nat.le_refl _)

theorem flatMap_replace_of_not_mem {a : Char} {new s : Str} (h : a ∉ s) :
    (s.flatMap fun c => if c = a then new else [c]) = s := by
  induction s with
  | nil => rfl
  | cons c cs ih =>
    simp only [List.mem_cons, not_or] at h
    simp [ih h.2, Ne.symm h.1]

/-- `replace` does nothing where the first character of the pattern is absent. -/
theorem replaceStr_go_skip (a : Char) (as new s t : Str) (hs : a ∉ s) (fuel : Nat) (h : (s ++ t).length ≤ fuel) :
    replaceStr.go (a :: as) new (s ++ t) fuel = s ++ replaceStr.go (a :: as) new t (fuel - s.length) := by
  induction s generalizing fuel with
  | nil => rfl
  | cons c cs ih =>
    simp only [List.mem_cons, not_or] at hs
    cases fuel with
    | zero => simp at h
    | succ fuel =>
      have hp : (a :: as).isPrefixOf (c :: (cs ++ t)) = false := by
        simp [List.isPrefixOf, hs.1]
      rw [List.cons_append, replaceStr.go, hp]
      simp only [Bool.false_eq_true, if_false, List.cons_append]
      rw [ih hs.2 fuel (by simpa using h)]
      simp

theorem replaceStr_go_nil (old new : Str) (fuel : Nat) : replaceStr.go old new [] fuel = [] := by
  cases fuel <;> rfl

theorem replaceStr_not_mem (a : Char) (as new s : Str) (hs : a ∉ s) : replaceStr (a :: as) new s = s := by
  have := replaceStr_go_skip a as new s [] hs s.length (by simp)
  rw [replaceStr]
  simp only [List.append_nil] at this
  rw [this, replaceStr_go_nil]; simp

theorem replaceStr_once (a : Char) (as new s t : Str) (hs : a ∉ s) (ht : a ∉ t) :
    replaceStr (a :: as) new (s ++ (a :: as) ++ t) = s ++ new ++ t := by
  rw [replaceStr, List.append_assoc, replaceStr_go_skip a as new s _ hs _ (Nat.le_refl _)]
  have hl : (s ++ (a :: as ++ t)).length - s.length = (a :: as ++ t).length := by simp
  rw [hl]
  have h2 : (a :: as ++ t).length = (as.length + t.length) + 1 := by simp
  rw [h2, List.cons_append, replaceStr.go]
  have hp : (a :: as).isPrefixOf (a :: (as ++ t)) = true := by
    simp [List.isPrefixOf_iff_prefix]
  rw [if_pos hp]
  have hd : (a :: (as ++ t)).drop (a :: as).length = t := by simp
  rw [hd]
  have := replaceStr_go_skip a as new t [] ht (as.length + t.length) (by simp)
  simp only [List.append_nil] at this
  rw [this, replaceStr_go_nil]; simp

/-! ### Characters of digit strings -/

theorem digit_facts : ∀ n, n < 58 → 48 ≤ n → (let c := Char.ofNat n;
    c ≠ '|' ∧ c ≠ 'e' ∧ c ≠ 'E' ∧ c ≠ '.' ∧ c ≠ '+' ∧ c ≠ '-' ∧ c ≠ '~' ∧
    lowerAscii [c] = [c]) := by decide +kernel

theorem isDig_facts {c : Char} (h : isDig c = true) :
    c ≠ '|' ∧ c ≠ 'e' ∧ c ≠ 'E' ∧ c ≠ '.' ∧ c ≠ '+' ∧ c ≠ '-' ∧ c ≠ '~' ∧ lowerAscii [c] = [c] := by
  have h1 := isDig_cases h
  have h2 := digit_facts c.toNat (by omega) h1.1
  simpa [Char.ofNat_toNat] using h2

theorem lowerAscii_append (s t : Str) : lowerAscii (s ++ t) = lowerAscii s ++ lowerAscii t := by
  simp [lowerAscii]

theorem lowerAscii_digits {s : Str} (h : s.all isDig = true) : lowerAscii s = s := by
  induction s with
  | nil => rfl
  | cons c cs ih =>
    simp only [List.all_cons, Bool.and_eq_true] at h
    have h1 := (isDig_facts h.1).2.2.2.2.2.2.2
    have h2 := ih h.2
    rw [show c :: cs = [c] ++ cs from rfl, lowerAscii_append, h1, h2]

/-- canonical sign character -/
def csign (s : Sign) : Str := match s with
  | .none => []
  | .plus => ['+']
  | .minus | .tilde => ['-']

/-- canonical exponent part -/
def cexp (l : Literal) : Str := match l.exp with
  | none => []
  | some (_, s, x) => 'e' :: (csign s ++ x)

theorem csign_facts (s : Sign) : lowerAscii s.str = s.str ∧
    (s.str.flatMap fun c => if c = '~' then ['-'] else [c]) = csign s ∧ '|' ∉ csign s := by
  cases s <;> decide +kernel

theorem fracStr_facts (l : Literal) (hv : l.Valid) :
    lowerAscii l.fracStr = l.fracStr ∧ '~' ∉ l.fracStr ∧ '|' ∉ l.fracStr ∧ 'e' ∉ l.fracStr := by
  obtain ⟨-, hf, -⟩ := hv
  unfold Literal.fracStr
  cases hl : l.frac with
  | none => decide
  | some f =>
    have hd := (digits_iff _).mpr (hf f hl)
    refine ⟨?_, ?_, ?_, ?_⟩
    · simp only
      rw [show '.' :: f = ['.'] ++ f from rfl, lowerAscii_append, lowerAscii_digits hd]; rfl
    · simpa using not_mem_of_digits hd (by decide)
    · simpa using not_mem_of_digits hd (by decide)
    · simpa using not_mem_of_digits hd (by decide)

/-- The canonical form of a literal after the first replacements. -/
theorem canon_literal (l : Literal) (hv : l.Valid) :
    replaceStr ['|', 'e'] ['e'] (replaceStr ['~'] ['-'] (lowerAscii l.render)) =
      csign l.sign ++ l.int ++ l.fracStr ++ cexp l := by
  have hi' := (digits_iff _).mpr hv.1
  have hti : '~' ∉ l.int := not_mem_of_digits hi' (by decide)
  have hpi : '|' ∉ l.int := not_mem_of_digits hi' (by decide)
  obtain ⟨f1, f2, f3, -⟩ := fracStr_facts l hv
  have hcs := csign_facts
  simp only [Literal.render, lowerAscii_append, (hcs l.sign).1, lowerAscii_digits hi', f1]
  rw [replaceStr_single]
  simp only [List.flatMap_append, (hcs l.sign).2.1, flatMap_replace_of_not_mem hti, flatMap_replace_of_not_mem f2]
  unfold Literal.expStr cexp
  cases hl : l.exp with
  | none =>
    have : lowerAscii [] = [] := rfl
    simp only [this, List.flatMap_nil, List.append_nil]
    apply replaceStr_not_mem
    simp [(hcs l.sign).2.2, hpi, f3]
  | some p =>
    obtain ⟨m, s, x⟩ := p
    have hx' := (digits_iff _).mpr (hv.2.2 m s x hl).1
    have htx : '~' ∉ x := not_mem_of_digits hx' (by decide)
    have hpx : '|' ∉ x := not_mem_of_digits hx' (by decide)
    have hm : ((lowerAscii m.str).flatMap fun c => if c = '~' then ['-'] else [c]) = ['e'] ∨
        ((lowerAscii m.str).flatMap fun c => if c = '~' then ['-'] else [c]) = ['|', 'e'] := by
      cases m <;> decide +kernel
    simp only [lowerAscii_append, (hcs s).1, lowerAscii_digits hx', List.flatMap_append, (hcs s).2.1,
      flatMap_replace_of_not_mem htx]
    rcases hm with hm | hm
    · rw [hm, replaceStr_not_mem]
      · simp
      · simp [(hcs l.sign).2.2, hpi, f3, (hcs s).2.2, hpx]
    · rw [hm, show csign l.sign ++ l.int ++ l.fracStr ++ (['|', 'e'] ++ csign s ++ x)
        = (csign l.sign ++ l.int ++ l.fracStr) ++ ['|', 'e'] ++ (csign s ++ x) by simp,
        replaceStr_once]
      · simp
      · simp [(hcs l.sign).2.2, hpi, f3]
      · simp [(hcs s).2.2, hpx]

/-- Exponent text after `e`. -/
def ctail (l : Literal) : Str := match l.exp with
  | none => ['0']
  | some (_, s, x) => csign s ++ x

theorem ctail_facts (l : Literal) (hv : l.Valid) :
    'e' ∉ ctail l ∧ '.' ∉ ctail l ∧ ctail l ≠ [] ∧ (∃ c, (ctail l).getLast? = some c ∧ isDig c = true) ∧
    parseInt (ctail l) = .ok l.expValue := by
  unfold ctail
  cases hl : l.exp with
  | none => simp only [Literal.expValue, hl]; decide +kernel
  | some p =>
    obtain ⟨m, s, x⟩ := p
    obtain ⟨hx, hne⟩ := hv.2.2 m s x hl
    have hx' := (digits_iff _).mpr hx
    have h1 : 'e' ∉ x := not_mem_of_digits hx' (by decide)
    have h2 : '.' ∉ x := not_mem_of_digits hx' (by decide)
    have hlast : ∃ c, x.getLast? = some c ∧ isDig c = true := by
      refine ⟨x.getLast hne, List.getLast?_eq_some_getLast hne, ?_⟩
      exact List.all_eq_true.mp hx' _ (List.getLast_mem hne)
    have hlast' : ∃ c, (csign s ++ x).getLast? = some c ∧ isDig c = true := by
      obtain ⟨c, h, hc⟩ := hlast
      exact ⟨c, by rw [List.getLast?_append, h]; rfl, hc⟩
    have hp : parseNat x = .ok (natVal x) := parseNat_of_digits hx' hne
    refine ⟨?_, ?_, ?_, hlast', ?_⟩
    · cases s <;> simp [csign, h1]
    · cases s <;> simp [csign, h2]
    · simp [hne]
    · simp only [Literal.expValue, hl, digitsValue_eq]
      cases s
      · simp only [csign, List.nil_append, parseInt_of_digits hx' hne, Sign.isNeg]; rfl
      · simp only [csign, List.cons_append, List.nil_append, parseInt, hp, Sign.isNeg]; rfl
      · simp only [csign, List.cons_append, List.nil_append, parseInt, hp, Sign.isNeg]; rfl
      · simp only [csign, List.cons_append, List.nil_append, parseInt, hp, Sign.isNeg]; rfl

theorem stripChars_sign (s : Sign) (t : Str) (hne : t ≠ [])
    (hhead : ∀ c, t.head? = some c → c ≠ '+' ∧ c ≠ '-') (hlast : ∃ c, t.getLast? = some c ∧ isDig c = true) :
    stripChars ['+', '-'] (csign s ++ t) = t ∧ startsWith ['-'] (csign s ++ t) = s.isNeg := by
  obtain ⟨c, cs, rfl⟩ := List.exists_cons_of_ne_nil hne
  have hc := hhead c rfl
  have hl : lstripChars ['+', '-'] (csign s ++ c :: cs) = c :: cs := by
    cases s <;> simp [csign, lstripChars, hc.1, hc.2]
  constructor
  · rw [stripChars, hl, rstripChars]
    obtain ⟨z, hz, hd⟩ := hlast
    have hz' : (c :: cs).reverse.head? = some z := by rw [List.head?_reverse]; exact hz
    obtain ⟨w, ws, hw⟩ : ∃ w ws, (c :: cs).reverse = w :: ws := by
      cases h : (c :: cs).reverse with
      | nil => simp at h
      | cons w ws => exact ⟨w, ws, rfl⟩
    rw [hw] at hz' ⊢
    simp only [List.head?_cons, Option.some.injEq] at hz'
    subst hz'
    have f := isDig_facts hd
    rw [List.dropWhile_cons_of_neg (by simp [f.2.2.2.2.1, f.2.2.2.2.2.1]), ← hw, List.reverse_reverse]
  · have : ('-' == c) = false := by simp [Ne.symm hc.2]
    cases s <;> simp [csign, startsWith, List.isPrefixOf, Sign.isNeg, Ne.symm hc.2]

/-- `realNormalize` on anything that squashes to a literal. -/
theorem realNormalize_literal (l : Literal) (hv : l.Valid) (s : Str) (hs : squash s = l.render) :
    realNormalize s = (l.sign.isNeg, l.int ++ '.' :: l.fracDigits ++ 'e' :: ctail l) := by
  have hi' := (digits_iff _).mpr hv.1
  have hei : 'e' ∉ l.int := not_mem_of_digits hi' (by decide)
  have hdi : '.' ∉ l.int := not_mem_of_digits hi' (by decide)
  obtain ⟨-, -, -, f4⟩ := fracStr_facts l hv
  have hsg : 'e' ∉ csign l.sign ∧ '.' ∉ csign l.sign := by cases l.sign <;> decide
  have t := ctail_facts l hv
  have e1 : (if 'e' ∈ csign l.sign ++ l.int ++ l.fracStr ++ cexp l then csign l.sign ++ l.int ++ l.fracStr ++ cexp l
      else csign l.sign ++ l.int ++ l.fracStr ++ cexp l ++ ['e', '0'])
      = csign l.sign ++ l.int ++ l.fracStr ++ 'e' :: ctail l := by
    unfold cexp ctail
    cases hl : l.exp with
    | none =>
      rw [if_neg (by simp [hsg.1, hei, f4])]; simp
    | some p => rw [if_pos (by simp)]
  have e2 : (if '.' ∈ csign l.sign ++ l.int ++ l.fracStr ++ 'e' :: ctail l
        then csign l.sign ++ l.int ++ l.fracStr ++ 'e' :: ctail l
        else replaceStr ['e'] ['.', 'e'] (csign l.sign ++ l.int ++ l.fracStr ++ 'e' :: ctail l))
      = csign l.sign ++ (l.int ++ '.' :: l.fracDigits ++ 'e' :: ctail l) := by
    unfold Literal.fracStr Literal.fracDigits
    cases hl : l.frac with
    | none =>
      have : '.' ∉ csign l.sign ++ l.int ++ [] ++ 'e' :: ctail l := by
        simp [hsg.2, hdi, t.2.1]
      rw [if_neg this]
      have h := replaceStr_once 'e' [] ['.', 'e'] (csign l.sign ++ l.int) (ctail l)
        (by simp [hsg.1, hei]) t.1
      rw [show csign l.sign ++ l.int ++ [] ++ 'e' :: ctail l = csign l.sign ++ l.int ++ ['e'] ++ ctail l by simp, h]
      simp
    | some f => rw [if_pos (by simp)]; simp
  have hstrip := stripChars_sign l.sign (l.int ++ '.' :: l.fracDigits ++ 'e' :: ctail l) (by simp) (by
    intro c hc
    cases h : l.int with
    | nil => rw [h] at hc; simp at hc; subst hc; decide
    | cons a as =>
      rw [h] at hc hi'
      simp only [List.cons_append, List.head?_cons, Option.some.injEq] at hc
      subst hc
      simp only [List.all_cons, Bool.and_eq_true] at hi'
      exact ⟨(isDig_facts hi'.1).2.2.2.2.1, (isDig_facts hi'.1).2.2.2.2.2.1⟩) (by
    obtain ⟨c, h, hc⟩ := t.2.2.2.1
    refine ⟨c, ?_, hc⟩
    rw [List.getLast?_append, show 'e' :: ctail l = ['e'] ++ ctail l from rfl, List.getLast?_append, h]; rfl)
  simp only [realNormalize, hs, canon_literal l hv, e1, e2, hstrip]

/-! ### The digit-shifting loop -/

theorem realLoop_succ (fuel : Nat) (integer decimal : Str) (exponent : Int) :
    realLoop (fuel + 1) integer decimal exponent =
      match parseInt integer with
      | .error e => .error e
      | .ok value =>
        if 0 < value ∧ value < 10 then .ok (integer, decimal, exponent)
        else if value = 0 then
          match decimal with
          | [] => .error .indexError
          | d :: ds => realLoop fuel [d] ds (exponent - 1)
        else
          match integer.getLast? with
          | none => .error .indexError
          | some c => realLoop fuel integer.dropLast (c :: decimal) (exponent + 1) := by
  cases decimal <;> rfl

theorem parseNat_error {s : Str} {e : PyErr} (h : parseNat s = .error e) : e = .valueError := by
  unfold parseNat at h; split at h <;> simp_all

theorem parseInt_error {s : Str} {e : PyErr} (h : parseInt s = .error e) : e = .valueError := by
  unfold parseInt at h
  split at h <;> (
    cases hp : parseNat _ with
    | ok v => rw [hp] at h; simp [Except.map] at h
    | error e' => rw [hp] at h; have := parseNat_error hp; simp [Except.map] at h; rw [← h, this])

/-- The loop makes at most `2 * integer.length + decimal.length` iterations, whatever the strings. -/
theorem realLoop_terminates (fuel : Nat) (integer decimal : Str) (x : Int)
    (h : 2 * integer.length + decimal.length < fuel) :
    realLoop fuel integer decimal x ≠ .error .recursionError := by
  induction fuel generalizing integer decimal x with
  | zero => omega
  | succ fuel ih =>
    rw [realLoop_succ]
    cases hp : parseInt integer with
    | error e =>
      have := parseInt_error hp
      subst this; simp
    | ok value =>
      have hne : integer ≠ [] := by
        intro h; rw [h] at hp; simp [parseInt, parseNat, Except.map] at hp
      have hpos : 0 < integer.length := List.length_pos_iff.mpr hne
      simp only
      split
      · simp
      · split
        · cases decimal with
          | nil => simp
          | cons d ds =>
            apply ih
            simp at h ⊢; omega
        · cases integer.getLast? with
          | none => simp
          | some c =>
            apply ih
            simp at h ⊢; omega

theorem natVal_ge_of_head {c : Char} {cs : Str} (hc : isDig c = true) (h0 : c ≠ '0') :
    10 ^ cs.length ≤ natVal (c :: cs) := by
  rw [natVal_cons]
  have : digVal c ≠ 0 := by
    intro h
    apply h0
    rw [← digChar_digVal hc, h]; rfl
  have h2 : 1 * 10 ^ cs.length ≤ digVal c * 10 ^ cs.length := Nat.mul_le_mul_right _ (by omega)
  omega

/-- No leading zero: digits move from the integer to the fraction. -/
theorem realLoop_shrink (c : Char) (cs D : Str) (x : Int) (fuel : Nat) (hc : isDig c = true) (h0 : c ≠ '0')
    (hcs : cs.all isDig = true) (hf : cs.length < fuel) :
    realLoop fuel (c :: cs) D x = .ok ([c], cs ++ D, x + cs.length) := by
  induction hn : cs.length generalizing cs D x fuel with
  | zero =>
    have : cs = [] := List.eq_nil_of_length_eq_zero hn
    subst this
    obtain ⟨f, rfl⟩ : ∃ f, fuel = f + 1 := ⟨fuel - 1, by omega⟩
    rw [realLoop_succ, parseInt_of_digits (by simp [hc]) (by simp)]
    have h1 := natVal_ge_of_head (cs := []) hc h0
    have h2 := natVal_lt (s := [c]) (by simp [hc])
    simp only [List.length_nil, Nat.pow_zero, List.length_singleton, Nat.pow_one] at h1 h2
    simp only
    rw [if_pos (by omega)]
    simp
  | succ n ih =>
    obtain ⟨f, rfl⟩ : ∃ f, fuel = f + 1 := ⟨fuel - 1, by omega⟩
    have hne : cs ≠ [] := by intro h; rw [h] at hn; simp at hn
    rw [realLoop_succ, parseInt_of_digits (by simp [hc, hcs]) (by simp)]
    have h1 := natVal_ge_of_head (cs := cs) hc h0
    have h2 : 10 ^ 1 ≤ 10 ^ cs.length := Nat.pow_le_pow_right (by omega) (by omega)
    simp only
    rw [if_neg (by omega), if_neg (by omega)]
    have hl : (c :: cs).getLast? = some (cs.getLast hne) := by
      rw [List.getLast?_cons_of_ne_nil hne]; exact List.getLast?_eq_some_getLast hne
    rw [hl]
    simp only [List.dropLast_cons_of_ne_nil hne]
    rw [ih cs.dropLast (cs.getLast hne :: D) (x + 1) f (by
        rw [List.all_eq_true] at hcs ⊢
        exact fun a ha => hcs a (List.dropLast_subset _ ha)) (by simp; omega) (by simp; omega)]
    have : cs.dropLast ++ cs.getLast hne :: D = cs ++ D := by
      rw [show cs.getLast hne :: D = [cs.getLast hne] ++ D from rfl, ← List.append_assoc,
        List.dropLast_concat_getLast]
    rw [this]
    have hx : x + 1 + (n : Int) = x + ((n + 1 : Nat) : Int) := by push_cast; omega
    rw [hx]

/-- Only zeros before the point: digits move from the fraction to the integer. -/
theorem realLoop_grow (I D : Str) (x : Int) (fuel : Nat) (hI : I.all isDig = true) (hIne : I ≠ [])
    (hI0 : natVal I = 0) (hD : D.all isDig = true) (hD0 : natVal D ≠ 0) (hf : D.length < fuel) :
    ∃ c cs, realLoop fuel I D x = .ok ([c], cs, x + cs.length - D.length) ∧ isDig c = true ∧ c ≠ '0' ∧
      cs.all isDig = true ∧ natVal (c :: cs) = natVal D := by
  induction D generalizing I x fuel with
  | nil => simp at hD0
  | cons d ds ih =>
    simp only [List.all_cons, Bool.and_eq_true] at hD
    obtain ⟨f, rfl⟩ : ∃ f, fuel = f + 1 := ⟨fuel - 1, by omega⟩
    rw [realLoop_succ, parseInt_of_digits hI hIne, hI0]
    simp only
    rw [if_neg (by omega), if_pos (by rfl)]
    by_cases hd : d = '0'
    · subst hd
      have hz : natVal ('0' :: ds) = natVal ds := by rw [natVal_cons]; simp [digVal]
      rw [hz] at hD0 ⊢
      obtain ⟨c, cs, h1, h2⟩ := ih ['0'] (x - 1) f (by decide) (by simp) (by decide) hD.2 hD0
        (by simp only [List.length_cons] at hf; omega)
      refine ⟨c, cs, ?_, h2⟩
      rw [h1]
      have : x - 1 + (cs.length : Int) - (ds.length : Int) = x + cs.length - (('0' :: ds).length : Nat) := by
        simp; omega
      rw [this]
    · refine ⟨d, ds, ?_, hD.1, hd, hD.2, rfl⟩
      have hf' : 0 < f := by simp only [List.length_cons] at hf; omega
      have := realLoop_shrink d [] ds (x - 1) f hD.1 hd rfl (by simpa using hf')
      rw [this]
      simp
      omega

/-! ### The stored mantissa -/

theorem numDigits_of_head {c : Char} {cs : Str} (hc : isDig c = true) (h0 : c ≠ '0') (hcs : cs.all isDig = true) :
    NumDigits (natVal (c :: cs)) (cs.length + 1) :=
  ⟨by omega, natVal_ge_of_head hc h0, natVal_lt (s := c :: cs) (by simp [hc, hcs])⟩

theorem natVal_take_drop (s : Str) (k : Nat) : natVal s = natVal (s.take k) * 10 ^ (s.drop k).length + natVal (s.drop k) := by
  rw [← natVal_append, List.take_append_drop]

theorem mantissa_of_digits {c : Char} {cs : Str} (hc : isDig c = true) (h0 : c ≠ '0') (hcs : cs.all isDig = true) :
    ∃ M : Nat, parseInt ((ljustStr 14 '0' (c :: cs)).take 14) = .ok (M : Int) ∧
      Trunc14 (natVal (c :: cs)) (cs.length + 1) M := by
  have hall : (c :: cs).all isDig = true := by simp [hc, hcs]
  have hlj : (ljustStr 14 '0' (c :: cs)).all isDig = true := by
    rw [ljustStr, List.all_append, hall]
    simp [isDig]
  obtain ⟨T, hT⟩ : ∃ T, T = (ljustStr 14 '0' (c :: cs)).take 14 := ⟨_, rfl⟩
  have hTd : T.all isDig = true := by
    rw [hT, List.all_eq_true]
    exact fun a ha => List.all_eq_true.mp hlj a (List.mem_of_mem_take ha)
  have hTl : T.length = 14 := by rw [hT]; simp [ljustStr]; omega
  have hThead : ∃ ts, T = c :: ts ∧ ts.all isDig = true := by
    refine ⟨(cs ++ List.replicate (14 - (c :: cs).length) '0').take 13, ?_, ?_⟩
    · rw [hT, ljustStr]; rfl
    · have : T = c :: (cs ++ List.replicate (14 - (c :: cs).length) '0').take 13 := by rw [hT, ljustStr]; rfl
      rw [this] at hTd
      simp only [List.all_cons, Bool.and_eq_true] at hTd
      exact hTd.2
  obtain ⟨ts, hts, htsd⟩ := hThead
  refine ⟨natVal T, ?_, ?_⟩
  · rw [← hT, parseInt_of_digits hTd (by rw [hts]; simp)]
  · refine ⟨?_, ?_, ?_, ?_⟩
    · rw [hts]
      have h1 := natVal_ge_of_head (cs := ts) hc h0
      have : ts.length = 13 := by rw [hts] at hTl; simpa using hTl
      rw [this] at h1; exact h1
    · have := natVal_lt hTd
      rw [hTl] at this; exact this
    · intro hk
      have : T = (c :: cs) ++ List.replicate (14 - (c :: cs).length) '0' := by
        rw [hT, ljustStr, List.take_of_length_le (by simp; omega)]
      rw [this, natVal_append, natVal_replicate_zero, List.length_replicate, List.length_cons]
      rfl
    · intro hk
      have hj : ljustStr 14 '0' (c :: cs) = c :: cs := by
        rw [ljustStr, show 14 - (c :: cs).length = 0 by simp; omega]; simp
      rw [hj] at hT
      have h1 := natVal_take_drop (c :: cs) 14
      have h2 : ((c :: cs).drop 14).all isDig = true := by
        rw [List.all_eq_true] at hall ⊢
        exact fun a ha => hall a (List.mem_of_mem_drop ha)
      have h3 := natVal_lt h2
      have h4 : ((c :: cs).drop 14).length = cs.length + 1 - 14 := by simp
      rw [← hT, h4] at h1
      rw [h4] at h3
      rw [h1]
      refine ⟨by omega, ?_⟩
      rw [Nat.add_mul, Nat.one_mul]
      omega

theorem trunc14_of_mul_ten {n k M : Nat} (h : Trunc14 (n * 10) (k + 1) M) : Trunc14 n k M := by
  obtain ⟨h1, h2, h3, h4⟩ := h
  refine ⟨h1, h2, ?_, ?_⟩
  · intro hk
    by_cases h14 : k + 1 ≤ 14
    · rw [h3 h14, Nat.mul_assoc, ← Nat.pow_succ']
      congr 2; omega
    · have hk14 : k = 14 := by omega
      subst hk14
      have := h4 (by omega)
      simp at this ⊢
      omega
  · intro hk
    obtain ⟨h5, h6⟩ := h4 (by omega)
    have e : k + 1 - 14 = (k - 14) + 1 := by omega
    rw [e, Nat.pow_succ, ← Nat.mul_assoc] at h5 h6
    omega

theorem numDigits_of_mul_ten {n k : Nat} (hk : 0 < k) (h : NumDigits (n * 10) (k + 1)) : NumDigits n k := by
  obtain ⟨-, h1, h2⟩ := h
  refine ⟨hk, ?_, ?_⟩
  · obtain ⟨j, rfl⟩ : ∃ j, k = j + 1 := ⟨k - 1, by omega⟩
    simp only [Nat.add_sub_cancel, Nat.pow_succ] at h1 ⊢
    omega
  · rw [Nat.pow_succ] at h2; omega

theorem natVal_orZero (s : Str) : natVal (orZero s) = natVal s := by
  unfold orZero; split
  · next h => subst h; rfl
  · rfl

theorem orZero_digits {s : Str} (h : s.all isDig = true) : (orZero s).all isDig = true ∧ orZero s ≠ [] := by
  unfold orZero; split
  · exact ⟨by decide, by simp⟩
  · next hn => exact ⟨h, hn⟩

theorem fracDigits_digits (l : Literal) (hv : l.Valid) : l.fracDigits.all isDig = true := by
  unfold Literal.fracDigits
  cases hl : l.frac with
  | none => rfl
  | some f => exact (digits_iff _).mpr (hv.2.1 f hl)

theorem coeff_eq (l : Literal) :
    l.coeff = natVal l.int * 10 ^ l.fracDigits.length + natVal l.fracDigits := by
  rw [Literal.coeff, digitsValue_eq, natVal_append]

theorem exceptOk_bind {ε α β : Type} (a : α) (f : α → Except ε β) :
    (Except.ok a >>= f) = f a := rfl

theorem exceptError_bind {ε α β : Type} (e : ε) (f : α → Except ε β) :
    ((Except.error e : Except ε α) >>= f) = .error e := rfl

/-- Parsing any string ends with a result or a proper exception, never by running out of iterations. -/
theorem realParse_terminates (s : Str) : realParse s ≠ .error .recursionError := by
  intro h
  unfold realParse at h
  simp only at h
  have key : ∀ {α β : Type} (x : Except PyErr α) (f : α → Except PyErr β), x ≠ .error .recursionError →
      (∀ a, x = .ok a → f a ≠ .error .recursionError) → (x >>= f) ≠ .error .recursionError := by
    intro α β x f h1 h2
    cases x with
    | error e => rw [exceptError_bind]; intro h; exact h1 (by cases h; rfl)
    | ok a => rw [exceptOk_bind]; exact h2 a rfl
  have kp : ∀ s, parseInt s ≠ .error .recursionError := by
    intro s h; have := parseInt_error h; cases this
  revert h
  split
  · rw [exceptOk_bind]
    split
    · rw [exceptOk_bind]
      refine key _ _ (kp _) fun i _ => key _ _ (kp _) fun d _ => ?_
      split
      · simp
      · refine key _ _ (kp _) fun x _ => key _ _ (realLoop_terminates _ _ _ _ (by simp)) fun y _ => key _ _ (kp _) fun m _ => ?_
        simp
    · simp [exceptError_bind]
  · simp [exceptError_bind]

/-- The parsing prefix common to all literals. -/
theorem realParse_prefix (l : Literal) (hv : l.Valid) (s : Str) (hs : squash s = l.render) :
    realParse s =
      if (natVal l.int : Int) = (natVal l.fracDigits : Int) ∧ (natVal l.fracDigits : Int) = 0 then
        .ok (0, 0x80, l.sign.isNeg)
      else (do
        let (integer, decimal, x) ← realLoop (2 * (orZero l.int).length + (orZero l.fracDigits).length + 1)
          (orZero l.int) (orZero l.fracDigits) l.expValue
        let m ← parseInt ((ljustStr 14 '0' (integer ++ decimal)).take 14)
        .ok (m, x + 0x80, l.sign.isNeg)) := by
  have hi' := (digits_iff _).mpr hv.1
  have hf' := fracDigits_digits l hv
  have hei : 'e' ∉ l.int := not_mem_of_digits hi' (by decide)
  have hdi : '.' ∉ l.int := not_mem_of_digits hi' (by decide)
  have hef : 'e' ∉ l.fracDigits := not_mem_of_digits hf' (by decide)
  have hdf : '.' ∉ l.fracDigits := not_mem_of_digits hf' (by decide)
  have t := ctail_facts l hv
  have hsp1 : splitChar 'e' (l.int ++ '.' :: l.fracDigits ++ 'e' :: ctail l)
      = [l.int ++ '.' :: l.fracDigits, ctail l] := by
    rw [splitChar_append (by simp [hei, hef]), splitChar_of_not_mem t.1]
  have hsp2 : splitChar '.' (l.int ++ '.' :: l.fracDigits) = [l.int, l.fracDigits] := by
    rw [splitChar_append hdi, splitChar_of_not_mem hdf]
  have hoz : orZero (ctail l) = ctail l := by unfold orZero; rw [if_neg t.2.2.1]
  simp only [realParse, realNormalize_literal l hv s hs, hsp1, hsp2, hoz, t.2.2.2.2,
    parseInt_of_digits (orZero_digits hi').1 (orZero_digits hi').2,
    parseInt_of_digits (orZero_digits hf').1 (orZero_digits hf').2, natVal_orZero, exceptOk_bind]

theorem realParse_literal_zero (l : Literal) (hv : l.Valid) (s : Str) (hs : squash s = l.render)
    (h0 : l.coeff = 0) : realParse s = .ok (0, 0x80, l.sign.isNeg) := by
  rw [realParse_prefix l hv s hs, if_pos]
  rw [coeff_eq] at h0
  have hp : 0 < 10 ^ l.fracDigits.length := Nat.pow_pos (by omega)
  have h1 : natVal l.fracDigits = 0 := by omega
  have h2 : natVal l.int * 10 ^ l.fracDigits.length = 0 := by omega
  rcases Nat.mul_eq_zero.mp h2 with h | h
  · simp [h, h1]
  · omega

theorem realParse_literal (l : Literal) (hv : l.Valid) (s : Str) (hs : squash s = l.render)
    (hz : l.NoLeadingZeros) (h0 : l.coeff ≠ 0) :
    ∃ k M : Nat, NumDigits l.coeff k ∧ Trunc14 l.coeff k M ∧
      realParse s = .ok ((M : Int), l.scale + k - 1 + 0x80, l.sign.isNeg) := by
  have hi' := (digits_iff _).mpr hv.1
  have hf' := fracDigits_digits l hv
  have hp : 0 < 10 ^ l.fracDigits.length := Nat.pow_pos (by omega)
  rw [realParse_prefix l hv s hs, if_neg (by
    intro ⟨h1, h2⟩
    apply h0
    rw [coeff_eq]
    have : natVal l.int = 0 := by omega
    have : natVal l.fracDigits = 0 := by omega
    simp [*])]
  by_cases hint : natVal l.int = 0
  · -- only the fraction contributes
    have hc : l.coeff = natVal l.fracDigits := by rw [coeff_eq, hint]; omega
    have hfne : l.fracDigits ≠ [] := by
      intro h; rw [hc, h] at h0; exact h0 rfl
    have hoz : orZero l.fracDigits = l.fracDigits := by unfold orZero; rw [if_neg hfne]
    rw [hoz]
    obtain ⟨c, cs, hl, hcd, hc0, hcs, hv'⟩ := realLoop_grow (orZero l.int) l.fracDigits l.expValue
      (2 * (orZero l.int).length + l.fracDigits.length + 1) (orZero_digits hi').1 (orZero_digits hi').2
      (by rw [natVal_orZero]; exact hint) hf' (by rw [← hc]; exact h0) (by omega)
    obtain ⟨M, hM, hT⟩ := mantissa_of_digits hcd hc0 hcs
    rw [hv'] at hT
    have hN := numDigits_of_head hcd hc0 hcs
    rw [hv'] at hN
    refine ⟨cs.length + 1, M, by rw [hc]; exact hN, by rw [hc]; exact hT, ?_⟩
    rw [hl]
    simp only [bind, Except.bind]
    rw [show ([c] ++ cs) = c :: cs from rfl, hM]
    simp only
    have : l.expValue + (cs.length : Int) - (l.fracDigits.length : Int) + 0x80
        = l.scale + ((cs.length + 1 : Nat) : Int) - 1 + 0x80 := by
      simp only [Literal.scale]; push_cast; omega
    rw [this]
  · have hne : l.int ≠ [] := by intro h; rw [h] at hint; exact hint rfl
    obtain ⟨c, cs, hcc⟩ := List.exists_cons_of_ne_nil hne
    have hc0 : c ≠ '0' := by
      rcases hz with h | h
      · rw [digitsValue_eq] at h; exact absurd h hint
      · rw [hcc] at h; simpa using h
    have hcd : isDig c = true ∧ cs.all isDig = true := by
      rw [hcc] at hi'; simpa using hi'
    have hoz : orZero l.int = c :: cs := by unfold orZero; rw [if_neg hne, hcc]
    have hozf := orZero_digits hf'
    have hl := realLoop_shrink c cs (orZero l.fracDigits) l.expValue
      (2 * (c :: cs).length + (orZero l.fracDigits).length + 1) hcd.1 hc0 hcd.2 (by simp; omega)
    obtain ⟨M, hM, hT⟩ := mantissa_of_digits (c := c) (cs := cs ++ orZero l.fracDigits) hcd.1 hc0
      (by rw [List.all_append, hcd.2, hozf.1]; rfl)
    have hN := numDigits_of_head (c := c) (cs := cs ++ orZero l.fracDigits) hcd.1 hc0
      (by rw [List.all_append, hcd.2, hozf.1]; rfl)
    rw [hoz, hl]
    simp only [bind, Except.bind]
    rw [show ([c] ++ (cs ++ orZero l.fracDigits)) = c :: (cs ++ orZero l.fracDigits) from rfl, hM]
    simp only
    refine ⟨cs.length + 1 + l.fracDigits.length, M, ?_⟩
    have hx : l.expValue + (cs.length : Int) + 0x80
        = l.scale + ((cs.length + 1 + l.fracDigits.length : Nat) : Int) - 1 + 0x80 := by
      simp only [Literal.scale]; push_cast; omega
    rw [hx]
    have hval : natVal (c :: (cs ++ orZero l.fracDigits))
        = natVal l.int * 10 ^ (orZero l.fracDigits).length + natVal l.fracDigits := by
      rw [← List.cons_append, natVal_append, natVal_orZero, hcc]
    rw [hval, List.length_append] at hT hN
    by_cases hfe : l.fracDigits = []
    · have hl1 : (orZero l.fracDigits).length = 1 := by rw [hfe]; rfl
      have hc : l.coeff * 10 = natVal l.int * 10 ^ (orZero l.fracDigits).length + natVal l.fracDigits := by
        rw [coeff_eq, hl1, hfe]; simp
      rw [← hc, hl1] at hT hN
      rw [hfe]
      exact ⟨numDigits_of_mul_ten (by omega) hN, trunc14_of_mul_ten hT, rfl⟩
    · have hl1 : orZero l.fracDigits = l.fracDigits := by unfold orZero; rw [if_neg hfe]
      rw [hl1, ← coeff_eq] at hT hN
      rw [show cs.length + 1 + l.fracDigits.length = cs.length + l.fracDigits.length + 1 by omega]
      exact ⟨hN, hT, rfl⟩

end Verif
