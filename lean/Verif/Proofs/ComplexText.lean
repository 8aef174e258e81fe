import Verif.Proofs.Complex

/-! Lemmas about complex numbers as text. -/

namespace Verif
open Spec
namespace Ent

/-! ### Normalisation -/

/-- Replacing `[i]`. -/
def unitR (s : Str) : Str := replaceStr ['[', 'i', ']'] ['i'] s

theorem unitR_skip {a : Str} (h : '[' ∉ a) (b : Str) : unitR (a ++ b) = a ++ unitR b := by
  unfold unitR replaceStr
  rw [replaceStr_go_skip _ _ _ _ _ h _ (Nat.le_refl _)]
  simp

theorem unitR_word (b : Str) : unitR (['[', 'i', ']'] ++ b) = 'i' :: unitR b := by
  unfold unitR replaceStr
  simp only [List.cons_append, List.nil_append, List.length_cons]
  rw [replaceStr.go]
  have h : List.isPrefixOf ['[', 'i', ']'] ('[' :: 'i' :: ']' :: b) = true := by simp [List.isPrefixOf]
  rw [if_pos h]
  simp only [List.length_cons, List.length_nil, List.drop_succ_cons, List.drop_zero, List.cons_append, List.nil_append]
  rw [replaceStr_go_fuel _ _ _ b.length b (Nat.le_refl _) _ (by omega)]

/-- The replacements of single characters before that. -/
def cG (c : Char) : Str := if c = '*' then [] else if c = '-' then ['+', '-'] else [c]

/-- The one after that. -/
def cH (c : Char) : Str := if c = 'j' then ['i'] else [c]

def cNorm (s : Str) : Str := (unitR (s.flatMap cG)).flatMap cH

theorem cNorm_eq (s : Str) : replaceStr ['j'] ['i'] (replaceStr ['[', 'i', ']'] ['i'] (replaceStr ['-'] ['+', '-']
    (replaceStr ['*'] [] s))) = cNorm s := by
  unfold cNorm
  have h : replaceStr ['-'] ['+', '-'] (replaceStr ['*'] [] s) = s.flatMap cG := by
    simp only [replaceStr_single, List.flatMap_assoc]
    congr 1
    funext c
    unfold cG
    by_cases h1 : c = '*'
    · simp [h1]
    by_cases h2 : c = '-'
    · simp [h2]
    simp [h1, h2]
  rw [h, replaceStr_single 'j']
  rfl

theorem cNorm_nil : cNorm [] = [] := rfl

theorem cNorm_cons {c : Char} (h : c ≠ '[') (b : Str) : cNorm (c :: b) = (cG c).flatMap cH ++ cNorm b := by
  have : '[' ∉ cG c := by
    unfold cG
    split
    · simp
    · split
      · decide
      · simpa using fun e => h e.symm
  unfold cNorm
  rw [List.flatMap_cons, unitR_skip this, List.flatMap_append]

theorem plain_append {a b : Str} (ha : PlainText a) (hb : PlainText b) : PlainText (a ++ b) := by
  intro c hc
  rcases List.mem_append.1 hc with h | h
  · exact ha c h
  · exact hb c h

theorem cNorm_plain {p : Str} (h : PlainText p) (b : Str) : cNorm (p ++ b) = p ++ cNorm b := by
  induction p with
  | nil => rfl
  | cons c cs ih =>
    obtain ⟨-, h2, h3, h4, -, h6⟩ := h c (by simp)
    rw [List.cons_append, cNorm_cons h4, ih fun x hx => h x (by simp [hx])]
    simp [cG, cH, h2, h3, h6]

theorem cNorm_plus (b : Str) : cNorm ('+' :: b) = '+' :: cNorm b := by
  rw [cNorm_cons (by decide)]; rfl

theorem cNorm_minus (b : Str) : cNorm ('-' :: b) = '+' :: '-' :: cNorm b := by
  rw [cNorm_cons (by decide)]; rfl

theorem cNorm_unit (star : Bool) (u : ImagUnit) (b : Str) : cNorm (unitStr star u ++ b) = 'i' :: cNorm b := by
  have hu : cNorm (u.str ++ b) = 'i' :: cNorm b := by
    cases u with
    | i =>
      show cNorm ('i' :: b) = _
      rw [cNorm_cons (by decide)]; rfl
    | j =>
      show cNorm ('j' :: b) = _
      rw [cNorm_cons (by decide)]; rfl
    | bracket =>
      unfold cNorm
      have : (ImagUnit.bracket.str ++ b).flatMap cG = ['[', 'i', ']'] ++ b.flatMap cG := by
        simp [ImagUnit.str, cG]
      rw [this, unitR_word, List.flatMap_cons]
      rfl
  unfold unitStr
  cases star
  · simpa using hu
  · simp only [if_true, List.cons_append, List.nil_append]
    rw [cNorm_cons (by decide), hu]
    rfl

theorem cNorm_lead (s : Lead) (b : Str) : cNorm (s.str ++ b) = (if s = .none then [] else ['+']) ++ s.keep ++ cNorm b := by
  cases s
  · rfl
  · exact cNorm_plus b
  · exact cNorm_minus b

theorem strip_plus {a : Str} (h1 : a.head? ≠ some '+') (h2 : a.getLast? ≠ some '+') : stripChars ['+'] a = a := by
  have hl : ∀ l : Str, l.head? ≠ some '+' → l.dropWhile (['+'].contains ·) = l := by
    intro l hl
    cases l with
    | nil => rfl
    | cons c cs =>
      have : c ≠ '+' := by rintro rfl; simp at hl
      rw [List.dropWhile_cons, if_neg (by simp [this])]
  unfold stripChars lstripChars rstripChars
  rw [hl a h1, hl a.reverse (by rw [List.head?_reverse]; exact h2), List.reverse_reverse]

theorem strip_lead {a : Str} (_hne : a ≠ []) (h1 : a.head? ≠ some '+') (h2 : a.getLast? ≠ some '+') (b : Bool) :
    stripChars ['+'] ((if b then [] else ['+']) ++ a) = a := by
  cases b
  · have : stripChars ['+'] ('+' :: a) = stripChars ['+'] a := by
      unfold stripChars lstripChars
      rw [List.dropWhile_cons, if_pos (by decide)]
    exact this.trans (strip_plus h1 h2)
  · exact strip_plus h1 h2

theorem last_append {a b : Str} (hb : b ≠ []) : (a ++ b).getLast? = b.getLast? := by
  rw [List.getLast?_append]
  cases h : b.getLast? with
  | none => exact absurd (List.getLast?_eq_none_iff.1 h) hb
  | some c => rfl

theorem plain_last {a : Str} (h : '+' ∉ a) : a.getLast? ≠ some '+' := by
  intro hl
  exact h (List.mem_of_getLast? hl)

theorem plain_head {a : Str} (h : '+' ∉ a) : a.head? ≠ some '+' := by
  intro hl
  cases a with
  | nil => cases hl
  | cons c cs => simp at hl; exact h (by simp [hl])

theorem keep_plus (s : Lead) : '+' ∉ s.keep := by cases s <;> decide

theorem keep_i (s : Lead) : 'i' ∉ s.keep := by cases s <;> decide

theorem plain_plus {p : Str} (h : PlainText p) : '+' ∉ p := fun hm => (h _ hm).1 rfl

theorem plain_i {p : Str} (h : PlainText p) : 'i' ∉ p := fun hm => (h _ hm).2.2.2.2.1 rfl

theorem filter_i {a : Str} (h : 'i' ∉ a) : a.filter (· ≠ 'i') = a := by
  rw [List.filter_eq_self]
  intro c hc
  have : c ≠ 'i' := by rintro rfl; exact h hc
  simp [this]

/-- Only a real part. -/
theorem complexParts_re (s1 : Lead) {p : Str} (hp : PlainText p) (hne : p ≠ []) {s : Str} (hs : squash s = s1.str ++ p) :
    complexParts s = .ok (s1.keep ++ p, ['0']) := by
  have hk : '+' ∉ s1.keep ++ p := by simp [keep_plus, plain_plus hp]
  have hn : s1.keep ++ p ≠ [] := by simp [hne]
  have hst : stripChars ['+'] (cNorm (squash s)) = s1.keep ++ p := by
    rw [hs, cNorm_lead, show cNorm p = p by simpa [cNorm_nil] using cNorm_plain hp [], List.append_assoc]
    have := strip_lead hn (plain_head hk) (plain_last hk) (decide (s1 = .none))
    simpa using this
  unfold complexParts
  simp only [cNorm_eq, hst, splitChar_of_not_mem hk]
  rw [if_neg (by simpa using hn)]
  simp only
  rw [if_neg (by simp [keep_i, plain_i hp])]

/-- Only an imaginary part. -/
theorem complexParts_im (s1 : Lead) {q r : Str} (hq : PlainText q) (hr : PlainText r) (star : Bool) (u : ImagUnit) {s : Str}
    (hs : squash s = s1.str ++ (q ++ (unitStr star u ++ r))) :
    complexParts s = .ok (['0'], complexParts.orOne (s1.keep ++ q ++ r)) := by
  have hk : '+' ∉ s1.keep ++ (q ++ 'i' :: r) := by simp [keep_plus, plain_plus hq, plain_plus hr]
  have hn : s1.keep ++ (q ++ 'i' :: r) ≠ [] := by simp
  have hst : stripChars ['+'] (cNorm (squash s)) = s1.keep ++ (q ++ 'i' :: r) := by
    rw [hs, cNorm_lead, cNorm_plain hq, cNorm_unit, show cNorm r = r by simpa [cNorm_nil] using cNorm_plain hr [],
      List.append_assoc]
    have := strip_lead hn (plain_head hk) (plain_last hk) (decide (s1 = .none))
    simpa using this
  unfold complexParts
  simp only [cNorm_eq, hst, splitChar_of_not_mem hk]
  rw [if_neg (by simp)]
  simp only
  rw [if_pos (by simp), List.filter_append, List.filter_append, List.filter_cons, if_neg (by decide), filter_i (keep_i s1),
    filter_i (plain_i hq), filter_i (plain_i hr), List.append_assoc]

/-- Both parts. -/
theorem complexParts_both (s1 s2 : Lead) (h2 : s2 ≠ .none) {p q r : Str} (hp : PlainText p) (hne : p ≠ []) (hq : PlainText q) (hr : PlainText r)
    (star : Bool) (u : ImagUnit) {s : Str} (hs : squash s = s1.str ++ (p ++ (s2.str ++ (q ++ (unitStr star u ++ r))))) :
    complexParts s = .ok (s1.keep ++ p, complexParts.orOne (s2.keep ++ q ++ r)) := by
  have hk1 : '+' ∉ s1.keep ++ p := by simp [keep_plus, plain_plus hp]
  have hk2 : '+' ∉ s2.keep ++ (q ++ 'i' :: r) := by simp [keep_plus, plain_plus hq, plain_plus hr]
  have hn1 : s1.keep ++ p ≠ [] := by simp [hne]
  have hn2 : s2.keep ++ (q ++ 'i' :: r) ≠ [] := by simp
  have hst : stripChars ['+'] (cNorm (squash s)) = (s1.keep ++ p) ++ '+' :: (s2.keep ++ (q ++ 'i' :: r)) := by
    rw [hs, cNorm_lead, cNorm_plain hp, cNorm_lead, if_neg h2, cNorm_plain hq, cNorm_unit,
      show cNorm r = r by simpa [cNorm_nil] using cNorm_plain hr []]
    have := strip_lead (a := (s1.keep ++ p) ++ '+' :: (s2.keep ++ (q ++ 'i' :: r))) (by simp) (by
        rcases hx : s1.keep ++ p with _ | ⟨c, cs⟩
        · exact absurd hx hn1
        · rw [hx] at hk1
          intro hh
          simp only [List.cons_append, List.head?_cons, Option.some.injEq] at hh
          exact hk1 (by simp [hh])) (by
        rw [last_append (by simp), show ('+' :: (s2.keep ++ (q ++ 'i' :: r)) : Str) = ['+'] ++ (s2.keep ++ (q ++ 'i' :: r)) from rfl,
          last_append hn2]
        exact plain_last hk2) (decide (s1 = .none))
    simpa using this
  unfold complexParts
  simp only [cNorm_eq, hst, splitChar_append hk1, splitChar_of_not_mem hk2]
  rw [if_neg (by simpa using hn1)]
  simp only
  rw [List.filter_append, List.filter_append, List.filter_cons, if_neg (by decide), filter_i (keep_i s2),
    filter_i (plain_i hq), filter_i (plain_i hr), List.append_assoc]

end Ent
end Verif
