import Verif.Proofs.RealValue
import Verif.Proofs.DecStr

/-! Helper lemmas: zeros before the integer part of a literal (C16). -/

namespace Verif
open Spec

/-- The loop leaves leading zeros where they are. -/
theorem realLoop_zeros (k : Nat) (c : Char) (cs D : Str) (x : Int) (fuel : Nat) (hc : isDig c = true) (h0 : c ≠ '0')
    (hcs : cs.all isDig = true) (hf : cs.length < fuel) :
    realLoop fuel (List.replicate k '0' ++ c :: cs) D x = .ok (List.replicate k '0' ++ [c], cs ++ D, x + cs.length) := by
  have hz : (List.replicate k '0').all isDig = true := by simp [isDig]
  have hv : ∀ t : Str, natVal (List.replicate k '0' ++ t) = natVal t := by
    intro t
    rw [natVal_append, natVal_replicate_zero]
    omega
  induction hn : cs.length generalizing cs D x fuel with
  | zero =>
    have : cs = [] := List.eq_nil_of_length_eq_zero hn
    subst this
    obtain ⟨f, rfl⟩ : ∃ f, fuel = f + 1 := ⟨fuel - 1, by omega⟩
    rw [realLoop_succ, parseInt_of_digits (by rw [List.all_append, hz]; simp [hc]) (by simp), hv]
    have h1 := natVal_ge_of_head (cs := []) hc h0
    have h2 := natVal_lt (s := [c]) (by simp [hc])
    simp only [List.length_nil, Nat.pow_zero, List.length_singleton, Nat.pow_one] at h1 h2
    simp only
    rw [if_pos (by omega)]
    simp
  | succ n ih =>
    obtain ⟨f, rfl⟩ : ∃ f, fuel = f + 1 := ⟨fuel - 1, by omega⟩
    have hne : cs ≠ [] := by intro h; rw [h] at hn; simp at hn
    rw [realLoop_succ, parseInt_of_digits (by rw [List.all_append, hz]; simp [hc, hcs]) (by simp), hv]
    have h1 := natVal_ge_of_head (cs := cs) hc h0
    have h2 : 10 ^ 1 ≤ 10 ^ cs.length := Nat.pow_le_pow_right (by omega) (by omega)
    simp only
    rw [if_neg (by omega), if_neg (by omega)]
    have hl : (List.replicate k '0' ++ c :: cs).getLast? = some (cs.getLast hne) := by
      rw [List.getLast?_append, List.getLast?_cons_of_ne_nil hne, List.getLast?_eq_some_getLast hne]
      rfl
    rw [hl]
    simp only
    rw [List.dropLast_append_of_ne_nil (by simp), List.dropLast_cons_of_ne_nil hne,
      ih cs.dropLast (cs.getLast hne :: D) (x + 1) f (by
        rw [List.all_eq_true] at hcs ⊢
        exact fun a ha => hcs a (List.dropLast_subset _ ha)) (by simp; omega) (by simp; omega)]
    have : cs.dropLast ++ cs.getLast hne :: D = cs ++ D := by
      rw [show cs.getLast hne :: D = [cs.getLast hne] ++ D from rfl, ← List.append_assoc,
        List.dropLast_concat_getLast]
    rw [this]
    have hx : x + 1 + (n : Int) = x + ((n + 1 : Nat) : Int) := by push_cast; omega
    rw [hx]

/-- Leading zeros push digits out of the mantissa. -/
theorem mantissa_zeros (k : Nat) {R : Str} (hR : R.all isDig = true) :
    natVal ((ljustStr 14 '0' (List.replicate k '0' ++ R)).take 14) = natVal ((ljustStr 14 '0' R).take 14) / 10 ^ k := by
  have hP : ∀ n, (R ++ List.replicate n '0').all isDig = true := by
    intro n
    rw [List.all_append, hR]
    simp [isDig]
  obtain ⟨P, hPe⟩ : ∃ P, P = R ++ List.replicate (14 - R.length) '0' := ⟨_, rfl⟩
  have hPl : 14 ≤ P.length := by rw [hPe]; simp; omega
  have hPd : P.all isDig = true := by rw [hPe]; exact hP _
  have hr : (ljustStr 14 '0' R).take 14 = P.take 14 := by rw [hPe]; rfl
  have hl : (ljustStr 14 '0' (List.replicate k '0' ++ R)).take 14 = List.replicate (min k 14) '0' ++ P.take (14 - k) := by
    unfold ljustStr
    rw [List.append_assoc, List.take_append, List.take_replicate, List.length_replicate, Nat.min_comm]
    congr 1
    rw [hPe]
    simp only [List.length_append, List.length_replicate, List.take_append, List.take_replicate]
    congr 2
    omega
  rw [hl, hr, natVal_append, natVal_replicate_zero, Nat.zero_mul, Nat.zero_add]
  have hsplit : P.take 14 = P.take (14 - k) ++ (P.take 14).drop (14 - k) := by
    conv => lhs; rw [← List.take_append_drop (14 - k) (P.take 14)]
    rw [List.take_take, Nat.min_eq_left (by omega)]
  have hd : ((P.take 14).drop (14 - k)).all isDig = true := by
    rw [List.all_eq_true] at hPd ⊢
    exact fun a ha => hPd a (List.mem_of_mem_take (List.mem_of_mem_drop ha))
  have hlen : ((P.take 14).drop (14 - k)).length = min k 14 := by simp; omega
  have hlt := natVal_lt hd
  rw [hlen] at hlt
  conv => rhs; rw [hsplit, natVal_append, hlen]
  rcases Nat.le_total k 14 with h | h
  · rw [Nat.min_eq_left h] at hlt ⊢
    rw [Nat.add_comm, Nat.add_mul_div_right _ _ (Nat.pow_pos (by omega)), Nat.div_eq_of_lt hlt, Nat.zero_add]
  · rw [Nat.min_eq_right h] at hlt ⊢
    rw [show 14 - k = 0 by omega] at hlt ⊢
    simp only [List.take_zero, natVal_nil, Nat.zero_mul, Nat.zero_add]
    rw [Nat.div_eq_of_lt (lt_of_lt_of_le hlt (Nat.pow_le_pow_right (by omega) h))]

/-- Parsing a literal with leading zeros. -/
theorem realParse_zeros {l : Literal} (hv : l.Valid) (hz : l.NoLeadingZeros) (h0 : natVal l.int ≠ 0) (k : Nat) {M : Nat} {x : Int}
    (h : realParse l.render = .ok ((M : Int), x, l.sign.isNeg)) :
    ({ l with int := List.replicate k '0' ++ l.int } : Literal).Valid ∧
    realParse ({ l with int := List.replicate k '0' ++ l.int } : Literal).render =
      .ok (((M / 10 ^ k : Nat) : Int), x, l.sign.isNeg) := by
  have hi' := (digits_iff _).mpr hv.1
  have hf' := fracDigits_digits l hv
  have hozf := orZero_digits hf'
  have hne : l.int ≠ [] := by intro h; rw [h] at h0; exact h0 rfl
  obtain ⟨c, cs, hcc⟩ := List.exists_cons_of_ne_nil hne
  have hc0 : c ≠ '0' := by
    rcases hz with h | h
    · rw [digitsValue_eq] at h; exact absurd h h0
    · rw [hcc] at h; simpa using h
  have hcd : isDig c = true ∧ cs.all isDig = true := by
    rw [hcc] at hi'; simpa using hi'
  have hz' : (List.replicate k '0').all isDig = true := by simp [isDig]
  have hv' : ({ l with int := List.replicate k '0' ++ l.int } : Literal).Valid := by
    refine ⟨(digits_iff _).mp ?_, hv.2⟩
    rw [List.all_append, hz', hi']
    rfl
  refine ⟨hv', ?_⟩
  have hfd : ({ l with int := List.replicate k '0' ++ l.int } : Literal).fracDigits = l.fracDigits := rfl
  have hex : ({ l with int := List.replicate k '0' ++ l.int } : Literal).expValue = l.expValue := rfl
  have hn0 : natVal (List.replicate k '0' ++ l.int) = natVal l.int := by
    rw [natVal_append, natVal_replicate_zero]
    omega
  have hn0' : ¬ ((natVal l.int : Int) = (natVal l.fracDigits : Int) ∧ (natVal l.fracDigits : Int) = 0) := by omega
  rw [realParse_prefix l hv _ (squash_render l hv), if_neg hn0'] at h
  rw [realParse_prefix _ hv' _ (squash_render _ hv'), hfd, hex, if_neg (by rw [hn0]; exact hn0')]
  have ho1 : orZero l.int = c :: cs := by unfold orZero; rw [if_neg hne, hcc]
  have ho2 : orZero (List.replicate k '0' ++ l.int) = List.replicate k '0' ++ c :: cs := by
    unfold orZero; rw [if_neg (by simp [hne]), hcc]
  rw [ho1, realLoop_shrink c cs _ _ _ hcd.1 hc0 hcd.2 (by simp; omega)] at h
  rw [ho2, realLoop_zeros k c cs _ _ _ hcd.1 hc0 hcd.2 (by simp; omega)]
  simp only [bind, Except.bind] at h ⊢
  have hR : (c :: (cs ++ orZero l.fracDigits)).all isDig = true := by
    simp only [List.all_cons, List.all_append, hcd.1, hcd.2, hozf.1]
    rfl
  have hall : ∀ {t : Str}, t.all isDig = true → ((ljustStr 14 '0' t).take 14).all isDig = true := by
    intro t ht
    rw [List.all_eq_true]
    intro a ha
    have ha := List.mem_of_mem_take ha
    unfold ljustStr at ha
    rcases List.mem_append.1 ha with ha | ha
    · exact List.all_eq_true.mp ht a ha
    · rw [(List.mem_replicate.1 ha).2]; rfl
  have hnil : ∀ {t : Str}, (ljustStr 14 '0' t).take 14 ≠ [] := by
    intro t ht
    have h14 : ((ljustStr 14 '0' t).take 14).length = 14 := by simp [ljustStr]; omega
    rw [ht] at h14
    simp at h14
  rw [show [c] ++ (cs ++ orZero l.fracDigits) = c :: (cs ++ orZero l.fracDigits) from rfl, parseInt_of_digits (hall hR) hnil] at h
  rw [show List.replicate k '0' ++ [c] ++ (cs ++ orZero l.fracDigits) =
      List.replicate k '0' ++ c :: (cs ++ orZero l.fracDigits) by simp,
    parseInt_of_digits (hall (by rw [List.all_append, hz', hR]; rfl)) hnil, mantissa_zeros k hR]
  simp only [Except.ok.injEq, Prod.mk.injEq, Nat.cast_inj] at h ⊢
  obtain ⟨h1, h2, h3⟩ := h
  have h1 : natVal ((ljustStr 14 '0' (c :: (cs ++ orZero l.fracDigits))).take 14) = M := by exact_mod_cast h1
  exact ⟨by rw [h1], h2, h3⟩

end Verif
