import Verif.Model.ArrayText
import Verif.Proofs.RadicalPrint
import Verif.Proofs.ComplexPrint

/-! Which texts the classes of real numbers refuse. -/

namespace Verif
open Spec

theorem mem_replaceStr_go {old new : Str} {c : Char} (hc : c ∉ old) (ho : old ≠ []) : ∀ (fuel : Nat) (s : Str),
    s.length ≤ fuel → c ∈ s → c ∈ replaceStr.go old new s fuel := by
  intro fuel
  induction fuel with
  | zero =>
    intro s hs hm
    rw [List.length_eq_zero_iff.1 (Nat.le_zero.1 hs)] at hm
    cases hm
  | succ n ih =>
    intro s hs hm
    match s with
    | [] => cases hm
    | a :: as =>
      unfold replaceStr.go
      simp only
      split
      · next hp =>
        rw [List.mem_append]
        right
        have hpos : 0 < old.length := List.length_pos_iff.2 ho
        refine ih _ (by rw [List.length_drop]; simp only [List.length_cons] at hs ⊢; omega) ?_
        rw [List.isPrefixOf_iff_prefix] at hp
        obtain ⟨t, ht⟩ := hp
        rw [← ht] at hm ⊢
        rw [List.drop_left' rfl]
        exact (List.mem_append.1 hm).resolve_left hc
      · rw [List.mem_cons] at hm ⊢
        exact hm.imp id fun h => ih _ (by simp only [List.length_cons] at hs; omega) h

/-- Replacing keeps the characters that do not occur in the pattern. -/
theorem mem_replaceStr {old s : Str} (new : Str) {c : Char} (hc : c ∉ old) (ho : old ≠ []) (h : c ∈ s) : c ∈ replaceStr old new s :=
  mem_replaceStr_go hc ho _ _ le_rfl h

theorem replaceStr_go_absent {old new : Str} {d : Char} (hd : d ∈ old) : ∀ (fuel : Nat) (s : Str), d ∉ s → replaceStr.go old new s fuel = s := by
  intro fuel
  induction fuel with
  | zero => intro s _; rfl
  | succ n ih =>
    intro s hs
    match s with
    | [] => rfl
    | a :: as =>
      unfold replaceStr.go
      simp only
      rw [if_neg, ih as fun h => hs (List.mem_cons_of_mem _ h)]
      intro hp
      rw [List.isPrefixOf_iff_prefix] at hp
      exact hs (hp.subset hd)

/-- A pattern with a character that does not occur is not found. -/
theorem replaceStr_absent {old s : Str} (new : Str) {d : Char} (hd : d ∈ old) (h : d ∉ s) : replaceStr old new s = s :=
  replaceStr_go_absent hd _ _ h

theorem mem_splitChar {sep c : Char} (hc : c ≠ sep) : ∀ {s : Str}, c ∈ s → ∃ p ∈ splitChar sep s, c ∈ p
  | [], h => by cases h
  | a :: as, h => by
    unfold splitChar
    split
    · next ha =>
      have : c ∈ as := (List.mem_cons.1 h).resolve_left fun e => hc (e.trans ha)
      obtain ⟨p, hp, hm⟩ := mem_splitChar hc this
      exact ⟨p, List.mem_cons_of_mem _ hp, hm⟩
    · rcases List.mem_cons.1 h with rfl | h
      · cases splitChar sep as with
        | nil => exact ⟨[c], by simp, by simp⟩
        | cons p ps => exact ⟨c :: p, by simp, by simp⟩
      · obtain ⟨p, hp, hm⟩ := mem_splitChar hc h
        cases hs : splitChar sep as with
        | nil => rw [hs] at hp; cases hp
        | cons q qs =>
          rw [hs] at hp
          rcases List.mem_cons.1 hp with rfl | hp
          · exact ⟨a :: p, by simp, List.mem_cons_of_mem _ hm⟩
          · exact ⟨p, by simp [hp], hm⟩

theorem mem_lstrip {chars : List Char} {c : Char} (hc : c ∉ chars) : ∀ {s : Str}, c ∈ s → c ∈ lstripChars chars s
  | [], h => by cases h
  | a :: as, h => by
    unfold lstripChars
    rw [List.dropWhile_cons]
    split
    · next ha =>
      refine mem_lstrip hc ((List.mem_cons.1 h).resolve_left ?_)
      rintro rfl
      exact hc (by simpa using ha)
    · exact h

theorem mem_rstrip {chars : List Char} {c : Char} (hc : c ∉ chars) {s : Str} (h : c ∈ s) : c ∈ rstripChars chars s := by
  unfold rstripChars
  rw [List.mem_reverse]
  exact mem_lstrip hc (List.mem_reverse.2 h)

theorem mem_strip {chars : List Char} {c : Char} (hc : c ∉ chars) {s : Str} (h : c ∈ s) : c ∈ stripChars chars s :=
  mem_rstrip hc (mem_lstrip hc h)

/-- A character that is neither a digit nor a sign nor otherwise special in any of the texts of numbers that are
tried. -/
def Odd (c : Char) : Prop :=
  isDig c = false ∧ c ≠ '+' ∧ c ≠ '-' ∧ c ≠ '~' ∧ c ≠ '.' ∧ c ≠ '|' ∧ c ≠ 'e' ∧ ¬ ('A' ≤ c ∧ c ≤ 'Z') ∧ isSpaceChar c = false

theorem parseNat_odd {c : Char} (hc : isDig c = false) {s : Str} (h : c ∈ s) : parseNat s = .error .valueError := by
  unfold parseNat
  rw [if_pos]
  right
  cases hs : s.all isDig
  · rfl
  · exact absurd (List.all_eq_true.1 hs c h) (by rw [hc]; decide)

theorem parseInt_odd {c : Char} (hc : isDig c = false) (hp : c ≠ '+') (hm : c ≠ '-') {s : Str} (h : c ∈ s) :
    parseInt s = .error .valueError := by
  unfold parseInt
  split
  · rw [parseNat_odd hc ((List.mem_cons.1 h).resolve_left hm)]; rfl
  · rw [parseNat_odd hc ((List.mem_cons.1 h).resolve_left hp)]; rfl
  · rw [parseNat_odd hc h]; rfl

theorem mem_orZero {c : Char} {s : Str} (h : c ∈ s) : c ∈ orZero s := by
  unfold orZero
  rw [if_neg (by rintro rfl; cases h)]
  exact h

theorem mem_lower {c : Char} (hc : ¬ ('A' ≤ c ∧ c ≤ 'Z')) {s : Str} (h : c ∈ s) : c ∈ lowerAscii s := by
  unfold lowerAscii
  exact List.mem_map.2 ⟨c, h, by rw [if_neg hc]⟩

theorem mem_squash {c : Char} (hc : isSpaceChar c = false) {s : Str} (h : c ∈ s) : c ∈ squash s := by
  unfold squash
  exact List.mem_filter.2 ⟨h, by simp [hc]⟩

theorem lower_e {s : Str} (h1 : 'e' ∉ s) (h2 : 'E' ∉ s) : 'e' ∉ lowerAscii s := by
  unfold lowerAscii
  rw [List.mem_map]
  rintro ⟨c, hc, he⟩
  split at he
  · next hr =>
    have key : ∀ n, n < 91 → 65 ≤ n → Char.ofNat (n + 32) = 'e' → n = 69 := by decide
    have h3 : c.toNat = 69 := by
      have l1 : 65 ≤ c.toNat := hr.1
      have l2 : c.toNat ≤ 90 := hr.2
      exact key _ (by omega) l1 he
    exact h2 (by
      have : c = 'E' := by
        apply Char.ext
        apply UInt32.toNat_inj.1
        exact h3
      rw [← this]; exact hc)
  · exact h1 (he ▸ hc)

/-- Ordinary numbers refuse text with an odd character and without exponent. -/
theorem realParse_odd {c : Char} (hc : Odd c) {s : Str} (h : c ∈ s) (h1 : 'e' ∉ s) (h2 : 'E' ∉ s) :
    realParse s = .error .valueError := by
  obtain ⟨c1, c2, c3, c4, c5, c6, c7, c8, c9⟩ := hc
  obtain ⟨A, hA, hAe, hn⟩ : ∃ A : Str, c ∈ A ∧ 'e' ∉ A ∧ ∃ neg, realNormalize s = (neg, A ++ ['e', '0']) := by
    have he : 'e' ∉ lowerAscii (squash s) :=
      lower_e (fun h => h1 (List.mem_of_mem_filter h)) fun h => h2 (List.mem_of_mem_filter h)
    have hm : c ∈ lowerAscii (squash s) := mem_lower c8 (mem_squash c9 h)
    generalize hB : replaceStr ['~'] ['-'] (lowerAscii (squash s)) = B
    have hBm : c ∈ B := hB ▸ mem_replaceStr _ (by simpa using c4) (by simp) hm
    have hBe : 'e' ∉ B := by
      rw [← hB, replaceStr_single, List.mem_flatMap]
      rintro ⟨x, hx, hy⟩
      split at hy
      · simp at hy
      · rw [List.mem_singleton] at hy; exact he (hy ▸ hx)
    have hstrip : ∀ D : Str, c ∈ D → 'e' ∉ D → ∃ A : Str, c ∈ A ∧ 'e' ∉ A ∧ stripChars ['+', '-'] (D ++ ['e', '0']) = A ++ ['e', '0'] := by
      intro D hD hDe
      refine ⟨lstripChars ['+', '-'] D, mem_lstrip (by simp [c2, c3]) hD,
        fun h => hDe ((List.dropWhile_suffix _).subset h), ?_⟩
      have hl : lstripChars ['+', '-'] (D ++ ['e', '0']) = lstripChars ['+', '-'] D ++ ['e', '0'] := by
        have hne : lstripChars ['+', '-'] D ≠ [] := by
          intro h0
          have := mem_lstrip (chars := ['+', '-']) (by simp [c2, c3]) hD
          rw [h0] at this; cases this
        unfold lstripChars at hne ⊢
        rw [List.dropWhile_append, if_neg (by simpa using hne)]
      unfold stripChars
      rw [hl]
      unfold rstripChars
      rw [List.reverse_append]
      simp
    unfold realNormalize
    simp only
    rw [hB, replaceStr_absent ['e'] (d := 'e') (by simp) hBe, if_neg hBe]
    split
    · obtain ⟨A, g1, g2, g3⟩ := hstrip B hBm hBe
      exact ⟨A, g1, g2, _, by rw [g3]⟩
    · obtain ⟨A, g1, g2, g3⟩ := hstrip (B ++ ['.']) (by simp [hBm]) (by simp [hBe])
      refine ⟨A, g1, g2, startsWith ['-'] (B ++ ['.', 'e'] ++ ['0']), ?_⟩
      have := replaceStr_once 'e' [] ['.', 'e'] B ['0'] hBe (by decide)
      rw [show B ++ ['e', '0'] = B ++ ['e'] ++ ['0'] by simp, this, ← g3]
      simp
  obtain ⟨neg, hn⟩ := hn
  have hsplit : splitChar 'e' (A ++ ['e', '0']) = [A, ['0']] := by
    rw [splitChar_append hAe]; rfl
  unfold realParse
  rw [hn]
  simp only [hsplit]
  rw [exceptOk_bind]
  simp only
  obtain ⟨p, hp, hcp⟩ := mem_splitChar c5 hA
  match hsp : splitChar '.' A with
  | [] => rfl
  | [_] => rfl
  | a :: b :: _ :: _ => rfl
  | [a, b] =>
    rw [hsp] at hp
    simp only
    rw [exceptOk_bind]
    simp only
    rcases List.mem_cons.1 hp with rfl | hp
    · rw [parseInt_odd c1 c2 c3 (mem_orZero hcp)]; rfl
    · rw [List.mem_singleton] at hp
      subst hp
      cases hi : parseInt (orZero a) with
      | error x => rw [parseInt_error hi]; rfl
      | ok i =>
        rw [exceptOk_bind, parseInt_odd c1 c2 c3 (mem_orZero hcp)]; rfl

theorem real_odd {c : Char} (hc : Odd c) {s : Str} (h : c ∈ s) (h1 : 'e' ∉ s) (h2 : 'E' ∉ s) (b : Buf) :
    realLoadString s b = ⟨.error .valueError, b, []⟩ := by
  unfold realLoadString
  rw [if_neg (by rintro rfl; cases h), realParse_odd hc h h1 h2]
  rfl

/-- Fractions refuse text with an odd character other than `/` and without exponent. -/
theorem parseFraction_odd {c : Char} (hc : Odd c) (hs : c ≠ '/') {s : Str} (h : c ∈ s) (h1 : 'e' ∉ s) (h2 : 'E' ∉ s) :
    parseFraction s = .error .valueError := by
  obtain ⟨c1, c2, c3, -, c5, -, -, -, -⟩ := hc
  unfold parseFraction
  simp only
  generalize hT : (if (startsWith ['-'] s || startsWith ['+'] s) = true then s.drop 1 else s) = T
  have hTm : c ∈ T := by
    rw [← hT]
    split
    · next hp =>
      match s with
      | [] => cases h
      | a :: as =>
        refine (List.mem_cons.1 h).resolve_left ?_
        rintro rfl
        rw [startsWith_cons, startsWith_cons] at hp
        simp only [Bool.or_eq_true, beq_iff_eq] at hp
        rcases hp with hp | hp
        · exact c3 hp.symm
        · exact c2 hp.symm
    · exact h
  have hTs : ∀ x ∈ T, x ∈ s := by
    intro x hx
    rw [← hT] at hx
    split at hx
    · exact List.mem_of_mem_drop hx
    · exact hx
  have drop_mem : ∀ {l : Str}, c ∈ l → c ∈ l.dropWhile isDig := by
    intro l hl
    induction l with
    | nil => cases hl
    | cons a as ih =>
      rw [List.dropWhile_cons]
      split
      · next ha =>
        refine ih ((List.mem_cons.1 hl).resolve_left ?_)
        rintro rfl
        rw [c1] at ha; cases ha
      · exact hl
  have hR := drop_mem hTm
  split
  · rfl
  · split
    · next hsl =>
      match hr : T.dropWhile isDig with
      | [] => rw [hr] at hR; cases hR
      | a :: as =>
        rw [hr, startsWith_cons] at hsl
        have ha : '/' = a := by simpa using hsl
        subst ha
        rw [hr] at hR
        rw [show List.drop 1 ('/' :: as) = as from rfl, parseNat_odd c1 ((List.mem_cons.1 hR).resolve_left hs)]
    · generalize hR2 : (if startsWith ['.'] (T.dropWhile isDig) = true then ((T.dropWhile isDig).drop 1).dropWhile isDig
        else T.dropWhile isDig) = R
      have hRm : c ∈ R := by
        rw [← hR2]
        split
        · next hd =>
          match hr : T.dropWhile isDig with
          | [] => rw [hr] at hR; cases hR
          | a :: as =>
            rw [hr, startsWith_cons] at hd
            have ha : '.' = a := by simpa using hd
            subst ha
            rw [hr] at hR
            exact drop_mem ((List.mem_cons.1 hR).resolve_left c5)
        · exact hR
      have hRs : ∀ x ∈ R, x ∈ s := by
        intro x hx
        rw [← hR2] at hx
        split at hx
        · exact hTs x ((List.dropWhile_suffix _).subset (List.mem_of_mem_drop ((List.dropWhile_suffix _).subset hx)))
        · exact hTs x ((List.dropWhile_suffix _).subset hx)
      match R, hRm with
      | a :: as, hRm =>
        rw [if_neg (by simp), if_neg]
        rw [startsWith_cons, startsWith_cons]
        simp only [Bool.or_eq_true, beq_iff_eq]
        rintro (rfl | rfl)
        · exact h1 (hRs _ (by simp))
        · exact h2 (hRs _ (by simp))

theorem fraction_odd {c : Char} (hc : Odd c) (hs : c ≠ '/') {s : Str} (h : c ∈ s) (h1 : 'e' ∉ s) (h2 : 'E' ∉ s) (b : Buf) :
    fractionLoadString s b = ⟨.error .valueError, b, []⟩ := by
  unfold fractionLoadString
  rw [parseFraction_odd hc hs (mem_squash hc.2.2.2.2.2.2.2.2 h) (fun h => h1 (List.mem_of_mem_filter h))
    fun h => h2 (List.mem_of_mem_filter h)]
  rfl

theorem radTerm_odd {c : Char} (c1 : isDig c = false) (c2 : c ≠ '+') (c3 : c ≠ '-') (hr : c ≠ '√') {t : Str} (h : c ∈ t) :
    ∃ x, radTerm t = .error x := by
  unfold radTerm
  simp only
  generalize hT : (if '√' ∈ t then t else t ++ ['√', '1']) = T
  have hTm : c ∈ T := by
    rw [← hT]; split
    · exact h
    · simp [h]
  obtain ⟨p, hp, hcp⟩ := mem_splitChar hr hTm
  match hsp : splitChar '√' T with
  | [] => exact ⟨_, rfl⟩
  | [_] => exact ⟨_, rfl⟩
  | a :: b :: _ :: _ => exact ⟨_, rfl⟩
  | [a, b] =>
    rw [hsp] at hp
    simp only
    rcases List.mem_cons.1 hp with rfl | hp
    · rw [parseInt_odd c1 c2 c3 (c := c) (by split <;> simp [hcp])]
      exact ⟨_, rfl⟩
    · rw [List.mem_singleton] at hp
      subst hp
      cases hi : parseInt (if rstripChars ['+', '-'] a ≠ [] then a else a ++ ['1']) with
      | error x => exact ⟨_, rfl⟩
      | ok i => rw [exceptOk_bind, parseInt_odd c1 c2 c3 hcp]; exact ⟨_, rfl⟩

/-- Radicals refuse text with a character of no meaning for them. -/
theorem radParse_odd {c : Char} (hc : Odd c) (hn : c ∉ ['(', ')', '*', 's', 'q', 'r', 't', '√', '/']) {s : Str} (h : c ∈ s) :
    radParse s = .error .valueError := by
  obtain ⟨c1, c2, c3, c4, c5, c6, c7, c8, c9⟩ := hc
  simp only [List.mem_cons, List.not_mem_nil, not_or, or_false] at hn
  obtain ⟨n1, n2, n3, n4, n5, n6, n7, n8, n9⟩ := hn
  have hN : c ∈ radNormalize s := by
    unfold radNormalize
    refine mem_lstrip (by simpa using c2) (mem_replaceStr _ (by simpa using c3) (by simp) (mem_replaceStr _ (by simp [n4, n5, n6, n7]) (by simp)
      (mem_replaceStr _ (by simpa using c4) (by simp) (mem_replaceStr _ (by simpa using n3) (by simp) (mem_replaceStr _ (by simpa using n2) (by simp)
        (mem_replaceStr _ (by simpa using n1) (by simp) (mem_squash c9 h)))))))
  have hC : c ∈ radComplete (radNormalize s) := by
    unfold radComplete radFill radOver
    simp only
    have h1 : c ∈ (if '/' ∈ radNormalize s then radNormalize s else radNormalize s ++ ['/', '1']) := by
      split
      · exact hN
      · simp [hN]
    generalize (if '/' ∈ radNormalize s then radNormalize s else radNormalize s ++ ['/', '1']) = B at h1 ⊢
    have h2 : c ∈ (if '√' ∈ B then B else replaceStr ['/'] ['√', '1', '/'] (['0', '√', '1', '+'] ++ B)) := by
      split
      · exact h1
      · exact mem_replaceStr _ (by simpa using n9) (by simp) (by simp [h1])
    generalize (if '√' ∈ B then B else replaceStr ['/'] ['√', '1', '/'] (['0', '√', '1', '+'] ++ B)) = D at h2 ⊢
    split
    · exact h2
    · exact mem_replaceStr _ (by simpa using n9) (by simp) h2
  unfold radParse
  simp only
  split
  · rfl
  · obtain ⟨p, hp, hcp⟩ := mem_splitChar n9 hC
    match hsp : splitChar '/' (radComplete (radNormalize s)) with
    | [] => rfl
    | [_] => rfl
    | a :: b :: _ :: _ => rfl
    | [top, bot] =>
      rw [hsp] at hp
      simp only
      match hsp2 : splitChar '+' top with
      | [] => rfl
      | [_] => rfl
      | a :: b :: _ :: _ => rfl
      | [l, r] =>
        simp only
        rcases List.mem_cons.1 hp with rfl | hp
        · obtain ⟨q, hq, hcq⟩ := mem_splitChar c2 hcp
          rw [hsp2] at hq
          rcases List.mem_cons.1 hq with rfl | hq
          · obtain ⟨x, hx⟩ := radTerm_odd c1 c2 c3 n8 hcq
            rw [hx]
          · rw [List.mem_singleton] at hq
            subst hq
            obtain ⟨x, hx⟩ := radTerm_odd c1 c2 c3 n8 hcq
            rw [hx]
            cases radTerm l <;> rfl
        · rw [List.mem_singleton] at hp
          subst hp
          rw [parseInt_odd c1 c2 c3 (mem_lstrip (by simpa using c2) hcp)]
          cases radTerm l <;> cases radTerm r <;> rfl

theorem radical_odd {c : Char} (hc : Odd c) (hn : c ∉ ['(', ')', '*', 's', 'q', 'r', 't', '√', '/']) {s : Str} (h : c ∈ s) (b : Buf) :
    radLoadString s b = ⟨.error .valueError, b, []⟩ := by
  unfold radLoadString
  rw [if_neg (by rintro rfl; cases h), radParse_odd hc hn h]
  rfl

end Verif
