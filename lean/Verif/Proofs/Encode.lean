import Verif.Proofs.Trie
import Verif.Proofs.Decode

/- Helper lemmas about encoding. -/

namespace Verif

/-! ### Characters -/

theorem char_cases (c : Char) : (∃ n, n < 128 ∧ c = Char.ofNat n) ∨ 128 ≤ c.toNat := by
  by_cases h : c.toNat < 128
  · exact Or.inl ⟨c.toNat, h, (Char.ofNat_toNat c).symm⟩
  · exact Or.inr (by omega)

theorem ne_of_ge {c d : Char} (h : 128 ≤ c.toNat) (hd : d.toNat < 128) : c ≠ d := by
  intro e; subst e; omega

theorem not_mem_of_ge {c : Char} (h : 128 ≤ c.toNat) {l : List Char}
    (hl : ∀ d ∈ l, d.toNat < 128) : c ∉ l := fun hm => by
  have := hl c hm; omega

theorem hexVal_eq (c : Char) : hexVal c = digitValue c := by
  rcases char_cases c with ⟨n, hn, rfl⟩ | h
  · revert n; decide +kernel
  · have h1 : hexVal c = none := by
      unfold hexVal
      rw [if_neg (by omega), if_neg (by omega), if_neg (by omega)]
    rw [h1]
    unfold digitValue
    have a : "0123456789abcdef".toList.idxOf? c = none :=
      List.idxOf?_eq_none_iff.2 (not_mem_of_ge h (by decide))
    have b : "0123456789ABCDEF".toList.idxOf? c = none :=
      List.idxOf?_eq_none_iff.2 (not_mem_of_ge h (by decide))
    rw [a, b]

theorem isAsciiSpace_eq (c : Char) : isAsciiSpace c = isBlank c := by
  rcases char_cases c with ⟨n, hn, rfl⟩ | h
  · revert n; decide +kernel
  · have h1 : isAsciiSpace c = false := by
      unfold isAsciiSpace
      simp only [Bool.or_eq_false_iff, Bool.and_eq_false_iff, decide_eq_false_iff_not]
      omega
    rw [h1]
    simp only [isBlank]
    have (d : Char) (hd : d.toNat < 128) : (c == d) = false := by
      simpa using ne_of_ge h hd
    rw [this _ (by decide), this _ (by decide), this _ (by decide), this _ (by decide),
      this _ (by decide), this _ (by decide)]
    rfl

theorem isPunct_eq (c : Char) : isPunct c = asciiPunct c := by
  rcases char_cases c with ⟨n, hn, rfl⟩ | h
  · revert n; decide +kernel
  · have h1 : isPunct c = false := by
      unfold isPunct
      simp only [Bool.or_eq_false_iff, Bool.and_eq_false_iff, decide_eq_false_iff_not]
      omega
    rw [h1]
    symm
    have : c ∉ "!\"#$%&'()*+,-./:;<=>?@[\\]^_`{|}~".toList := not_mem_of_ge h (by decide)
    unfold asciiPunct
    simpa using this

theorem blank_not_digit {c : Char} (h : isBlank c = true) : digitValue c = none := by
  simp only [isBlank, Bool.or_eq_true, beq_iff_eq] at h
  rcases h with ((((rfl | rfl) | rfl) | rfl) | rfl) | rfl <;> decide

theorem fromHex_iff (s : Str) (bs : Bytes) : fromHex s = some bs ↔ HexText s bs := by
  constructor
  · intro h
    induction s using fromHex.induct generalizing bs with
    | case1 => simp only [fromHex, Option.some.injEq] at h; subst h; exact .nil
    | case2 c hc =>
      simp only [fromHex, hc, if_true, Option.some.injEq] at h
      subst h
      exact .blank (by rw [← isAsciiSpace_eq]; exact hc) .nil
    | case3 c hc => simp [fromHex, hc] at h
    | case4 c d rest hc ih =>
      rw [fromHex, if_pos hc] at h
      exact .blank (by rw [← isAsciiSpace_eq]; exact hc) (ih _ h)
    | case5 c d rest hc x y bs' hbs hy hx ih =>
      rw [fromHex, if_neg hc, hx, hy, hbs] at h
      simp only [Option.some.injEq] at h
      subst h
      exact .byte (by rw [← hexVal_eq]; exact hx) (by rw [← hexVal_eq]; exact hy) (ih _ hbs)
    | case6 c d rest hc hn ih =>
      rw [fromHex, if_neg hc] at h
      revert h
      split
      · rename_i x y bs' hx hy hb
        exact absurd hb (by
          intro hb'
          exact hn x y bs' hx hy hb')
      · simp
  · intro h
    induction h with
    | nil => rfl
    | @blank c s bs hc _ ih =>
      rw [← isAsciiSpace_eq] at hc
      cases s with
      | nil => simp only [fromHex, hc, if_true]; simpa [fromHex] using ih
      | cons d s => rw [fromHex, if_pos hc]; exact ih
    | @byte c d s bs x y hx hy _ ih =>
      have hc : ¬ isAsciiSpace c = true := by
        intro hb
        rw [isAsciiSpace_eq] at hb
        rw [blank_not_digit hb] at hx
        simp at hx
      rw [fromHex, if_neg hc, hexVal_eq, hexVal_eq, hx, hy, ih]

/-! ### One munch -/

theorem literalLength_some {s : Str} {n : Nat} (h : literalLength s = some n) :
    (∃ r, s = '\\' :: 'x' :: r ∧ n = 4) ∨ (∃ r, s = '\\' :: 'u' :: r ∧ n = 6) := by
  unfold literalLength at h
  split at h
  · rename_i r; exact Or.inl ⟨r, rfl, by simpa using h.symm⟩
  · rename_i r; exact Or.inr ⟨r, rfl, by simpa using h.symm⟩
  · simp at h

theorem literalLength_none {s : Str} (h : literalLength s = none) : ¬ StartsLiteral s := by
  rintro (⟨r, rfl⟩ | ⟨r, rfl⟩) <;> simp [literalLength] at h

theorem startsLiteral_of_some {s : Str} {n : Nat} (h : literalLength s = some n) :
    StartsLiteral s := by
  rcases literalLength_some h with ⟨r, rfl, _⟩ | ⟨r, rfl, _⟩
  · exact Or.inl ⟨r, rfl⟩
  · exact Or.inr ⟨r, rfl⟩

variable {τ : Type}

/-- Matches are ordered by growing remainder. -/
theorem matchesOf_pairwise (tbl : List (Str × τ)) (s : Str) :
    (matchesOf tbl s).Pairwise fun a b => a.2.length < b.2.length := by
  unfold matchesOf
  rw [List.pairwise_filterMap]
  have hr : ((List.range (s.length + 1)).reverse).Pairwise
      fun a b => b < a ∧ a ≤ s.length := by
    rw [List.pairwise_reverse]
    refine List.Pairwise.imp_of_mem ?_ (List.pairwise_lt_range)
    intro a b ha hb hab
    rw [List.mem_range] at hb
    exact ⟨hab, by omega⟩
  refine hr.imp ?_
  intro a b hab x hx y hy
  cases ha : named tbl (s.take a) with
  | none => rw [ha] at hx; simp at hx
  | some u =>
    cases hb : named tbl (s.take b) with
    | none => rw [hb] at hy; simp at hy
    | some v =>
      rw [ha] at hx; rw [hb] at hy
      simp only [Option.map_some, Option.some.injEq] at hx hy
      subst hx; subst hy
      simp only [List.length_drop]
      omega

theorem mem_matchesOf (tbl : List (Str × τ)) (s : Str) (t : τ) (rem : Str) :
    (t, rem) ∈ matchesOf tbl s ↔
      ∃ n, n ≤ s.length ∧ named tbl (s.take n) = some t ∧ rem = s.drop n := by
  unfold matchesOf
  rw [List.mem_filterMap]
  constructor
  · rintro ⟨n, hn, he⟩
    rw [List.mem_reverse, List.mem_range] at hn
    cases hx : named tbl (s.take n) with
    | none => rw [hx] at he; simp at he
    | some u =>
      rw [hx] at he
      simp only [Option.map_some, Option.some.injEq, Prod.mk.injEq] at he
      exact ⟨n, by omega, by rw [hx, he.1], he.2.symm⟩
  · rintro ⟨n, hn, hx, rfl⟩
    exact ⟨n, by rw [List.mem_reverse, List.mem_range]; omega, by rw [hx]; rfl⟩

theorem mem_matchesOf_take {tbl : List (Str × τ)} {s : Str} {n : Nat} (hn : n ≤ s.length)
    (h : (named tbl (s.take n)).isSome) : ∃ t, (t, s.drop n) ∈ matchesOf tbl s := by
  obtain ⟨t, ht⟩ := Option.isSome_iff_exists.1 h
  exact ⟨t, (mem_matchesOf ..).2 ⟨n, hn, ht, rfl⟩⟩

/-- The match list as `munch` uses it. -/
def options (tbl : List (Str × τ)) (s : Str) : List (τ × Str) :=
  if isPunct (s.headD ' ') && (matchesOf tbl s).length > 1 then (matchesOf tbl s).dropLast
  else matchesOf tbl s

theorem mem_of_mem_options {tbl : List (Str × τ)} {s : Str} {p : τ × Str}
    (h : p ∈ options tbl s) : p ∈ matchesOf tbl s := by
  unfold options at h
  split at h
  · exact List.dropLast_subset _ h
  · exact h

theorem longest_of_head {tbl : List (Str × τ)} {s rem : Str} {t : τ}
    (h : (options tbl s).head? = some (t, rem)) {n : Nat} (hn : n ≤ s.length)
    (hrem : rem = s.drop n) : ∀ m, (named tbl (s.take m)).isSome → m ≤ s.length → m ≤ n := by
  have hhead : (matchesOf tbl s).head? = some (t, rem) := by
    unfold options at h
    split at h
    · cases hm : matchesOf tbl s with
      | nil => rw [hm] at h; simp at h
      | cons a l =>
        rw [hm] at h
        cases l with
        | nil => simp at h
        | cons b l => simpa using h
    · exact h
  intro m hm hml
  obtain ⟨u, hu⟩ := mem_matchesOf_take hml hm
  have hp := matchesOf_pairwise tbl s
  cases hl : matchesOf tbl s with
  | nil => rw [hl] at hhead; simp at hhead
  | cons a l =>
    rw [hl] at hhead hu hp
    simp only [List.head?_cons, Option.some.injEq] at hhead
    rw [List.pairwise_cons] at hp
    rcases List.mem_cons.1 hu with he | hin
    · rw [hhead] at he
      have h2 : s.drop m = rem := congrArg Prod.snd he
      have h3 := congrArg List.length h2
      rw [hrem, List.length_drop, List.length_drop] at h3
      omega
    · have h3 := hp.1 _ hin
      rw [hhead, hrem] at h3
      simp only [List.length_drop] at h3
      omega

theorem shortest_of_getLast {tbl : List (Str × τ)} {s rem : Str} {t : τ}
    (h : (options tbl s).getLast? = some (t, rem)) {n : Nat} (hn : n ≤ s.length)
    (hrem : rem = s.drop n) : IsShortest tbl s (s.take n) := by
  have hlen : (s.take n).length = n := by rw [List.length_take]; omega
  have hp := matchesOf_pairwise tbl s
  unfold IsShortest
  rw [hlen]
  unfold options at h
  rw [isPunct_eq] at h
  by_cases hc : asciiPunct (s.headD ' ') && (matchesOf tbl s).length > 1
  · rw [if_pos hc] at h
    simp only [Bool.and_eq_true, decide_eq_true_eq] at hc
    right
    refine ⟨hc.1, ?_⟩
    have hne : matchesOf tbl s ≠ [] := by
      intro e; rw [e] at hc; simp at hc
    obtain ⟨x, hx⟩ : ∃ x, matchesOf tbl s = (matchesOf tbl s).dropLast ++ [x] :=
      ⟨_, (List.dropLast_concat_getLast hne).symm⟩
    obtain ⟨ys, hys⟩ := List.getLast?_eq_some_iff.1 h
    rw [hys] at hx
    rw [hx] at hp
    have hxm : x ∈ matchesOf tbl s := by rw [hx]; simp
    obtain ⟨m, hm, hmn, hmr⟩ := (mem_matchesOf tbl s x.1 x.2).1 hxm
    have hlt : (t, rem).2.length < x.2.length := by
      rw [List.pairwise_append] at hp
      exact hp.2.2 (t, rem) (by simp) x (by simp)
    rw [hmr, hrem] at hlt
    simp only [List.length_drop] at hlt
    refine ⟨m, by omega, by rw [hmn]; rfl, ?_⟩
    intro k hk hks
    obtain ⟨u, hu⟩ := mem_matchesOf_take (by omega : k ≤ s.length) hks
    rw [hx] at hu
    rcases List.mem_append.1 hu with hu | hu
    · exfalso
      rcases List.mem_append.1 hu with hu | hu
      · have h1 : (u, s.drop k).2.length < (t, rem).2.length := by
          rw [List.append_assoc, List.pairwise_append] at hp
          exact hp.2.2 _ hu _ (by simp)
        rw [hrem] at h1
        simp only [List.length_drop] at h1
        omega
      · have h2 := congrArg (List.length ∘ Prod.snd) (List.mem_singleton.1 hu)
        simp only [Function.comp, hrem, List.length_drop] at h2
        omega
    · have h2 := congrArg (List.length ∘ Prod.snd) (List.mem_singleton.1 hu)
      simp only [Function.comp, hmr, List.length_drop] at h2
      omega
  · rw [if_neg hc] at h
    obtain ⟨ys, hys⟩ := List.getLast?_eq_some_iff.1 h
    left
    rw [hys] at hp
    constructor
    · intro k hk
      cases hkn : named tbl (s.take k) with
      | none => rfl
      | some u =>
        exfalso
        obtain ⟨v, hv⟩ := mem_matchesOf_take (tbl := tbl) (by omega : k ≤ s.length) (by rw [hkn]; rfl)
        rw [hys] at hv
        rcases List.mem_append.1 hv with hv | hv
        · have h1 : (v, s.drop k).2.length < (t, rem).2.length := by
            rw [List.pairwise_append] at hp
            exact hp.2.2 _ hv _ (by simp)
          rw [hrem] at h1
          simp only [List.length_drop] at h1
          omega
        · have h2 := congrArg (List.length ∘ Prod.snd) (List.mem_singleton.1 hv)
          simp only [Function.comp, hrem, List.length_drop] at h2
          omega
    · rintro ⟨hpu, k, hk, hks, hkn⟩
      apply hc
      rw [hpu]
      simp only [Bool.true_and, decide_eq_true_eq]
      obtain ⟨v, hv⟩ := mem_matchesOf_take hks hkn
      rw [hys] at hv ⊢
      rcases List.mem_append.1 hv with hv | hv
      · have := List.length_pos_of_mem hv
        simp; omega
      · have h2 := congrArg (List.length ∘ Prod.snd) (List.mem_singleton.1 hv)
        simp only [Function.comp, hrem, List.length_drop] at h2
        omega

variable {V : Type}

/-- The contexts `munch` returns. -/
def munchCtx (top : St) (literal : Bool) (bits : Bytes) : List St :=
  if literal = false ∧ some top.length = top.kind.maxLength then [] else top.next bits

theorem munch_some (initial : V) (toks : List (Tok V × List Str)) (top : St) (s : Str)
    (tok : Tok V) (rem : Str) (ctx : List St)
    (h : top.munch initial (Trie.fromTokens toks) s = some (tok, rem, ctx)) :
    ∃ text literal, s = text ++ rem ∧
      IsMunch (illegalTok initial) (namePairs toks) top.kind.minimal s text tok ∧
      (literal = true ↔ StartsLiteral s) ∧ ctx = munchCtx top literal tok.bits ∧
      (literal = true → tok.since = initial ∧ text ≠ [] ∨ s = []) := by
  unfold St.munch at h
  split at h
  · rename_i n hl
    have hsl := startsLiteral_of_some hl
    split at h
    · simp at h
    · rename_i bits hb
      simp only [Option.some.injEq, Prod.mk.injEq] at h
      obtain ⟨rfl, rfl, rfl⟩ := h
      refine ⟨s.take n, true, (List.take_append_drop n s).symm, ⟨Or.inl ⟨bits, ⟨?_, ?_⟩, rfl⟩, ?_⟩, ?_, ?_, ?_⟩
      · rcases literalLength_some hl with ⟨r, hs, rfl⟩ | ⟨r, hs, rfl⟩
        · exact Or.inl ⟨r, hs, rfl⟩
        · exact Or.inr ⟨r, hs, rfl⟩
      · exact (fromHex_iff _ _).1 hb
      · intro hn; exact absurd hsl hn
      · simp [hsl]
      · simp [munchCtx]
      · intro _
        left
        refine ⟨rfl, ?_⟩
        rcases literalLength_some hl with ⟨r, rfl, rfl⟩ | ⟨r, rfl, rfl⟩ <;> simp
  · rename_i hl
    have hsl := literalLength_none hl
    rw [Trie.match_fromTokens] at h
    simp only at h
    change (match (if top.kind.minimal = true then (options (namePairs toks) s).getLast?
      else (options (namePairs toks) s).head?) with
      | none => none
      | some (token, remainder) =>
        if some top.length = top.kind.maxLength then some (token, remainder, [])
        else some (token, remainder, top.next token.bits)) = _ at h
    split at h
    · simp at h
    · rename_i x token remainder hx
      have hmem : (token, remainder) ∈ options (namePairs toks) s := by
        split at hx
        · exact List.mem_of_getLast? hx
        · exact List.mem_of_head? hx
      obtain ⟨n, hn, hnm, hr⟩ := (mem_matchesOf _ _ _ _).1 (mem_of_mem_options hmem)
      have htok : tok = token ∧ rem = remainder ∧ ctx = munchCtx top false token.bits := by
        unfold munchCtx
        split at h
        · rename_i hlen
          simp only [Option.some.injEq, Prod.mk.injEq] at h
          obtain ⟨rfl, rfl, rfl⟩ := h
          refine ⟨rfl, rfl, ?_⟩
          rw [if_pos ⟨rfl, hlen⟩]
        · rename_i hlen
          simp only [Option.some.injEq, Prod.mk.injEq] at h
          obtain ⟨rfl, rfl, rfl⟩ := h
          refine ⟨rfl, rfl, ?_⟩
          rw [if_neg (fun hh => hlen hh.2)]
      obtain ⟨rfl, rfl, rfl⟩ := htok
      refine ⟨s.take n, false, ?_, ⟨Or.inr ⟨hsl, List.take_prefix _ _, hnm⟩, ?_⟩, ?_, rfl, ?_⟩
      · rw [hr, List.take_append_drop]
      · intro _
        split
        · rename_i hmin
          rw [if_pos hmin] at hx
          exact shortest_of_getLast hx hn hr
        · rename_i hmin
          rw [if_neg hmin] at hx
          intro m hm hml
          have := longest_of_head hx hn hr m hm hml
          rw [List.length_take]; omega
      · simp [hsl]
      · simp

theorem munch_none (initial : V) (toks : List (Tok V × List Str)) (top : St) (s : Str)
    (h : top.munch initial (Trie.fromTokens toks) s = none) (text : Str) (tok : Tok V) :
    ¬ IsPiece (illegalTok initial) (namePairs toks) s text tok := by
  unfold St.munch at h
  split at h
  · rename_i n hl
    split at h
    · rename_i hb
      rintro (⟨bits, ⟨hlit, hhex⟩, _⟩ | ⟨hns, _⟩)
      · have ht : text = s.take n := by
          rcases literalLength_some hl with ⟨r, hs, rfl⟩ | ⟨r, hs, rfl⟩
          · rcases hlit with ⟨r', _, ht⟩ | ⟨r', hs', ht⟩
            · exact ht
            · rw [hs] at hs'; simp at hs'
          · rcases hlit with ⟨r', hs', ht⟩ | ⟨r', _, ht⟩
            · rw [hs] at hs'; simp at hs'
            · exact ht
        rw [ht] at hhex
        have := (fromHex_iff _ _).2 hhex
        unfold lstripLiteral at hb
        rw [this] at hb
        simp at hb
      · exact hns (startsLiteral_of_some hl)
    · simp at h
  · rename_i hl
    have hsl := literalLength_none hl
    rw [Trie.match_fromTokens] at h
    simp only at h
    change (match (if top.kind.minimal = true then (options (namePairs toks) s).getLast?
      else (options (namePairs toks) s).head?) with
      | none => none
      | some (token, remainder) =>
        if some top.length = top.kind.maxLength then some (token, remainder, [])
        else some (token, remainder, top.next token.bits)) = _ at h
    split at h
    · rename_i x hx
      have hemp : options (namePairs toks) s = [] := by
        split at hx
        · exact List.getLast?_eq_none_iff.1 hx
        · exact List.head?_eq_none_iff.1 hx
      have hm : matchesOf (namePairs toks) s = [] := by
        unfold options at hemp
        split at hemp
        · rename_i hc
          simp only [Bool.and_eq_true, decide_eq_true_eq] at hc
          have := congrArg List.length hemp
          rw [List.length_dropLast] at this
          simp at this
          omega
        · exact hemp
      rintro (⟨bits, ⟨hlit, _⟩, _⟩ | ⟨_, hpre, hnm⟩)
      · rcases hlit with ⟨r, hs, _⟩ | ⟨r, hs, _⟩
        · exact hsl (Or.inl ⟨r, hs⟩)
        · exact hsl (Or.inr ⟨r, hs⟩)
      · have : (tok, s.drop text.length) ∈ matchesOf (namePairs toks) s :=
          (mem_matchesOf _ _ _ _).2 ⟨text.length, hpre.length_le,
            by rw [← List.prefix_iff_eq_take.1 hpre]; exact hnm, rfl⟩
        rw [hm] at this
        simp at this
    · split at h <;> simp at h

end Verif
