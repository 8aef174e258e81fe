import Verif.Proofs.Escape

/- A string has at most one reading of each kind. -/

namespace Verif
variable {τ : Type}

theorem LiteralAt.starts {s text : Str} {bits : Bytes} (h : LiteralAt s text bits) :
    StartsLiteral s := by
  rcases h.1 with ⟨r, h, _⟩ | ⟨r, h, _⟩
  · exact Or.inl ⟨r, h⟩
  · exact Or.inr ⟨r, h⟩

theorem LiteralAt.unique {s t₁ t₂ : Str} {b₁ b₂ : Bytes} (h₁ : LiteralAt s t₁ b₁)
    (h₂ : LiteralAt s t₂ b₂) : t₁ = t₂ ∧ b₁ = b₂ := by
  have ht : t₁ = t₂ := by
    rcases h₁.1 with ⟨r, h, e⟩ | ⟨r, h, e⟩ <;> rcases h₂.1 with ⟨r', h', e'⟩ | ⟨r', h', e'⟩
    · rw [e, e']
    · rw [h] at h'; simp at h'
    · rw [h] at h'; simp at h'
    · rw [e, e']
  subst ht
  have e₁ := (fromHex_iff _ _).2 h₁.2
  have e₂ := (fromHex_iff _ _).2 h₂.2
  rw [e₁] at e₂
  exact ⟨rfl, Option.some.inj e₂⟩

theorem prefix_take {s text : Str} (h : text <+: s) : s.take text.length = text := by
  obtain ⟨r, rfl⟩ := h
  simp

theorem prefix_eq {s a b : Str} (ha : a <+: s) (hb : b <+: s) (h : a.length = b.length) : a = b := by
  rw [← prefix_take ha, ← prefix_take hb, h]

theorem IsMunch.unique {lit : Bytes → τ} {tbl : List (Str × τ)} {m : Bool} {s t₁ t₂ : Str} {a b : τ}
    (h₁ : IsMunch lit tbl m s t₁ a) (h₂ : IsMunch lit tbl m s t₂ b) : t₁ = t₂ ∧ a = b := by
  obtain ⟨p₁, c₁⟩ := h₁
  obtain ⟨p₂, c₂⟩ := h₂
  rcases p₁ with ⟨b₁, l₁, e₁⟩ | ⟨n₁, q₁, e₁⟩ <;> rcases p₂ with ⟨b₂, l₂, e₂⟩ | ⟨n₂, q₂, e₂⟩
  · obtain ⟨rfl, rfl⟩ := l₁.unique l₂
    exact ⟨rfl, by rw [e₁, e₂]⟩
  · exact absurd l₁.starts n₂
  · exact absurd l₂.starts n₁
  · have c₁ := c₁ n₁
    have c₂ := c₂ n₁
    have i₁ : (named tbl (s.take t₁.length)).isSome := by rw [prefix_take q₁, e₁]; rfl
    have i₂ : (named tbl (s.take t₂.length)).isSome := by rw [prefix_take q₂, e₂]; rfl
    have l₁ := q₁.length_le
    have l₂ := q₂.length_le
    have ht : t₁ = t₂ := by
      apply prefix_eq q₁ q₂
      cases m with
      | false =>
        have := c₁ _ i₂ l₂
        have := c₂ _ i₁ l₁
        omega
      | true =>
        simp only [if_true] at c₁ c₂
        have key : ∀ {x y : Str}, (named tbl (s.take x.length)).isSome →
            (named tbl (s.take y.length)).isSome → y.length ≤ s.length →
            IsShortest tbl s x → IsShortest tbl s y → x.length < y.length → False := by
          intro x y ix iy ly hx hy hlt
          rcases hy with ⟨hy, _⟩ | ⟨hp, m, hm, im, hy⟩
          · have := hy _ hlt
            rw [this] at ix; simp at ix
          · rcases hx with ⟨_, hx⟩ | ⟨_, k, hk, ik, _⟩
            · exact hx ⟨hp, _, hlt, ly, iy⟩
            · have h1 := hy _ hlt ix
              have h2 := hy k (by omega) ik
              omega
        rcases Nat.lt_trichotomy t₁.length t₂.length with h | h | h
        · exact (key i₁ i₂ l₂ c₁ c₂ h).elim
        · exact h
        · exact (key i₂ i₁ l₁ c₂ c₁ h).elim
    subst ht
    rw [e₁] at e₂
    exact ⟨rfl, Option.some.inj e₂⟩

theorem IsMunch.nonempty {lit : Bytes → τ} {tbl : List (Str × τ)} {m : Bool} {s t : Str} {a : τ}
    (h : IsMunch lit tbl m s t a) (he : named tbl [] = none) : t ≠ [] := by
  rintro rfl
  rcases h.1 with ⟨b, l, _⟩ | ⟨_, _, e⟩
  · rcases l.1 with ⟨r, rfl, h⟩ | ⟨r, rfl, h⟩ <;> simp at h
  · rw [he] at e; simp at e

theorem named_nil {tbl : List (Str × τ)} (he : ∀ p ∈ tbl, p.1 ≠ []) : named tbl [] = none := by
  unfold named
  rw [Option.map_eq_none_iff, List.find?_eq_none]
  intro p hp
  simpa using he p (by simpa using hp)

theorem append_inj_left {a b : Str} {x y : Str} (h : a ++ x = b ++ y) (e : a = b) : x = y := by
  subst e; simpa using h

theorem Pieces.unique {lit : Bytes → τ} {tbl : List (Str × τ)} {m : Bool} (he : named tbl [] = none)
    {s : Str} {ps qs : List (Str × τ)} {rest : Str}
    (h₁ : Pieces (IsMunch lit tbl m) s ps rest) (hr : rest = [])
    (h₂ : Pieces (IsMunch lit tbl m) s qs []) : ps = qs := by
  induction h₁ generalizing qs with
  | done =>
    subst hr
    generalize hs : ([] : Str) = s at h₂
    cases h₂ with
    | done => rfl
    | next hm _ => exact absurd (List.append_eq_nil_iff.1 hs.symm).1 (hm.nonempty he)
  | @next s text t ps rest hm hp ih =>
    generalize hs : text ++ s = z at h₂
    cases h₂ with
    | done => exact absurd (List.append_eq_nil_iff.1 hs).1 (hm.nonempty he)
    | @next s' text' t' qs _ hm' hp' =>
      rw [← hs] at hm'
      obtain ⟨rfl, rfl⟩ := hm.unique hm'
      have hss := append_inj_left hs rfl
      subst hss
      rw [ih hr hp']

theorem SmartPieces.unique {p l : Nat} {lit : Bytes → τ} {bitsOf : τ → Bytes}
    {tbl : List (Str × τ)} (he : named tbl [] = none)
    {c c₁ c₂ : Ctx} {s : Str} {ps qs : List (Str × τ)} {rest : Str}
    (h₁ : SmartPieces p l lit bitsOf tbl c s ps c₁ rest) (hr : rest = [])
    (h₂ : SmartPieces p l lit bitsOf tbl c s qs c₂ []) : ps = qs := by
  induction h₁ generalizing qs with
  | done =>
    subst hr
    generalize hs : ([] : Str) = s at h₂
    cases h₂ with
    | done => rfl
    | next hm _ _ => exact absurd (List.append_eq_nil_iff.1 hs.symm).1 (hm.nonempty he)
  | @next c s text t ps c' rest literal hm hl hp ih =>
    generalize hs : text ++ s = z at h₂
    cases h₂ with
    | done => exact absurd (List.append_eq_nil_iff.1 hs).1 (hm.nonempty he)
    | @next _ s' text' t' qs _ _ literal' hm' hl' hp' =>
      rw [← hs] at hm' hl'
      obtain ⟨rfl, rfl⟩ := hm.unique hm'
      have hss := append_inj_left hs rfl
      subst hss
      have hll : literal = literal' := by
        have := hl.trans hl'.symm
        cases literal <;> cases literal' <;> simp_all
      subst hll
      rw [ih hr hp']

/-- Following a reading one step along a computed munch. -/
theorem SmartPieces.step {V : Type} (initial : V) (toks : List (Tok V × List Str)) {p l : Nat}
    {c c' : Ctx} {s rem : Str} {ps : List (Str × Tok V)} {tok : Tok V} {ctx : List St} (top : St)
    (h : SmartPieces p l (illegalTok initial) Tok.bits (namePairs toks) c s ps c' [])
    (hne : s ≠ []) (hk : top.kind.minimal = c.minimal) (hlit : literalLength s = none)
    (hm : top.munch initial (Trie.fromTokens toks) s = some (tok, rem, ctx)) :
    ∃ text ps', ps = (text, tok) :: ps' ∧
      SmartPieces p l (illegalTok initial) Tok.bits (namePairs toks) (c.step p l false tok.bits)
        rem ps' c' [] := by
  obtain ⟨text, literal, hs, hmunch, _⟩ := munch_some initial toks top s tok rem ctx hm
  have hns := literalLength_none hlit
  cases h with
  | done => exact absurd rfl hne
  | @next _ s' text' t' qs _ _ literal' hm' hl' hp' =>
    rw [hk] at hmunch
    obtain ⟨rfl, rfl⟩ := hmunch.unique hm'
    have := append_inj_left hs rfl
    subst this
    have hf : literal' = false := by
      cases literal' with
      | false => rfl
      | true => exact absurd (hl'.1 rfl) hns
    subst hf
    exact ⟨_, _, rfl, hp'⟩

end Verif
