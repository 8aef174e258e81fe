import Verif.Proofs.EncodeRun

/- Helper lemmas about byte literals and name limits. -/

namespace Verif

theorem hexDigit_facts : ∀ n, n < 16 → hexVal (hexDigit n) = some n ∧
    isAsciiSpace (hexDigit n) = false ∧
    (hexDigit n == '\\' || hexDigit n == 'u' || hexDigit n == 'x') = false := by
  decide +kernel

theorem fromHex_hexOf (bs : Bytes) : fromHex (hexOf bs) = some bs := by
  induction bs with
  | nil => rfl
  | cons b bs ih =>
    have hb : b.toNat < 256 := b.toNat_lt
    have h1 := hexDigit_facts (b.toNat / 16) (by omega)
    have h2 := hexDigit_facts (b.toNat % 16) (by omega)
    rw [hexOf, fromHex, if_neg (by rw [h1.2.1]; simp), h1.1, h2.1, ih]
    simp only [Option.some.injEq, List.cons.injEq, and_true]
    rw [Nat.div_add_mod]
    exact UInt8.ofNat_toNat

theorem hexOf_length (bs : Bytes) : (hexOf bs).length = 2 * bs.length := by
  induction bs with
  | nil => rfl
  | cons b bs ih => simp [hexOf, ih]; omega

theorem lstrip_hexOf (bs : Bytes) (d : Char) (hd : d = 'x' ∨ d = 'u') :
    lstripLiteral ('\\' :: d :: hexOf bs) = hexOf bs := by
  unfold lstripLiteral
  rw [List.dropWhile_cons, List.dropWhile_cons]
  have h1 : (('\\' : Char) == '\\' || '\\' == 'u' || '\\' == 'x') = true := by decide
  have h2 : (d == '\\' || d == 'u' || d == 'x') = true := by rcases hd with rfl | rfl <;> decide
  rw [if_pos h1, if_pos h2]
  cases bs with
  | nil => rfl
  | cons b bs =>
    have hb : b.toNat < 256 := b.toNat_lt
    have h := (hexDigit_facts (b.toNat / 16) (by omega)).2.2
    rw [hexOf, List.dropWhile_cons, if_neg (by rw [h]; simp)]

theorem munch_escape {V : Type} (initial : V) (trie : Trie (Tok V)) (top : St) (bits : Bytes)
    (hb : bits.length = 1 ∨ bits.length = 2) (rest : Str) :
    top.munch initial trie (escapeOf bits ++ rest) =
      some (illegalTok initial bits, rest, top.next bits) := by
  unfold St.munch escapeOf
  rcases hb with hb | hb
  · rw [if_pos hb]
    have hl := hexOf_length bits
    simp only [List.cons_append, literalLength]
    have ht : ('\\' :: 'x' :: (hexOf bits ++ rest)).take 4 = '\\' :: 'x' :: hexOf bits := by
      simp only [List.take_succ_cons, List.cons.injEq, true_and]
      rw [List.take_append_of_le_length (by omega), List.take_of_length_le (by omega)]
    have hd : ('\\' :: 'x' :: (hexOf bits ++ rest)).drop 4 = rest := by
      simp only [List.drop_succ_cons]
      rw [List.drop_append_of_le_length (by omega), List.drop_of_length_le (by omega)]
      rfl
    rw [ht, hd, lstrip_hexOf _ _ (Or.inl rfl), fromHex_hexOf]
    rfl
  · rw [if_neg (by omega)]
    have hl := hexOf_length bits
    simp only [List.cons_append, literalLength]
    have ht : ('\\' :: 'u' :: (hexOf bits ++ rest)).take 6 = '\\' :: 'u' :: hexOf bits := by
      simp only [List.take_succ_cons, List.cons.injEq, true_and]
      rw [List.take_append_of_le_length (by omega), List.take_of_length_le (by omega)]
    have hd : ('\\' :: 'u' :: (hexOf bits ++ rest)).drop 6 = rest := by
      simp only [List.drop_succ_cons]
      rw [List.drop_append_of_le_length (by omega), List.drop_of_length_le (by omega)]
      rfl
    rw [ht, hd, lstrip_hexOf _ _ (Or.inr rfl), fromHex_hexOf]
    rfl

variable {τ : Type}

theorem NamesFit.tail {p l : Nat} {c : Bytes} {codes : List Bytes} (h : NamesFit p l (c :: codes)) :
    NamesFit p l codes := by
  intro a d b he
  exact h (c :: a) d b (by rw [he]; rfl)

/-- What a context needs of the codes to come for its name to end in time. -/
def CtxFits (p l : Nat) (c : Ctx) (codes : List Bytes) : Prop :=
  match c with
  | .prog n => n < p ∧ NameFits (p - n) codes
  | .list n => n < l ∧ NameFits (l - n) codes
  | _ => True

theorem nameFits_step {m n : Nat} {b : Bytes} {codes : List Bytes} (hn : n < m)
    (h : NameFits (m - n) (b :: codes)) (hb : isNameCode b = true) :
    n + 1 < m ∧ NameFits (m - (n + 1)) codes := by
  have hsub : m - n = (m - (n + 1)) + 1 := by omega
  rw [hsub] at h
  have hlt : n + 1 < m := by
    apply Nat.lt_of_le_of_ne hn
    intro he
    have he' : m - (n + 1) = 0 := by omega
    rw [he'] at h
    rcases h with h | ⟨x, hx, hxn⟩
    · simp at h
    · simp at hx
      rw [hx, hb] at hxn
      simp at hxn
  refine ⟨hlt, ?_⟩
  rcases h with h | ⟨x, hx, hxn⟩
  · left
    simp at h; exact h
  · right
    rw [List.take_succ_cons] at hx
    rcases List.mem_cons.1 hx with rfl | hx
    · rw [hb] at hxn; simp at hxn
    · exact ⟨x, hx, hxn⟩

theorem nameStep_eq {m n : Nat} {mk : Nat → Ctx} {b : Bytes} {codes : List Bytes} (literal : Bool)
    (hn : n < m) (h : NameFits (m - n) (b :: codes)) :
    nameStep mk m n literal b = nameStep mk (m + 1) n literal b ∧
    (nameStep mk m n literal b = .outside ∨
      (nameStep mk m n literal b = mk (n + 1) ∧ n + 1 < m ∧ NameFits (m - (n + 1)) codes)) := by
  unfold nameStep
  by_cases hb : isNameCode b = true
  · obtain ⟨h1, h2⟩ := nameFits_step hn h hb
    have e1 : ¬ (literal = false ∧ n + 1 = m) := fun h => by omega
    have e2 : ¬ (literal = false ∧ n + 1 = m + 1) := fun h => by omega
    rw [if_neg e1, if_neg e2, if_pos hb]
    exact ⟨rfl, Or.inr ⟨rfl, h1, h2⟩⟩
  · rw [if_neg hb]
    constructor
    · split <;> split <;> rfl
    · left; split <;> rfl

theorem smartPieces_fit {lit : Bytes → τ} {bitsOf : τ → Bytes} {tbl : List (Str × τ)} {c : Ctx}
    {s : Str} {ps : List (Str × τ)} {c' : Ctx} {rest : Str} {p l : Nat}
    (h : SmartPieces (p + 1) (l + 1) lit bitsOf tbl c s ps c' rest) (hp : 0 < p) (hl : 0 < l)
    (hf : NamesFit p l (ps.map fun q => bitsOf q.2))
    (hc : CtxFits p l c (ps.map fun q => bitsOf q.2)) :
    SmartPieces p l lit bitsOf tbl c s ps c' rest := by
  induction h with
  | done => exact .done
  | @next c s text t ps c' rest literal hm hlit _ ih =>
    have hf' := hf.tail
    have key : c.step p l literal (bitsOf t) = c.step (p + 1) (l + 1) literal (bitsOf t) ∧
        CtxFits p l (c.step (p + 1) (l + 1) literal (bitsOf t)) (ps.map fun q => bitsOf q.2) := by
      cases c with
      | outside =>
        refine ⟨rfl, ?_⟩
        have h0 := hf [] (bitsOf t) (ps.map fun q => bitsOf q.2) rfl
        simp only [Ctx.step]
        split
        · trivial
        · split
          · rename_i h5
            exact ⟨hp, h0.1 h5⟩
          · split
            · trivial
            · split
              · rename_i h6
                exact ⟨hl, h0.2 h6⟩
              · trivial
      | str =>
        refine ⟨rfl, ?_⟩
        simp only [Ctx.step]; split <;> trivial
      | sendStart =>
        refine ⟨rfl, ?_⟩
        simp only [Ctx.step]; split <;> trivial
      | sendStr =>
        refine ⟨rfl, ?_⟩
        simp only [Ctx.step]; split <;> trivial
      | prog n =>
        obtain ⟨he, ho⟩ := nameStep_eq (mk := .prog) literal hc.1 hc.2
        refine ⟨he, ?_⟩
        simp only [Ctx.step]
        rw [← he]
        rcases ho with ho | ⟨ho, h1, h2⟩
        · rw [ho]; trivial
        · rw [ho]; exact ⟨h1, h2⟩
      | list n =>
        obtain ⟨he, ho⟩ := nameStep_eq (mk := .list) literal hc.1 hc.2
        refine ⟨he, ?_⟩
        simp only [Ctx.step]
        rw [← he]
        rcases ho with ho | ⟨ho, h1, h2⟩
        · rw [ho]; trivial
        · rw [ho]; exact ⟨h1, h2⟩
    refine .next hm hlit ?_
    rw [key.1]
    exact ih hf' key.2

end Verif
