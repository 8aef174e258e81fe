import Verif.Proofs.JsonError

/-! The text of a value has printable characters only, and what is read is proper. -/

namespace Verif
namespace Json
open Spec

theorem printable_append {s t : Str} (hs : Printable s) (ht : Printable t) : Printable (s ++ t) := by
  intro c hc
  rcases List.mem_append.1 hc with h | h
  · exact hs c h
  · exact ht c h

theorem printable_cons {c : Char} {s : Str} (hc : 32 ≤ c.toNat ∧ c.toNat ≤ 126) (hs : Printable s) : Printable (c :: s) := by
  intro d hd
  rcases List.mem_cons.1 hd with rfl | h
  · exact hc
  · exact hs d h

theorem printable_nil : Printable [] := by intro c hc; cases hc

theorem printable_dig {c : Char} (h : isDig c = true) : 32 ≤ c.toNat ∧ c.toNat ≤ 126 :=
  (by decide : ∀ c ∈ "0123456789".toList, 32 ≤ c.toNat ∧ c.toNat ≤ 126) c (isDig_heads h)

theorem printable_digits {s : Str} (h : s.all isDig = true) : Printable s := by
  intro c hc
  exact printable_dig (List.all_eq_true.1 h c hc)

theorem hexDigit_printable (n : Nat) (h : n < 16) : 32 ≤ (hexDigit n).toNat ∧ (hexDigit n).toNat ≤ 126 :=
  (by decide : ∀ n ∈ List.range 16, 32 ≤ (hexDigit n).toNat ∧ (hexDigit n).toNat ≤ 126) n (List.mem_range.2 h)

theorem printable_uEscape (n : Nat) : Printable (uEscape n) := by
  unfold uEscape
  refine printable_cons (by decide) (printable_cons (by decide) ?_)
  refine printable_cons (hexDigit_printable _ (Nat.mod_lt _ (by decide))) (printable_cons (hexDigit_printable _ (Nat.mod_lt _ (by decide))) ?_)
  exact printable_cons (hexDigit_printable _ (Nat.mod_lt _ (by decide))) (printable_cons (hexDigit_printable _ (Nat.mod_lt _ (by decide)))
    printable_nil)

theorem lookup_table {l : List (Char × Char)} {c d : Char} (h : l.lookup c = some d) : (c, d) ∈ l := by
  induction l with
  | nil => cases h
  | cons p l ih =>
    obtain ⟨a, b⟩ := p
    rw [List.lookup_cons] at h
    by_cases hc : c == a
    · rw [hc] at h
      simp only [Option.some.injEq] at h
      rw [beq_iff_eq] at hc
      subst hc h
      exact List.mem_cons_self
    · simp only [hc] at h
      exact List.mem_cons_of_mem _ (ih h)

theorem printable_escape (c : Char) : Printable (escapeChar c) := by
  unfold escapeChar
  split
  · rename_i d hd
    have h1 := (by decide : ∀ p ∈ escapeTable, 32 ≤ p.2.toNat ∧ p.2.toNat ≤ 126) _ (lookup_table hd)
    exact printable_cons (by decide) (printable_cons h1 printable_nil)
  · split
    · rename_i h; exact printable_cons h printable_nil
    · split
      · exact printable_uEscape _
      · exact printable_append (printable_uEscape _) (printable_uEscape _)

theorem printable_dumpStr (s : Str) : Printable (dumpStr s) := by
  unfold dumpStr
  refine printable_cons (by decide) (printable_append ?_ (printable_cons (by decide) printable_nil))
  intro c hc
  obtain ⟨d, -, hd⟩ := List.mem_flatMap.1 hc
  exact printable_escape d c hd

theorem printable_int (n : Int) : Printable (intRepr n) := by
  obtain ⟨r1, -, r3⟩ := natRepr_spec n.natAbs
  unfold intRepr
  split
  · exact printable_cons (by decide) (printable_digits r1)
  · exact printable_digits r1

theorem printable_sign (s : Sign) : Printable s.str := by cases s <;> (unfold Sign.str; decide)

theorem printable_float (x : PyFloat) (hx : IsFloat x) : Printable (floatStr x) := by
  obtain ⟨l, hl, h1, h2, h3⟩ := floatStr_reads hx
  obtain ⟨v1, v2, v3⟩ := hl.valid
  rw [h1]
  unfold Literal.render
  refine printable_append (printable_append (printable_append (printable_sign _) ?_) ?_) ?_
  · exact printable_digits ((digits_iff _).2 v1)
  · unfold Literal.fracStr
    split
    · exact printable_nil
    · rename_i f hf
      exact printable_cons (by decide) (printable_digits ((digits_iff _).2 (v2 f hf)))
  · unfold Literal.expStr
    split
    · exact printable_nil
    · rename_i m s x hx
      obtain ⟨rfl, -⟩ := hl.mark _ _ _ hx
      have := v3 _ _ _ hx
      exact printable_append (printable_append (by decide) (printable_sign _)) (printable_digits ((digits_iff _).2 this.1))

mutual
/-- The text of a value is printable. -/
theorem printable_dump : (j : Json) → Proper j → Printable (dump j)
  | .null, _ => by simp only [dump]; decide
  | .bool b, _ => by simp only [dump]; cases b <;> decide
  | .int n, _ => by simp only [dump]; exact printable_int n
  | .float x, h => by simp only [dump]; simp only [Proper] at h; exact printable_float x h
  | .str s, _ => by simp only [dump]; exact printable_dumpStr s
  | .arr xs, h => by
    simp only [dump]
    simp only [Proper] at h
    refine printable_cons (by decide) ?_
    have := printable_items xs h
    cases xs with
    | nil => simp only [dumpItems]; decide
    | cons x xs =>
      simp only [dumpMoreItems] at this
      simp only [dumpItems]
      exact fun c hc => this c (List.mem_cons_of_mem _ (List.mem_cons_of_mem _ hc))
  | .obj kvs, h => by
    simp only [dump]
    simp only [Proper] at h
    refine printable_cons (by decide) ?_
    have := printable_members kvs h.2
    cases kvs with
    | nil => simp only [dumpMembers]; decide
    | cons p kvs =>
      obtain ⟨k, x⟩ := p
      simp only [dumpMoreMembers] at this
      simp only [dumpMembers]
      exact fun c hc => this c (List.mem_cons_of_mem _ (List.mem_cons_of_mem _ hc))
theorem printable_items : (xs : List Json) → ProperItems xs → Printable (dumpMoreItems xs)
  | [], _ => by simp only [dumpMoreItems]; decide
  | x :: xs, h => by
    simp only [dumpMoreItems]
    simp only [ProperItems] at h
    exact printable_cons (by decide) (printable_cons (by decide) (printable_append (printable_dump x h.1) (printable_items xs h.2)))
theorem printable_members : (kvs : List (Str × Json)) → ProperMembers kvs → Printable (dumpMoreMembers kvs)
  | [], _ => by simp only [dumpMoreMembers]; decide
  | (k, x) :: kvs, h => by
    simp only [dumpMoreMembers]
    simp only [ProperMembers] at h
    exact printable_cons (by decide) (printable_cons (by decide) (printable_append (printable_dumpStr k)
      (printable_cons (by decide) (printable_cons (by decide) (printable_append (printable_dump x h.1) (printable_members kvs h.2))))))
end

/-! ### What is read is proper -/

/-- The value, if there is one, is proper. -/
def Good (r : Except PyErr (Json × Str)) : Prop := ∀ p, r = .ok p → Proper p.1

theorem good_error (x : PyErr) : Good (.error x) := by intro p h; cases h

theorem good_unsigned (neg : Bool) (s : Str) : Good (parseUnsigned neg s) := by
  intro p h
  unfold parseUnsigned at h
  split at h
  · cases h
  · simp only at h
    split at h <;> obtain rfl := Except.ok.inj h
    · simp [Proper]
    · simp only [Proper]; exact floatOfDec_isFloat _

theorem good_word (s : Str) : Good (parseWord s) := by
  intro p h
  unfold parseWord at h
  split at h
  · obtain rfl := Except.ok.inj h; simp [Proper]
  · split at h
    · obtain rfl := Except.ok.inj h; simp [Proper]
    · split at h
      · obtain rfl := Except.ok.inj h; simp [Proper]
      · unfold parseNumber at h
        split at h
        · cases h
        · split at h <;> exact good_unsigned _ _ p h

theorem setMember_keys (kvs : List (Str × Json)) (k : Str) (x : Json) (h : (kvs.map Prod.fst).Nodup) :
    ((setMember kvs k x).map Prod.fst).Nodup ∧ ∀ k', k' ∈ (setMember kvs k x).map Prod.fst → k' = k ∨ k' ∈ kvs.map Prod.fst := by
  induction kvs with
  | nil => simp [setMember]
  | cons p kvs ih =>
    obtain ⟨k', x'⟩ := p
    simp only [List.map_cons, List.nodup_cons] at h
    unfold setMember
    split
    · rename_i hk
      subst hk
      simp only [List.map_cons, List.nodup_cons]
      exact ⟨h, fun _ hk => .inr hk⟩
    · rename_i hk
      obtain ⟨h1, h2⟩ := ih h.2
      simp only [List.map_cons, List.nodup_cons, List.mem_cons]
      refine ⟨⟨fun hm => ?_, h1⟩, ?_⟩
      · rcases h2 _ hm with h' | h'
        · exact hk h'
        · exact h.1 h'
      · rintro k'' (rfl | hm)
        · exact .inr (.inl rfl)
        · rcases h2 _ hm with h' | h'
          · exact .inl h'
          · exact .inr (.inr h')

theorem setMember_proper (kvs : List (Str × Json)) (k : Str) (x : Json) (h : ProperMembers kvs) (hx : Proper x) :
    ProperMembers (setMember kvs k x) := by
  induction kvs with
  | nil => simp only [setMember, ProperMembers]; exact ⟨hx, trivial⟩
  | cons p kvs ih =>
    obtain ⟨k', x'⟩ := p
    simp only [ProperMembers] at h
    unfold setMember
    split
    · simp only [ProperMembers]; exact ⟨hx, h.2⟩
    · simp only [ProperMembers]; exact ⟨h.1, ih h.2⟩

theorem properItems_append {xs : List Json} {x : Json} (h : ProperItems xs) (hx : Proper x) : ProperItems (xs ++ [x]) := by
  induction xs with
  | nil => simp only [List.nil_append, ProperItems]; exact ⟨hx, trivial⟩
  | cons y xs ih =>
    simp only [ProperItems] at h
    simp only [List.cons_append, ProperItems]
    exact ⟨h.1, ih h.2⟩

mutual
theorem good_value : (n : Nat) → (s : Str) → Good (parseValue n s)
  | 0, s => by unfold parseValue; exact good_error _
  | n + 1, [] => by unfold parseValue; exact good_error _
  | n + 1, c :: t => by
    unfold parseValue
    simp only
    split
    · split
      · exact good_error _
      · intro p h; obtain rfl := Except.ok.inj h; simp [Proper]
    · split
      · split
        · intro p h; obtain rfl := Except.ok.inj h; simp [Proper, ProperItems]
        · exact good_items n [] _ (by simp [ProperItems])
      · split
        · split
          · intro p h; obtain rfl := Except.ok.inj h; simp [Proper, ProperMembers]
          · exact good_members n [] _ (by simp) (by simp [ProperMembers])
        · exact good_word _
theorem good_items : (n : Nat) → (acc : List Json) → (s : Str) → ProperItems acc → Good (parseItems n acc s)
  | 0, _, s, _ => by unfold parseItems; exact good_error _
  | n + 1, acc, s, ha => by
    have h1 := good_value n s
    unfold parseItems
    split
    · exact good_error _
    · rename_i x r hx
      have hp := h1 _ hx
      split
      · intro p h; obtain rfl := Except.ok.inj h; simp only [Proper]; exact properItems_append ha hp
      · exact good_items n _ _ (properItems_append ha hp)
      · exact good_error _
theorem good_members : (n : Nat) → (acc : List (Str × Json)) → (s : Str) → (acc.map Prod.fst).Nodup → ProperMembers acc →
    Good (parseMembers n acc s)
  | 0, _, s, _, _ => by unfold parseMembers; exact good_error _
  | n + 1, acc, s, hk, ha => by
    unfold parseMembers
    split
    · split
      · exact good_error _
      · rename_i k r hr
        split
        · rename_i r' hr'
          have h1 := good_value n (skipWs r')
          split
          · exact good_error _
          · rename_i x r'' hx
            have hp := h1 _ hx
            split
            · intro p h
              obtain rfl := Except.ok.inj h
              simp only [Proper]
              exact ⟨(setMember_keys acc k x hk).1, setMember_proper acc k x ha hp⟩
            · exact good_members n _ _ (setMember_keys acc k x hk).1 (setMember_proper acc k x ha hp)
            · exact good_error _
        · exact good_error _
    · exact good_error _
end

/-- What is read is proper. -/
theorem loads_proper {s : Str} {j : Json} (h : loads s = .ok j) : Proper j := by
  unfold loads at h
  split at h
  · cases h
  · split at h
    · cases h
    · rename_i x r hx
      split at h
      · obtain rfl := Except.ok.inj h
        exact good_value _ _ _ hx
      · cases h

end Json
end Verif
