import Verif.Model.Tokenized
import Verif.Spec.Tokenized
import Verif.Proofs.Decode
import Verif.Proofs.EntryBytes
import Verif.Proofs.Assign

/-! Lemmas about tokenised entries. -/

namespace Verif
open Spec
variable {V : Type}

/-! ### Lines -/

theorem openString_step (before : List Bytes) (b : Bytes) : openString (before ++ [b]) =
    if b = [0x04] ∨ b = [0x3F] then false
    else if b = [0x2A] then !openString before else openString before := by
  unfold openString
  rw [List.reverse_append, List.reverse_singleton, List.singleton_append, List.takeWhile_cons]
  by_cases h1 : b = [0x04]
  · simp [h1]
  by_cases h2 : b = [0x3F]
  · simp [h2]
  simp only [h1, h2, or_self, if_false, bne_iff_ne, ne_eq, not_false_eq_true, and_self,
    Bool.and_eq_true, if_true, List.count_cons]
  by_cases h3 : b = [0x2A]
  · subst h3
    simp only [beq_self_eq_true, if_true]
    obtain ⟨n, hn⟩ : ∃ n, n = List.count ([0x2A] : Bytes)
      (before.reverse.takeWhile fun b => b != [0x04] && b != [0x3F]) := ⟨_, rfl⟩
    rw [← hn]
    rcases Nat.mod_two_eq_zero_or_one n with h | h
    · rw [h, show (n + 1) % 2 = 1 by omega]; rfl
    · rw [h, show (n + 1) % 2 = 0 by omega]; rfl
  · simp [h3]

namespace Ent

theorem rejoin_cons_append {α : Type} (l m : List α) (ls : List (List α)) (ss : List α)
    (h : ss.length = ls.length) : rejoin ((l ++ m) :: ls) ss = l ++ rejoin (m :: ls) ss := by
  cases ls with
  | nil => rfl
  | cons a ls =>
    cases ss with
    | nil => simp at h
    | cons s ss => simp [rejoin]

/-- What the loop of `lines` adds. -/
theorem linesLoop_spec (ts : List (Tok V)) (before : List Bytes) (done : List (List (Tok V)))
    (line : List (Tok V)) : ∃ l ls, linesLoop ts (openString before) done line = done ++ l :: ls ∧
      (separators before ts).length = ls.length ∧
      rejoin (l :: ls) (separators before ts) =
        line ++ ts.filter (fun t => t.bits != [0x04] && t.bits != [0x2A]) ∧
      ∀ t ∈ (l :: ls).flatten, t ∈ line ∨ t ∈ ts ∧ t.bits ≠ [0x04] ∧ t.bits ≠ [0x2A] ∧ t.bits ≠ [0x3F] := by
  induction ts generalizing before done line with
  | nil => exact ⟨line, [], rfl, rfl, by simp [rejoin], by simp⟩
  | cons t ts ih =>
    have hop := openString_step before t.bits
    rw [linesLoop, separators]
    by_cases h1 : t.bits = [0x04]
    · obtain ⟨l, ls, e1, e2, e3, e4⟩ := ih (before ++ [t.bits]) done line
      have ho : openString (before ++ [t.bits]) = false := by rw [hop, if_pos (Or.inl h1)]
      rw [ho] at e1
      have hn : ¬(t.bits = [0x3F] ∨ t.bits = [0x3E] ∧ openString before = false) := by simp [h1]
      rw [if_pos h1, if_neg hn]
      refine ⟨l, ls, e1, e2, ?_, ?_⟩
      · rw [e3]; simp [h1]
      · intro x hx
        rcases e4 x hx with h | h
        · exact Or.inl h
        · exact Or.inr ⟨List.mem_cons_of_mem _ h.1, h.2⟩
    by_cases h2 : t.bits = [0x2A]
    · obtain ⟨l, ls, e1, e2, e3, e4⟩ := ih (before ++ [t.bits]) done line
      have ho : openString (before ++ [t.bits]) = !openString before := by
        rw [hop, if_neg (by rw [h2]; decide), if_pos h2]
      rw [ho] at e1
      have hn : ¬(t.bits = [0x3F] ∨ t.bits = [0x3E] ∧ openString before = false) := by simp [h2]
      rw [if_neg h1, if_pos h2, if_neg hn]
      refine ⟨l, ls, e1, e2, ?_, ?_⟩
      · rw [e3]; simp [h2]
      · intro x hx
        rcases e4 x hx with h | h
        · exact Or.inl h
        · exact Or.inr ⟨List.mem_cons_of_mem _ h.1, h.2⟩
    have hkeep : (t :: ts).filter (fun t => t.bits != [0x04] && t.bits != [0x2A]) =
        t :: ts.filter (fun t => t.bits != [0x04] && t.bits != [0x2A]) := by
      simp [h1, h2]
    by_cases h3 : t.bits = [0x3E] ∧ openString before = false
    · obtain ⟨l, ls, e1, e2, e3, e4⟩ := ih (before ++ [t.bits]) (done ++ [line]) []
      have ho : openString (before ++ [t.bits]) = openString before := by
        rw [hop, if_neg (by rw [h3.1]; decide), if_neg h2]
      rw [ho] at e1
      rw [if_neg h1, if_neg h2, if_pos h3, if_pos (Or.inr h3)]
      refine ⟨line, l :: ls, by rw [e1]; simp, by simp [e2], ?_, ?_⟩
      · rw [hkeep, rejoin, e3]; simp
        simp
      · intro x hx
        simp only [List.flatten_cons, List.mem_append] at hx e4 ⊢
        rcases hx with h | h
        · exact Or.inl h
        · rcases e4 x h with h | h
          · simp at h
          · exact Or.inr ⟨List.mem_cons_of_mem _ h.1, h.2⟩
    by_cases h4 : t.bits = [0x3F]
    · obtain ⟨l, ls, e1, e2, e3, e4⟩ := ih (before ++ [t.bits]) (done ++ [line]) []
      have ho : openString (before ++ [t.bits]) = false := by rw [hop, if_pos (Or.inr h4)]
      rw [ho] at e1
      rw [if_neg h1, if_neg h2, if_neg h3, if_pos h4, if_pos (Or.inl h4)]
      refine ⟨line, l :: ls, by rw [e1]; simp, by simp [e2], ?_, ?_⟩
      · rw [hkeep, rejoin, e3]; simp
        simp
      · intro x hx
        simp only [List.flatten_cons, List.mem_append] at hx e4 ⊢
        rcases hx with h | h
        · exact Or.inl h
        · rcases e4 x h with h | h
          · simp at h
          · exact Or.inr ⟨List.mem_cons_of_mem _ h.1, h.2⟩
    · obtain ⟨l, ls, e1, e2, e3, e4⟩ := ih (before ++ [t.bits]) done (line ++ [t])
      have ho : openString (before ++ [t.bits]) = openString before := by
        rw [hop, if_neg (by simp [h1, h4]), if_neg h2]
      rw [ho] at e1
      rw [if_neg h1, if_neg h2, if_neg h3, if_neg h4, if_neg (by simp only [not_or]; exact ⟨h4, h3⟩)]
      refine ⟨l, ls, e1, e2, by rw [e3, hkeep]; simp, ?_⟩
      intro x hx
      rcases e4 x hx with h | h
      · rcases List.mem_append.1 h with h | h
        · exact Or.inl h
        · simp only [List.mem_singleton] at h
          subst h
          exact Or.inr ⟨by simp, h1, h2, h4⟩
      · exact Or.inr ⟨List.mem_cons_of_mem _ h.1, h.2⟩

theorem mem_rejoin {α : Type} {x : α} (ls : List (List α)) (ss : List α) (h : x ∈ rejoin ls ss) :
    x ∈ ls.flatten ∨ x ∈ ss := by
  induction ls generalizing ss with
  | nil => simp [rejoin] at h
  | cons l ls ih =>
    cases ls with
    | nil => exact Or.inl (by simpa [rejoin] using h)
    | cons m ls =>
      cases ss with
      | nil =>
        simp only [rejoin, List.mem_append] at h
        rcases h with h | h
        · exact Or.inl (by simp [h])
        · rcases ih [] h with h | h
          · exact Or.inl (by rw [List.flatten_cons]; exact List.mem_append_right _ h)
          · simp at h
      | cons s ss =>
        simp only [rejoin, List.mem_append, List.mem_cons] at h
        rcases h with h | h | h
        · exact Or.inl (by simp [h])
        · exact Or.inr (by simp [h])
        · rcases ih ss h with h | h
          · exact Or.inl (by rw [List.flatten_cons]; exact List.mem_append_right _ h)
          · exact Or.inr (by simp [h])

/-! ### Versions -/

variable [LinearOrder V]

theorem ite_mono {x a b : V} (h : a ≤ b) {k r r' : Nat} (h1 : r ≤ r') (h2 : r ≤ k) :
    (if x ≤ a then k else r) ≤ if x ≤ b then k else r' := by
  split
  · rename_i hx
    rw [if_pos (le_trans hx h)]
    exact Nat.le_refl _
  · split <;> assumption

theorem ite_le' {p : Prop} [Decidable p] {k r n : Nat} (h1 : k ≤ n) (h2 : r ≤ n) :
    (if p then k else r) ≤ n := by
  split <;> assumption

theorem osVersionByte_mono (env : Env V) {a b : V} (h : a ≤ b) :
    osVersionByte env a ≤ osVersionByte env b := by
  unfold osVersionByte
  refine ite_mono h (ite_mono h (ite_mono h (ite_mono h (ite_mono h (ite_mono h (ite_mono h
    (ite_mono h (ite_mono h (ite_mono h (Nat.le_refl _) ?_) ?_) ?_) ?_) ?_) ?_) ?_) ?_) ?_) ?_ <;>
  repeat (first | apply ite_le' | decide)

theorem isPrefixOf_append {a b c : Bytes} (h : a.isPrefixOf b = true) :
    a.isPrefixOf (b ++ c) = true := by
  rw [List.isPrefixOf_iff_prefix] at h ⊢
  exact h.trans (List.prefix_append _ _)

theorem hasSub_append {n d more : Bytes} (h : hasSub n d = true) : hasSub n (d ++ more) = true := by
  unfold hasSub at h ⊢
  induction d with
  | nil =>
    unfold findSub at h
    split at h
    · rename_i he
      have : n = [] := by simpa using he
      subst this
      cases more <;> simp [findSub]
    · simp at h
  | cons b d ih =>
    rw [List.cons_append]
    unfold findSub at h ⊢
    split at h
    · rename_i hp
      rw [← List.cons_append, if_pos (isPrefixOf_append hp)]
      rfl
    · split
      · rfl
      · simp only [Option.isSome_map] at h ⊢
        exact ih h

theorem decodeLoop_append (initial : V) (tbl : TokTable V) (a b curr : Bytes) (acc : DecAcc V) :
    ∃ curr' acc', decodeLoop initial tbl (a ++ b) curr acc = decodeLoop initial tbl b curr' acc' ∧
      (decodeLoop initial tbl a curr acc) = acc' := by
  induction a generalizing curr acc with
  | nil => exact ⟨curr, acc, rfl, by simp [decodeLoop]⟩
  | cons x a ih =>
    rw [List.cons_append, decodeLoop, decodeLoop]
    split
    · exact ih _ _
    · split
      · exact ih _ _
      · exact ih _ _

theorem decodeStep_since_le (initial : V) (tbl : TokTable V) (curr : Bytes) (acc : DecAcc V) :
    acc.since ≤ (decodeStep initial tbl curr acc).2.since := by
  unfold decodeStep
  split
  · exact le_max_right _ _
  · split <;> exact le_refl _

theorem decodeLoop_since_le (initial : V) (tbl : TokTable V) (data curr : Bytes) (acc : DecAcc V) :
    acc.since ≤ (decodeLoop initial tbl data curr acc).since := by
  induction data generalizing curr acc with
  | nil => simp [decodeLoop]
  | cons x a ih =>
    rw [decodeLoop]
    split
    · exact le_trans (decodeStep_since_le initial tbl _ acc) (ih _ _)
    · split
      · refine le_trans ?_ (ih _ _)
        exact decodeStep_since_le initial tbl [x]
          ⟨acc.out ++ List.replicate curr.length (illegalTok initial [0]), acc.since, _⟩
      · exact ih _ _

theorem decode_since_append (initial : V) (tbl : TokTable V) (a b : Bytes) :
    (decode initial tbl a).since ≤ (decode initial tbl (a ++ b)).since := by
  unfold decode
  obtain ⟨curr', acc', h1, h2⟩ := decodeLoop_append initial tbl a b [] ⟨[], initial, []⟩
  rw [h1, h2]
  exact decodeLoop_since_le initial tbl b curr' acc'

end Ent
end Verif
