import Verif.Proofs.Unique
import Verif.Proofs.EncodeRun
import Verif.Spec.Respell
import Verif.Props.Token

/-! Reading the names of tokens again: a text that has a reading is encoded by it. -/

namespace Verif
open Spec

section
variable {τ : Type}

/-- A reading that stopped where no piece can be read has nothing left if the text has a whole reading. -/
theorem Pieces.finish {lit : Bytes → τ} {tbl : List (Str × τ)} {m : Bool} (he : named tbl [] = none)
    {s : Str} {ps qs : List (Str × τ)} {rest : Str}
    (h₁ : Pieces (IsMunch lit tbl m) s ps rest) (hr : ∀ text t, ¬ IsPiece lit tbl rest text t)
    (h₂ : Pieces (IsMunch lit tbl m) s qs []) : rest = [] := by
  induction h₁ generalizing qs with
  | done =>
    cases h₂ with
    | done => rfl
    | next hm _ => exact absurd hm.1 (hr _ _)
  | @next s text t ps rest hm hp ih =>
    generalize hs : text ++ s = z at h₂
    cases h₂ with
    | done => exact absurd (List.append_eq_nil_iff.1 hs).1 (hm.nonempty he)
    | @next s' text' t' qs _ hm' hp' =>
      rw [← hs] at hm'
      obtain ⟨rfl, rfl⟩ := hm.unique hm'
      have hss := append_inj_left hs rfl
      subst hss
      exact ih hr hp'

theorem SmartPieces.finish {p l : Nat} {lit : Bytes → τ} {bitsOf : τ → Bytes}
    {tbl : List (Str × τ)} (he : named tbl [] = none)
    {c c₁ c₂ : Ctx} {s : Str} {ps qs : List (Str × τ)} {rest : Str}
    (h₁ : SmartPieces p l lit bitsOf tbl c s ps c₁ rest) (hr : ∀ text t, ¬ IsPiece lit tbl rest text t)
    (h₂ : SmartPieces p l lit bitsOf tbl c s qs c₂ []) : rest = [] := by
  induction h₁ generalizing qs with
  | done =>
    cases h₂ with
    | done => rfl
    | next hm _ _ => exact absurd hm.1 (hr _ _)
  | @next c s text t ps c' rest literal hm hl hp ih =>
    generalize hs : text ++ s = z at h₂
    cases h₂ with
    | done => exact absurd (List.append_eq_nil_iff.1 hs).1 (hm.nonempty he)
    | @next _ s' text' t' qs _ _ literal' hm' hl' hp' =>
      rw [← hs] at hm' hl'
      obtain ⟨rfl, rfl⟩ := hm.unique hm'
      have hss := append_inj_left hs rfl
      subst hss
      have hll : literal = literal' := by
        have := hl.trans hl'.symm
        cases literal <;> cases literal' <;> simp_all
      subst hll
      exact ih hr hp'

end

variable {V : Type} [LinearOrder V]

omit [LinearOrder V] in
/-- The table of names has no empty one. -/
theorem namePairs_nil {toks : List (Tok V × List Str)} (hnames : ∀ p ∈ toks, [] ∉ p.2) :
    named (namePairs toks) [] = none := by
  apply named_nil
  intro p hp h
  simp only [namePairs, List.mem_flatMap, List.mem_map] at hp
  obtain ⟨q, hq, n, hn, rfl⟩ := hp
  have h : n = [] := h
  exact hnames q hq (h ▸ hn)

/-- Encoding succeeds exactly on the texts that have a reading, and gives the codes of its pieces. -/
theorem encode_iff_reads (initial : V) (toks : List (Tok V × List Str)) (hnames : ∀ p ∈ toks, [] ∉ p.2)
    (mode : EncMode) (s : Str) (d : Bytes) :
    (∃ acc, encode initial (Trie.fromTokens toks) mode s = some (.ok acc) ∧ acc.data = d) ↔
      ∃ ps, ReadIn (illegalTok initial) Tok.bits (namePairs toks) s ps mode ∧ ps.flatMap (fun p => p.2.bits) = d := by
  have he := namePairs_nil hnames
  have key : ∀ acc, encode initial (Trie.fromTokens toks) mode s = some (.ok acc) →
      ∃ ps, ReadIn (illegalTok initial) Tok.bits (namePairs toks) s ps mode ∧
        acc.data = ps.flatMap (fun p => p.2.bits) := by
    intro acc h
    cases mode with
    | max => exact C43_max_munch initial toks s acc h
    | min => exact C43_min_munch initial toks .min (Or.inl rfl) s acc h
    | string => exact C43_min_munch initial toks .string (Or.inr rfl) s acc h
    | smart =>
      obtain ⟨ps, c, h1, h2⟩ := C44_smart_mode initial toks s acc h
      exact ⟨ps, ⟨c, h1⟩, h2⟩
  constructor
  · rintro ⟨acc, h, rfl⟩
    obtain ⟨ps, h1, h2⟩ := key acc h
    exact ⟨ps, h1, h2.symm⟩
  · rintro ⟨ps, hps, rfl⟩
    rcases henc : encode initial (Trie.fromTokens toks) mode s with _ | (err | acc)
    · exact absurd henc (C41_encode_terminates initial toks hnames mode s)
    · exfalso
      have ho := encodeLoop_outcome initial toks _ _ _ _ henc
      match err, ho with
      | .noToken i, ⟨qs, base, top, rest, hr, hne, _, hp⟩ =>
        apply hne
        cases mode with
        | max => exact ((hr.plain (k := .maxMode) (Or.inl rfl) ⟨0, rfl⟩).2).finish he hp hps
        | min => exact ((hr.plain (k := .minMode) (Or.inr rfl) ⟨0, rfl⟩).2).finish he hp hps
        | string => exact ((hr.plain (k := .minMode) (Or.inr rfl) ⟨0, rfl⟩).2).finish he hp hps
        | smart =>
          obtain ⟨c, hps⟩ := hps
          obtain ⟨c', _, hq⟩ := hr.smart (c := .outside) ⟨0, rfl⟩
          exact hq.finish he hp hps
      | .stackConsumed i, _ => exact C42_stack_never_empty initial toks mode s i henc
    · obtain ⟨qs, h1, h2⟩ := key acc henc
      refine ⟨acc, rfl, ?_⟩
      rw [h2]
      congr 1
      cases mode with
      | max => exact Pieces.unique he h1 rfl hps
      | min => exact Pieces.unique he h1 rfl hps
      | string => exact Pieces.unique he h1 rfl hps
      | smart =>
        obtain ⟨c, hps⟩ := hps
        obtain ⟨c', h1⟩ := h1
        exact SmartPieces.unique he h1 rfl hps

omit [LinearOrder V] in
theorem named_mem {tbl : List (Str × Tok V)} {n : Str} (h : (named tbl n).isSome) : ∃ p ∈ tbl, p.1 = n := by
  unfold named at h
  rw [Option.isSome_map, List.find?_isSome] at h
  obtain ⟨p, hp, h⟩ := h
  exact ⟨p, by simpa using hp, by simpa using h⟩

omit [LinearOrder V] in
/-- An unmistakable name is read as its token in front of everything, by maximal and minimal munch. -/
theorem Spec.Unmistakable.munch {tbl : List (Str × Tok V)} {name : Str} {t : Tok V} (h : Unmistakable tbl name t)
    (lit : Bytes → Tok V) (m : Bool) (s : Str) :
    IsMunch lit tbl m (name ++ s) name t ∧ ¬ StartsLiteral (name ++ s) := by
  obtain ⟨hne, hb, hn, hu⟩ := h
  have hs : ¬ StartsLiteral (name ++ s) := by
    cases name with
    | nil => exact absurd rfl hne
    | cons c cs =>
      rintro (⟨r, h⟩ | ⟨r, h⟩) <;>
      · simp only [List.cons_append, List.cons.injEq] at h
        exact hb (by simp [h.1])
  have hlen : ∀ n, (named tbl ((name ++ s).take n)).isSome → n ≤ (name ++ s).length → n = name.length := by
    intro n h1 h2
    obtain ⟨p, hp, hpn⟩ := named_mem h1
    have h3 := hu p hp (by
      rw [hpn]
      rcases Nat.le_total n name.length with hle | hle
      · left; rw [List.take_append_of_le_length hle]; exact List.take_prefix n name
      · right; rw [List.take_append, List.take_of_length_le hle]; exact List.prefix_append _ _)
    have := congrArg List.length (hpn.symm.trans h3)
    rw [List.length_take] at this
    omega
  refine ⟨⟨Or.inr ⟨hs, List.prefix_append _ _, hn⟩, fun _ => ?_⟩, hs⟩
  cases m with
  | false =>
    simp only [Bool.false_eq_true, if_false]
    intro n h1 h2
    exact Nat.le_of_eq (hlen n h1 h2)
  | true =>
    simp only [if_true]
    left
    refine ⟨fun n hlt => ?_, ?_⟩
    · rcases hq : named tbl ((name ++ s).take n) with _ | u
      · rfl
      · have := hlen n (by simp [hq]) (by simp; omega)
        omega
    · rintro ⟨_, n, h1, h2, h3⟩
      have := hlen n h3 h2
      omega

omit [LinearOrder V] in
/-- The names of tokens none of which can be mistaken are read as these tokens in every mode. -/
theorem unmistakable_reads {tbl : List (Str × Tok V)} (lit : Bytes → Tok V) (mode : EncMode) (ts : List (Tok V))
    (h : ∀ t ∈ ts, Unmistakable tbl t.display t) :
    ReadIn lit Tok.bits tbl (ts.flatMap Tok.display) (ts.map fun t => (t.display, t)) mode := by
  have plain : ∀ m, Pieces (IsMunch lit tbl m) (ts.flatMap Tok.display) (ts.map fun t => (t.display, t)) [] := by
    intro m
    induction ts with
    | nil => exact .done
    | cons t ts ih =>
      rw [List.flatMap_cons, List.map_cons]
      exact .next ((h t (by simp)).munch lit m _).1 (ih fun u hu => h u (by simp [hu]))
  have smart : ∀ c, ∃ c', SmartPieces 9 6 lit Tok.bits tbl c (ts.flatMap Tok.display)
      (ts.map fun t => (t.display, t)) c' [] := by
    clear plain
    induction ts with
    | nil => exact fun c => ⟨c, .done⟩
    | cons t ts ih =>
      intro c
      rw [List.flatMap_cons, List.map_cons]
      obtain ⟨c', hc⟩ := ih (fun u hu => h u (by simp [hu])) (c.step 9 6 false t.bits)
      obtain ⟨h1, h2⟩ := (h t (by simp)).munch lit c.minimal (ts.flatMap Tok.display)
      exact ⟨c', .next h1 (by simp [h2]) hc⟩
  cases mode with
  | max => exact plain false
  | min => exact plain true
  | string => exact plain true
  | smart => exact smart _

end Verif
