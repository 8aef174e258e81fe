import Verif.Spec.TokBox
import Verif.Proofs.Trie
import Mathlib.Data.List.Induction
import Mathlib.Data.List.Forall2

/-
Lemmas on dictionaries as association lists and on the construction of containers of tokens.
-/

namespace Verif
namespace TokBox
variable {V : Type}

theorem assocGet_keyError {κ α : Type} [DecidableEq κ] {d : List (κ × α)} {k : κ} {e : PyErr} (h : assocGet d k = .error e) :
    e = .keyError ∧ ∀ v, (k, v) ∉ d := by
  induction d with
  | nil => simp [assocGet] at h; exact ⟨h.symm, by simp⟩
  | cons p d ih =>
    obtain ⟨k', v'⟩ := p
    simp only [assocGet] at h
    by_cases hk : k' = k
    · simp [hk] at h
    · rw [if_neg hk] at h
      refine ⟨(ih h).1, fun v hv => ?_⟩
      rcases List.mem_cons.1 hv with hv | hv
      · exact hk (Prod.mk.inj hv).1.symm
      · exact (ih h).2 v hv

theorem assocGet_mem {κ α : Type} [DecidableEq κ] {d : List (κ × α)} {k : κ} {v : α} (h : assocGet d k = .ok v) : (k, v) ∈ d := by
  induction d with
  | nil => simp [assocGet] at h
  | cons p d ih =>
    obtain ⟨k', v'⟩ := p
    simp only [assocGet] at h
    by_cases hk : k' = k
    · rw [if_pos hk] at h
      injection h with h
      subst hk; subst h; simp
    · rw [if_neg hk] at h
      exact List.mem_cons_of_mem _ (ih h)

theorem assocGet_iff {κ α : Type} [DecidableEq κ] {d : List (κ × α)} {k : κ} {v : α} (hn : (d.map Prod.fst).Nodup) :
    assocGet d k = .ok v ↔ (k, v) ∈ d := by
  refine ⟨assocGet_mem, fun h => ?_⟩
  induction d with
  | nil => simp at h
  | cons p d ih =>
    obtain ⟨k', v'⟩ := p
    simp only [List.map_cons, List.nodup_cons] at hn
    simp only [assocGet]
    rcases List.mem_cons.1 h with h | h
    · obtain ⟨rfl, rfl⟩ := Prod.mk.inj h
      simp
    · rw [if_neg, ih hn.2 h]
      rintro rfl
      exact hn.1 (List.mem_map.2 ⟨_, h, rfl⟩)

theorem assocGet_exists {κ α : Type} [DecidableEq κ] {d : List (κ × α)} {k : κ} (h : ∃ v, (k, v) ∈ d) : ∃ v, assocGet d k = .ok v := by
  cases hg : assocGet d k with
  | ok v => exact ⟨v, rfl⟩
  | error e => obtain ⟨v, hv⟩ := h; exact absurd hv ((assocGet_keyError hg).2 v)

theorem assocGet_set {κ α : Type} [DecidableEq κ] (d : List (κ × α)) (k k' : κ) (v : α) :
    assocGet (assocSet d k v) k' = if k' = k then .ok v else assocGet d k' := by
  induction d with
  | nil =>
    by_cases h : k' = k
    · subst h; simp [assocSet, assocGet]
    · have h' : ¬ k = k' := fun e => h e.symm
      simp [assocSet, assocGet, h, h']
  | cons p d ih =>
    obtain ⟨j, w⟩ := p
    simp only [assocSet]
    by_cases hj : j = k
    · subst hj
      by_cases h : k' = j
      · subst h; simp [assocGet]
      · have h' : ¬ j = k' := fun e => h e.symm
        simp [assocGet, h, h']
    · rw [if_neg hj]
      simp only [assocGet, ih]
      by_cases h : j = k'
      · subst h; simp [hj]
      · simp [h]

/-- What a `dict` has after many assignments: the last pair with the key. -/
theorem assocGet_fold {α : Type} (ps : List (Str × α)) (d : List (Str × α)) (k : Str) :
    assocGet (ps.foldl (fun d p => assocSet d p.1 p.2) d) k =
      match named ps k with
      | some v => .ok v
      | none => assocGet d k := by
  induction ps using List.reverseRecOn with
  | nil => simp [named]
  | append_singleton ps p ih =>
    obtain ⟨n, x⟩ := p
    rw [List.foldl_append, Trie.named_append_single]
    simp only [List.foldl_cons, List.foldl_nil, assocGet_set, ih]
    by_cases h : k = n <;> simp [h]

theorem named_append {α : Type} (a b : List (Str × α)) (n : Str) : named (a ++ b) n = (named b n).or (named a n) := by
  simp only [named, List.reverse_append, List.find?_append]
  cases (b.reverse.find? fun p => p.1 == n) <;> simp

theorem named_mem {α : Type} {ps : List (Str × α)} {n : Str} {x : α} (h : named ps n = some x) : (n, x) ∈ ps := by
  simp only [named, Option.map_eq_some_iff] at h
  obtain ⟨⟨m, y⟩, h1, h2⟩ := h
  have h3 := List.find?_some h1
  have h4 := List.mem_reverse.1 (List.mem_of_find?_eq_some h1)
  simp only [beq_iff_eq] at h3
  simp only at h2
  subst h3; subst h2; exact h4

theorem named_none {α : Type} {ps : List (Str × α)} {n : Str} : named ps n = none ↔ ∀ x, (n, x) ∉ ps := by
  simp only [named, Option.map_eq_none_iff, List.find?_eq_none, List.mem_reverse, beq_iff_eq]
  exact ⟨fun h x hx => h _ hx rfl, fun h p hp he => h p.2 (by rw [← he]; exact hp)⟩

theorem named_nodup {α : Type} {ps : List (Str × α)} {n : Str} {x : α} (hn : (ps.map Prod.fst).Nodup) : named ps n = some x ↔ (n, x) ∈ ps := by
  refine ⟨named_mem, fun h => ?_⟩
  cases hc : named ps n with
  | none => exact absurd h (named_none.1 hc x)
  | some y =>
    have h1 := (assocGet_iff hn).2 h
    have h2 := (assocGet_iff hn).2 (named_mem hc)
    rw [h1] at h2
    injection h2 with h2
    rw [h2]

/-- The last element with a property. -/
def LastBy {α : Type} (P : α → Prop) (l : List α) (x : α) : Prop := ∃ pre post, l = pre ++ x :: post ∧ P x ∧ ∀ p ∈ post, ¬ P p

theorem lastBy_nil {α : Type} {P : α → Prop} {x : α} : ¬ LastBy P [] x := by
  rintro ⟨pre, post, h, _⟩
  simp at h

theorem lastBy_cons {α : Type} {P : α → Prop} {a x : α} {l : List α} :
    LastBy P (a :: l) x ↔ LastBy P l x ∨ (x = a ∧ P a ∧ ∀ p ∈ l, ¬ P p) := by
  constructor
  · rintro ⟨pre, post, h, hx, hp⟩
    cases pre with
    | nil =>
      simp only [List.nil_append, List.cons.injEq] at h
      obtain ⟨rfl, rfl⟩ := h
      exact .inr ⟨rfl, hx, hp⟩
    | cons b pre =>
      simp only [List.cons_append, List.cons.injEq] at h
      exact .inl ⟨pre, post, h.2, hx, hp⟩
  · rintro (⟨pre, post, h, hx, hp⟩ | ⟨rfl, ha, hp⟩)
    · exact ⟨a :: pre, post, by rw [h]; rfl, hx, hp⟩
    · exact ⟨[], l, rfl, ha, hp⟩

theorem lastBy_none {α : Type} {P : α → Prop} {l : List α} (h : ∀ x, ¬ LastBy P l x) : ∀ p ∈ l, ¬ P p := by
  induction l with
  | nil => simp
  | cons a l ih =>
    have hl := ih fun x hx => h x (lastBy_cons.2 (.inl hx))
    intro p hp
    rcases List.mem_cons.1 hp with rfl | hp
    · exact fun ha => h p (lastBy_cons.2 (.inr ⟨rfl, ha, hl⟩))
    · exact hl p hp

theorem lastBy_not {α : Type} {P : α → Prop} {l : List α} {x : α} (h : ∀ p ∈ l, ¬ P p) : ¬ LastBy P l x := by
  rintro ⟨pre, post, rfl, hx, _⟩
  exact h x (by simp) hx

/-- The last table with a name decides. -/
theorem named_flat {α β : Type} (f : α → List (Str × β)) (l : List α) (n : Str) (t : β) :
    named (l.flatMap f) n = some t ↔ ∃ x, LastBy (fun x => ∃ u, (n, u) ∈ f x) l x ∧ named (f x) n = some t := by
  induction l with
  | nil => simp [named, lastBy_nil]
  | cons a l ih =>
    rw [List.flatMap_cons, named_append]
    simp only [lastBy_cons]
    by_cases hl : ∃ p ∈ l, ∃ u, (n, u) ∈ f p
    · have hs : ∃ v, named (l.flatMap f) n = some v := by
        cases hc : named (l.flatMap f) n with
        | some v => exact ⟨v, rfl⟩
        | none =>
          obtain ⟨p, hp, u, hu⟩ := hl
          exact absurd (List.mem_flatMap.2 ⟨p, hp, hu⟩) (named_none.1 hc u)
      obtain ⟨v, hv⟩ := hs
      rw [hv] at ih ⊢
      simp only [Option.or]
      rw [ih]
      constructor
      · rintro ⟨x, hx, h⟩; exact ⟨x, .inl hx, h⟩
      · rintro ⟨x, hx | hx, h⟩
        · exact ⟨x, hx, h⟩
        · obtain ⟨p, hp, u, hu⟩ := hl
          exact absurd ⟨u, hu⟩ (hx.2.2 p hp)
    · have hl' : ∀ p ∈ l, ¬ ∃ u, (n, u) ∈ f p := fun p hp hu => hl ⟨p, hp, hu⟩
      have hs : named (l.flatMap f) n = none := by
        rw [named_none]
        intro u hu
        obtain ⟨p, hp, h⟩ := List.mem_flatMap.1 hu
        exact hl' p hp ⟨u, h⟩
      rw [hs]
      simp only [Option.none_or]
      constructor
      · intro h
        exact ⟨a, .inr ⟨rfl, ⟨t, named_mem h⟩, hl'⟩, h⟩
      · rintro ⟨x, hx | ⟨rfl, _⟩, h⟩
        · exact absurd hx (lastBy_not hl')
        · exact h

theorem mapEx_iff {α β : Type} {f : α → Except PyErr β} {l : List α} {m : List β} :
    mapEx f l = .ok m ↔ List.Forall₂ (fun x y => f x = .ok y) l m := by
  induction l generalizing m with
  | nil =>
    simp only [mapEx, List.forall₂_nil_left_iff]
    constructor
    · intro h; injection h with h; exact h.symm
    · rintro rfl; rfl
  | cons a l ih =>
    simp only [mapEx]
    cases hf : f a with
    | error e => simp [List.forall₂_cons_left_iff, hf]
    | ok y =>
      cases hm : mapEx f l with
      | error e =>
        simp only [List.forall₂_cons_left_iff, hf]
        refine ⟨fun h => by simp at h, ?_⟩
        rintro ⟨b, u, hb, hu, rfl⟩
        rw [ih.2 hu] at hm; cases hm
      | ok ys =>
        simp only [List.forall₂_cons_left_iff, hf]
        constructor
        · intro h; injection h with h
          exact ⟨y, ys, rfl, ih.1 hm, h.symm⟩
        · rintro ⟨b, u, hb, hu, rfl⟩
          rw [ih.2 hu] at hm
          injection hm with hm; injection hb with hb
          rw [hm, hb]

theorem mapEx_error {α β : Type} {f : α → Except PyErr β} {l : List α} {x : PyErr} (h : mapEx f l = .error x) : ∃ a ∈ l, f a = .error x := by
  induction l with
  | nil => simp [mapEx] at h
  | cons a l ih =>
    simp only [mapEx] at h
    cases hf : f a with
    | error e =>
      rw [hf] at h
      injection h with h
      exact ⟨a, by simp, by rw [hf, h]⟩
    | ok y =>
      rw [hf] at h
      cases hm : mapEx f l with
      | error e =>
        rw [hm] at h
        obtain ⟨b, hb, hb'⟩ := ih (by rw [hm]; exact h)
        exact ⟨b, by simp [hb], hb'⟩
      | ok ys => rw [hm] at h; cases h

theorem mapEx_all {α β : Type} {f : α → Except PyErr β} {l : List α} (h : ∀ a ∈ l, ∃ y, f a = .ok y) : ∃ m, mapEx f l = .ok m := by
  cases hm : mapEx f l with
  | ok m => exact ⟨m, rfl⟩
  | error x =>
    obtain ⟨a, ha, hx⟩ := mapEx_error hm
    obtain ⟨y, hy⟩ := h a ha
    rw [hy] at hx; cases hx

theorem mapEx_ok_mem {α β : Type} {f : α → Except PyErr β} {l : List α} {m : List β} (h : mapEx f l = .ok m) :
    ∀ a ∈ l, ∃ y ∈ m, f a = .ok y := by
  have h' := mapEx_iff.1 h
  clear h
  induction h' with
  | nil => simp
  | cons hab _ ih =>
    intro a ha
    rcases List.mem_cons.1 ha with rfl | ha
    · exact ⟨_, by simp, hab⟩
    · obtain ⟨y, hy, h⟩ := ih a ha
      exact ⟨y, by simp [hy], h⟩

theorem mapEx_mem {α β : Type} {f : α → Except PyErr β} {l : List α} {m : List β} (h : mapEx f l = .ok m) :
    ∀ y ∈ m, ∃ a ∈ l, f a = .ok y := by
  have h' := mapEx_iff.1 h
  clear h
  induction h' with
  | nil => simp
  | cons hab _ ih =>
    intro y hy
    rcases List.mem_cons.1 hy with rfl | hy
    · exact ⟨_, by simp, hab⟩
    · obtain ⟨a, ha, h⟩ := ih y hy
      exact ⟨a, by simp [ha], h⟩

theorem mapEx_keys {α β κ : Type} {f : α → Except PyErr β} {g : α → κ} {k : β → κ} {l : List α} {m : List β}
    (hf : ∀ a y, f a = .ok y → k y = g a) (h : mapEx f l = .ok m) : m.map k = l.map g := by
  have h' := mapEx_iff.1 h
  clear h
  induction h' with
  | nil => rfl
  | cons hab _ ih => simp [ih, hf _ _ hab]

end TokBox

open TokBox
variable {V : Type}

/-! ### What each step of the constructor does -/

theorem tokenOne_cases (p : Bytes × SheetTok V) :
    (Sheet.Speaks p.2 ['e', 'n'] → tokenOne p = .ok p) ∧ (¬ Sheet.Speaks p.2 ['e', 'n'] → tokenOne p = .error .keyError) := by
  unfold tokenOne makeToken
  cases h : assocGet p.2.langs english with
  | ok v => exact ⟨fun _ => rfl, fun hn => absurd ⟨v, assocGet_mem h⟩ hn⟩
  | error e =>
    refine ⟨fun ⟨ns, hs⟩ => absurd hs ((assocGet_keyError h).2 ns), fun _ => ?_⟩
    rw [(assocGet_keyError h).1]

theorem tokens_same {l m : List (Bytes × SheetTok V)} (h : mapEx tokenOne l = .ok m) :
    m = l ∧ ∀ p ∈ l, Sheet.Speaks p.2 ['e', 'n'] := by
  have key : ∀ p q, tokenOne (V := V) p = .ok q → q = p ∧ Sheet.Speaks p.2 ['e', 'n'] := by
    intro p q hq
    by_cases hs : Sheet.Speaks p.2 ['e', 'n']
    · rw [(tokenOne_cases p).1 hs] at hq
      injection hq with hq
      exact ⟨hq.symm, hs⟩
    · rw [(tokenOne_cases p).2 hs] at hq; cases hq
  have h1 := mapEx_keys (f := tokenOne (V := V)) (g := id) (k := id) (fun a y ha => (key a y ha).1) h
  refine ⟨by simpa using h1, fun p hp => ?_⟩
  obtain ⟨y, _, hy⟩ := mapEx_ok_mem h p hp
  exact (key p y hy).2

theorem tokens_ok {l : List (Bytes × SheetTok V)} (h : ∀ p ∈ l, Sheet.Speaks p.2 ['e', 'n']) : mapEx tokenOne l = .ok l := by
  obtain ⟨m, hm⟩ := mapEx_all (f := tokenOne (V := V)) (l := l) fun p hp => ⟨p, (tokenOne_cases p).1 (h p hp)⟩
  rw [hm, (tokens_same hm).1]

theorem indexOne_ok {bytes : List (Bytes × SheetTok V)} {p : Str × Bytes} {q : Str × SheetTok V} :
    indexOne bytes p = .ok q ↔ q.1 = p.1 ∧ assocGet bytes p.2 = .ok q.2 := by
  unfold indexOne
  cases h : assocGet bytes p.2 with
  | error e => simp
  | ok t =>
    constructor
    · intro hq; injection hq with hq; subst hq; exact ⟨rfl, rfl⟩
    · rintro ⟨h1, h2⟩
      injection h2 with h2
      rw [h2, ← h1]

theorem indexOne_error {bytes : List (Bytes × SheetTok V)} {p : Str × Bytes} {e : PyErr} (h : indexOne bytes p = .error e) :
    e = .keyError ∧ ∀ t, (p.2, t) ∉ bytes := by
  unfold indexOne at h
  cases hg : assocGet bytes p.2 with
  | ok t => rw [hg] at h; cases h
  | error x => rw [hg] at h; injection h with h; subst h; exact assocGet_keyError hg

theorem langOne_ok {bytes : List (Bytes × SheetTok V)} {p : Str × List (Str × Bytes)} {q : Str × List (Str × SheetTok V)} :
    langOne bytes p = .ok q ↔ q.1 = p.1 ∧ mapEx (indexOne bytes) p.2 = .ok q.2 := by
  unfold langOne
  cases h : mapEx (indexOne bytes) p.2 with
  | error e => simp
  | ok t =>
    constructor
    · intro hq; injection hq with hq; subst hq; exact ⟨rfl, rfl⟩
    · rintro ⟨h1, h2⟩
      injection h2 with h2
      rw [h2, ← h1]

theorem langOne_error {bytes : List (Bytes × SheetTok V)} {p : Str × List (Str × Bytes)} {e : PyErr} (h : langOne bytes p = .error e) :
    e = .keyError ∧ ∃ q ∈ p.2, ∀ t, (q.2, t) ∉ bytes := by
  unfold langOne at h
  cases hg : mapEx (indexOne bytes) p.2 with
  | ok t => rw [hg] at h; cases h
  | error x =>
    rw [hg] at h; injection h with h; subst h
    obtain ⟨q, hq, hx⟩ := mapEx_error hg
    exact ⟨(indexOne_error hx).1, q, hq, (indexOne_error hx).2⟩

theorem index_closed {bytes : List (Bytes × SheetTok V)} {ix : List (Str × Bytes)} {jx : List (Str × SheetTok V)}
    (h : mapEx (indexOne bytes) ix = .ok jx) : ∀ q ∈ ix, ∃ t, (q.2, t) ∈ bytes := by
  intro q hq
  obtain ⟨y, _, hy⟩ := mapEx_ok_mem h q hq
  exact ⟨_, assocGet_mem (indexOne_ok.1 hy).2⟩

/-- The pairs of an index of tokens. -/
theorem index_pairs {bytes : List (Bytes × SheetTok V)} (hb : (bytes.map Prod.fst).Nodup) {ix : List (Str × Bytes)}
    {jx : List (Str × SheetTok V)} (h : mapEx (indexOne bytes) ix = .ok jx) :
    jx.map Prod.fst = ix.map Prod.fst ∧ ∀ n t, (n, t) ∈ jx ↔ ∃ b, (n, b) ∈ ix ∧ (b, t) ∈ bytes := by
  refine ⟨mapEx_keys (fun a y ha => (indexOne_ok.1 ha).1) h, fun n t => ⟨fun hm => ?_, ?_⟩⟩
  · obtain ⟨q, hq, hy⟩ := mapEx_mem h _ hm
    have := indexOne_ok.1 hy
    refine ⟨q.2, ?_, assocGet_mem this.2⟩
    have h1 : n = q.1 := this.1
    rw [h1]; exact hq
  · rintro ⟨b, hq, ht⟩
    obtain ⟨y, hm, hy⟩ := mapEx_ok_mem h _ hq
    have := indexOne_ok.1 hy
    rw [(assocGet_iff hb).2 ht] at this
    obtain ⟨h1, h2⟩ := this
    injection h2 with h2
    have : y = (n, t) := by rw [h2, ← show y.1 = n from h1]
    rw [← this]; exact hm

theorem namesIn_cases {lang : Str} (hl : lang ≠ []) (t : SheetTok V) (ht : (t.langs.map Prod.fst).Nodup) :
    (∀ ns, namesIn lang t = .ok ns ↔ (lang, ns) ∈ t.langs) ∧ (¬ Sheet.Speaks t lang → namesIn lang t = .error .valueError) ∧
    ∀ e, namesIn lang t = .error e → e = .valueError ∧ ¬ Sheet.Speaks t lang := by
  unfold namesIn
  rw [if_neg hl]
  by_cases h : t.langs.any (fun p => p.1 == lang) = true
  · rw [if_pos h]
    obtain ⟨⟨l, ns⟩, hm, he⟩ := List.any_eq_true.1 h
    simp only [beq_iff_eq] at he
    subst he
    refine ⟨fun ns => assocGet_iff ht, fun hs => absurd ⟨ns, hm⟩ hs, fun e he => absurd hm ((assocGet_keyError he).2 ns)⟩
  · rw [if_neg h]
    have hs : ¬ Sheet.Speaks t lang := by
      rintro ⟨ns, hm⟩
      exact h (List.any_eq_true.2 ⟨_, hm, by simp⟩)
    refine ⟨fun ns => ⟨fun h => (by cases h), fun hm => absurd ⟨ns, hm⟩ hs⟩, fun _ => rfl, fun e he => ?_⟩
    injection he with he
    exact ⟨he.symm, hs⟩

theorem nameOne_ok {lang : Str} {p : Bytes × SheetTok V} {q : SheetTok V × List Str} :
    nameOne lang p = .ok q ↔ q.1 = p.2 ∧ namesIn lang p.2 = .ok q.2 := by
  unfold nameOne
  cases h : namesIn lang p.2 with
  | error e => simp
  | ok t =>
    constructor
    · intro hq; injection hq with hq; subst hq; exact ⟨rfl, rfl⟩
    · rintro ⟨h1, h2⟩
      injection h2 with h2
      rw [h2, ← h1]

theorem nameOne_error {lang : Str} {p : Bytes × SheetTok V} {e : PyErr} : nameOne lang p = .error e ↔ namesIn lang p.2 = .error e := by
  unfold nameOne
  cases h : namesIn lang p.2 <;> simp

theorem trieFor_cases {bytes : List (Bytes × SheetTok V)} (hb : ∀ p ∈ bytes, (p.2.langs.map Prod.fst).Nodup) {lang : Str} (hl : lang ≠ []) :
    ((∀ p ∈ bytes, Sheet.Speaks p.2 lang) → ∃ t, trieFor bytes lang = .ok t) ∧
    (∀ t, trieFor bytes lang = .ok t → ∀ p ∈ bytes, Sheet.Speaks p.2 lang) ∧
    (∀ e, trieFor bytes lang = .error e → e = .valueError) := by
  unfold trieFor
  cases h : mapEx (nameOne lang) bytes with
  | ok toks =>
    refine ⟨fun _ => ⟨_, rfl⟩, fun _ _ p hp => ?_, fun e he => (by cases he)⟩
    obtain ⟨y, _, hy⟩ := mapEx_ok_mem h p hp
    exact ⟨_, ((namesIn_cases hl p.2 (hb p hp)).1 _).1 (nameOne_ok.1 hy).2⟩
  | error x =>
    obtain ⟨p, hp, hx⟩ := mapEx_error h
    have h3 := (namesIn_cases hl p.2 (hb p hp)).2.2 x (nameOne_error.1 hx)
    refine ⟨fun hs => absurd (hs p hp) h3.2, fun t ht => (by cases ht), fun e he => ?_⟩
    injection he with he
    rw [← he]; exact h3.1

theorem trieOne_ok {bytes : List (Bytes × SheetTok V)} {p : Str × List (Str × SheetTok V)} {q : Option Str × Trie (SheetTok V)} :
    trieOne bytes p = .ok q ↔ q.1 = some p.1 ∧ trieFor bytes p.1 = .ok q.2 := by
  unfold trieOne
  cases h : trieFor bytes p.1 with
  | error e => simp
  | ok t =>
    constructor
    · intro hq; injection hq with hq; subst hq; exact ⟨rfl, rfl⟩
    · rintro ⟨h1, h2⟩
      injection h2 with h2
      rw [h2, ← h1]

theorem trieOne_error {bytes : List (Bytes × SheetTok V)} {p : Str × List (Str × SheetTok V)} {e : PyErr} :
    trieOne bytes p = .error e ↔ trieFor bytes p.1 = .error e := by
  unfold trieOne
  cases h : trieFor bytes p.1 <;> simp

theorem finish_cases (bytes : List (Bytes × SheetTok V)) (langs : List (Str × List (Str × SheetTok V)))
    (tries : List (Option Str × Trie (SheetTok V))) (hk : tries.map Prod.fst = langs.map fun p => some p.1) :
    (∀ e, finishBox bytes langs tries = .error e → e = .keyError ∧ ∀ ix, (english, ix) ∉ langs) ∧
    ∀ c, finishBox bytes langs tries = .ok c → (∃ ix, (english, ix) ∈ langs) ∧ c.bytes = bytes ∧ c.names = TokBox.allNames langs ∧
      (∀ l, assocGet c.langs (some l) = assocGet (langs.map fun p => (some p.1, p.2)) (some l)) ∧
      (∀ l, assocGet c.tries (some l) = assocGet tries (some l)) ∧
      assocGet c.langs none = assocGet c.langs (some english) ∧ assocGet c.tries none = assocGet c.tries (some english) := by
  unfold finishBox
  cases h1 : assocGet (langs.map fun p => (some p.1, p.2)) (some english) with
  | error x =>
    have h := assocGet_keyError h1
    refine ⟨fun e he => ?_, fun c hc => (by cases hc)⟩
    injection he with he
    refine ⟨by rw [← he]; exact h.1, fun ix hix => h.2 ix (List.mem_map.2 ⟨_, hix, rfl⟩)⟩
  | ok l =>
    obtain ⟨⟨a, b⟩, hm, he⟩ := List.mem_map.1 (assocGet_mem h1)
    obtain ⟨ha, hb⟩ := Prod.mk.inj he
    injection ha with ha
    simp only at ha hb
    subst ha; subst hb
    have h2 : ∃ t, assocGet tries (some english) = .ok t := by
      apply assocGet_exists
      have : some english ∈ tries.map Prod.fst := by rw [hk]; exact List.mem_map.2 ⟨_, hm, rfl⟩
      obtain ⟨⟨x, t⟩, ht, hx⟩ := List.mem_map.1 this
      simp only at hx
      subst hx
      exact ⟨t, ht⟩
    obtain ⟨t, h2⟩ := h2
    simp only [h2]
    refine ⟨fun e he => (by cases he), fun c hc => ?_⟩
    injection hc with hc
    subst hc
    refine ⟨⟨_, hm⟩, rfl, rfl, fun l => ?_, fun l => ?_, ?_, ?_⟩ <;> simp [assocGet_set, h1, h2]

theorem trie_keys {bytes : List (Bytes × SheetTok V)} {langs : List (Str × List (Str × SheetTok V))}
    {tries : List (Option Str × Trie (SheetTok V))} (h : mapEx (trieOne bytes) langs = .ok tries) :
    tries.map Prod.fst = langs.map fun p => some p.1 :=
  mapEx_keys (fun _ _ ha => (trieOne_ok.1 ha).1) h

theorem lang_keys {bytes : List (Bytes × SheetTok V)} {ls : List (Str × List (Str × Bytes))} {langs : List (Str × List (Str × SheetTok V))}
    (h : mapEx (langOne bytes) ls = .ok langs) : langs.map Prod.fst = ls.map Prod.fst :=
  mapEx_keys (fun _ _ ha => (langOne_ok.1 ha).1) h

theorem box_parts {s : Sheet V} {c : TokBox V} (h : TokBox.new s = .ok c) :
    (∀ p ∈ s.bytes, Sheet.Speaks p.2 ['e', 'n']) ∧ ∃ langs tries, mapEx (langOne s.bytes) s.langs = .ok langs ∧
      mapEx (trieOne s.bytes) langs = .ok tries ∧ finishBox s.bytes langs tries = .ok c := by
  unfold TokBox.new at h
  cases h1 : mapEx tokenOne s.bytes with
  | error e => rw [h1] at h; cases h
  | ok bytes =>
    obtain ⟨rfl, he⟩ := tokens_same h1
    rw [h1] at h
    simp only at h
    cases h2 : mapEx (langOne s.bytes) s.langs with
    | error e => rw [h2] at h; cases h
    | ok langs =>
      rw [h2] at h
      simp only at h
      cases h3 : mapEx (trieOne s.bytes) langs with
      | error e => rw [h3] at h; cases h
      | ok tries =>
        rw [h3] at h
        exact ⟨he, langs, tries, rfl, h3, h⟩

/-- The exception of a failed construction. -/
theorem box_error {s : Sheet V} (hp : s.Proper) {e : PyErr} (h : TokBox.new s = .error e) :
    (¬ s.Closed ∧ e = .keyError) ∨ (s.Closed ∧ ¬ s.Translated ∧ e = .valueError) ∨
      (s.Closed ∧ s.Translated ∧ ¬ s.HasEnglish ∧ e = .keyError) := by
  unfold TokBox.new at h
  cases h1 : mapEx tokenOne s.bytes with
  | error x =>
    rw [h1] at h
    injection h with h
    subst h
    obtain ⟨p, hm, hx⟩ := mapEx_error h1
    by_cases hs : Sheet.Speaks p.2 ['e', 'n']
    · rw [(tokenOne_cases p).1 hs] at hx; cases hx
    · rw [(tokenOne_cases p).2 hs] at hx
      injection hx with hx
      exact .inl ⟨fun hc => hs (hc.1 p hm), hx.symm⟩
  | ok bytes =>
    obtain ⟨rfl, he⟩ := tokens_same h1
    rw [h1] at h
    simp only at h
    cases h2 : mapEx (langOne s.bytes) s.langs with
    | error x =>
      rw [h2] at h
      injection h with h
      subst h
      obtain ⟨l, hl, hx⟩ := mapEx_error h2
      obtain ⟨hk, q, hq, hn⟩ := langOne_error hx
      exact .inl ⟨fun hc => (hc.2 l hl q hq).elim fun t ht => hn t ht, hk⟩
    | ok langs =>
      have hc : s.Closed := by
        refine ⟨he, fun l hl => ?_⟩
        obtain ⟨y, _, hy⟩ := mapEx_ok_mem h2 l hl
        exact index_closed (langOne_ok.1 hy).2
      have hkeys := lang_keys h2
      rw [h2] at h
      simp only at h
      cases h3 : mapEx (trieOne s.bytes) langs with
      | error x =>
        rw [h3] at h
        injection h with h
        subst h
        obtain ⟨l, hl, hx⟩ := mapEx_error h3
        obtain ⟨l', hl', hle⟩ := List.mem_map.1 (show l.1 ∈ s.langs.map Prod.fst by rw [← hkeys]; exact List.mem_map.2 ⟨l, hl, rfl⟩)
        have ht := trieFor_cases hp.2.2.2 (lang := l.1) (by rw [← hle]; exact (hp.2.2.1 l' hl').2)
        have hx' := trieOne_error.1 hx
        refine .inr (.inl ⟨hc, fun hs => ?_, ht.2.2 _ hx'⟩)
        obtain ⟨t, ht'⟩ := ht.1 fun p hm => by rw [← hle]; exact hs p hm l' hl'
        rw [ht'] at hx'; cases hx'
      | ok tries =>
        rw [h3] at h
        simp only at h
        have hf := (finish_cases s.bytes langs tries (trie_keys h3)).1 e h
        refine .inr (.inr ⟨hc, fun p hm l hl => ?_, fun ⟨ix, hix⟩ => ?_, hf.1⟩)
        · obtain ⟨l', hl', hle⟩ := List.mem_map.1 (show l.1 ∈ langs.map Prod.fst by rw [hkeys]; exact List.mem_map.2 ⟨l, hl, rfl⟩)
          obtain ⟨y, _, hy⟩ := mapEx_ok_mem h3 l' hl'
          have := (trieFor_cases hp.2.2.2 (lang := l.1) (hp.2.2.1 l hl).2).2.1 y.2 (by rw [← hle]; exact (trieOne_ok.1 hy).2)
          exact this p hm
        · obtain ⟨⟨a, b⟩, hl', hle⟩ := List.mem_map.1 (show english ∈ langs.map Prod.fst by rw [hkeys]; exact List.mem_map.2 ⟨_, hix, rfl⟩)
          simp only at hle
          subst hle
          exact hf.2 b hl'

theorem box_made {s : Sheet V} (hp : s.Proper) {c : TokBox V} (h : TokBox.new s = .ok c) : s.Closed ∧ s.Translated ∧ s.HasEnglish := by
  obtain ⟨he, langs, tries, h2, h3, h4⟩ := box_parts h
  have hkeys := lang_keys h2
  refine ⟨⟨he, fun l hl => ?_⟩, fun p hm l hl => ?_, ?_⟩
  · obtain ⟨y, _, hy⟩ := mapEx_ok_mem h2 l hl
    exact index_closed (langOne_ok.1 hy).2
  · obtain ⟨l', hl', hle⟩ := List.mem_map.1 (show l.1 ∈ langs.map Prod.fst by rw [hkeys]; exact List.mem_map.2 ⟨l, hl, rfl⟩)
    obtain ⟨y, _, hy⟩ := mapEx_ok_mem h3 l' hl'
    exact (trieFor_cases hp.2.2.2 (lang := l.1) (hp.2.2.1 l hl).2).2.1 y.2 (by rw [← hle]; exact (trieOne_ok.1 hy).2) p hm
  · obtain ⟨⟨ix, hix⟩, _⟩ := (finish_cases s.bytes langs tries (trie_keys h3)).2 c h4
    obtain ⟨⟨a, b⟩, hl', hle⟩ := List.mem_map.1 (show english ∈ s.langs.map Prod.fst by rw [← hkeys]; exact List.mem_map.2 ⟨_, hix, rfl⟩)
    simp only at hle
    subst hle
    exact ⟨b, hl'⟩

/-- The index of a language in the container. -/
theorem lang_pairs {s : Sheet V} (hp : s.Proper) {langs : List (Str × List (Str × SheetTok V))}
    (h : mapEx (langOne s.bytes) s.langs = .ok langs) :
    (∀ l ∈ s.langs, ∃ jx, (l.1, jx) ∈ langs ∧ (jx.map Prod.fst).Nodup ∧ ∀ n t, (n, t) ∈ jx ↔ ∃ b, (n, b) ∈ l.2 ∧ (b, t) ∈ s.bytes) := by
  intro l hl
  obtain ⟨y, hy, he⟩ := mapEx_ok_mem h l hl
  obtain ⟨h1, h2⟩ := langOne_ok.1 he
  obtain ⟨h3, h4⟩ := index_pairs hp.1 h2
  refine ⟨y.2, by rw [← h1]; exact hy, by rw [h3]; exact (hp.2.2.1 l hl).1, h4⟩

theorem lastBy_forall₂ {α β : Type} {R : α → β → Prop} {P : α → Prop} {Q : β → Prop} {l : List α} {m : List β}
    (h : List.Forall₂ R l m) (hPQ : ∀ a b, R a b → (P a ↔ Q b)) (y : β) (hy : LastBy Q m y) : ∃ x, LastBy P l x ∧ R x y := by
  induction h with
  | nil => exact absurd hy lastBy_nil
  | @cons a b l m hab hlm ih =>
    rcases lastBy_cons.1 hy with hy | ⟨rfl, hQ, hn⟩
    · obtain ⟨x, hx, hr⟩ := ih hy
      exact ⟨x, lastBy_cons.2 (.inl hx), hr⟩
    · refine ⟨a, lastBy_cons.2 (.inr ⟨rfl, (hPQ a y hab).2 hQ, ?_⟩), hab⟩
      intro p hp
      clear ih hy
      induction hlm with
      | nil => simp at hp
      | @cons a' b' l m hab' _ ih' =>
        rcases List.mem_cons.1 hp with rfl | hp
        · exact fun hP => hn b' (by simp) ((hPQ _ _ hab').1 hP)
        · exact ih' (fun q hq => hn q (by simp [hq])) hp

theorem lastBy_det {α : Type} {P : α → Prop} {l : List α} {x y : α} (hx : LastBy P l x) (hy : LastBy P l y) : x = y := by
  induction l with
  | nil => exact absurd hx lastBy_nil
  | cons a l ih =>
    rcases lastBy_cons.1 hx with h1 | ⟨h1, _, hn⟩
    · rcases lastBy_cons.1 hy with h2 | ⟨_, _, hn⟩
      · exact ih h1 h2
      · exact absurd h1 (lastBy_not hn)
    · rcases lastBy_cons.1 hy with h2 | ⟨h2, _, _⟩
      · exact absurd h2 (lastBy_not hn)
      · rw [h1, h2]

theorem lastBy_exists {α : Type} {P : α → Prop} {l : List α} {a : α} (ha : a ∈ l) (hP : P a) : ∃ x, LastBy P l x := by
  by_contra h
  exact lastBy_none (fun x hx => h ⟨x, hx⟩) a ha hP

/-- What the flat index of a container says. -/
theorem box_name {s : Sheet V} (hp : s.Proper) {c : TokBox V} (h : TokBox.new s = .ok c) (n : Str) (t : SheetTok V) :
    c.get (.str n) = .ok t ↔ ∃ l, LastBy (fun l => ∃ b, (n, b) ∈ l.2) s.langs l ∧ ∃ b, (n, b) ∈ l.2 ∧ (b, t) ∈ s.bytes := by
  obtain ⟨-, langs, tries, h2, h3, h4⟩ := box_parts h
  have hc := (box_made hp h).1
  have hf := (finish_cases s.bytes langs tries (trie_keys h3)).2 c h4
  have hget : c.get (.str n) = .ok t ↔ named (langs.flatMap Prod.snd) n = some t := by
    simp only [TokBox.get, hf.2.2.1, TokBox.allNames, assocGet_fold]
    cases named (langs.flatMap Prod.snd) n <;> simp [assocGet]
  rw [hget, named_flat]
  have hR := mapEx_iff.1 h2
  -- membership of the pairs is needed for `Closed` and `Nodup`
  have hR' : List.Forall₂ (fun l y => l ∈ s.langs ∧ langOne s.bytes l = .ok y) s.langs langs :=
    List.forall₂_iff_get.2 ⟨hR.length_eq, fun i h1 h2 => ⟨List.get_mem _ _, (List.forall₂_iff_get.1 hR).2 i h1 h2⟩⟩
  have hpairs : ∀ l y, (l ∈ s.langs ∧ langOne s.bytes l = .ok y) → ((∃ b, (n, b) ∈ l.2) ↔ ∃ u, (n, u) ∈ y.2) := by
    rintro l y ⟨hl, hy⟩
    have hq := (index_pairs hp.1 (langOne_ok.1 hy).2).2
    constructor
    · rintro ⟨b, hb⟩
      obtain ⟨u, hu⟩ := hc.2 l hl _ hb
      exact ⟨u, (hq n u).2 ⟨b, hb, hu⟩⟩
    · rintro ⟨u, hu⟩
      obtain ⟨b, hb, -⟩ := (hq n u).1 hu
      exact ⟨b, hb⟩
  have hnamed : ∀ l y, (l ∈ s.langs ∧ langOne s.bytes l = .ok y) →
      (named y.2 n = some t ↔ ∃ b, (n, b) ∈ l.2 ∧ (b, t) ∈ s.bytes) := by
    rintro l y ⟨hl, hy⟩
    obtain ⟨hk, hq⟩ := index_pairs hp.1 (langOne_ok.1 hy).2
    rw [named_nodup (by rw [hk]; exact (hp.2.2.1 l hl).1), hq]
  constructor
  · rintro ⟨y, hy, ht⟩
    obtain ⟨l, hl, hr⟩ := lastBy_forall₂ hR' hpairs y hy
    exact ⟨l, hl, (hnamed l y hr).1 ht⟩
  · rintro ⟨l, hl, b, hb, ht⟩
    have hlm : l ∈ s.langs := by obtain ⟨pre, post, he, -⟩ := hl; rw [he]; simp
    obtain ⟨y₀, hy₀, hy₀'⟩ := mapEx_ok_mem h2 l hlm
    obtain ⟨y, hy⟩ := lastBy_exists (P := fun x : Str × List (Str × SheetTok V) => ∃ u, (n, u) ∈ x.2) hy₀ ((hpairs l y₀ ⟨hlm, hy₀'⟩).1 ⟨b, hb⟩)
    obtain ⟨l', hl', hr⟩ := lastBy_forall₂ hR' hpairs y hy
    have := lastBy_det hl hl'
    subst this
    exact ⟨y, hy, (hnamed l y hr).2 ⟨b, hb, ht⟩⟩

/-- What the trie of a language says. -/
theorem box_trie {s : Sheet V} (hp : s.Proper) {lang : Str} (hl : lang ≠ []) {tr : Trie (SheetTok V)} (h : trieFor s.bytes lang = .ok tr)
    (text : Str) : ∃ tbl : List (Str × SheetTok V), Trie.match text tr = matchesOf tbl text ∧
      ∀ n t, named tbl n = some t ↔ ∃ p, LastBy (fun p : Bytes × SheetTok V => Sheet.Calls p.2 lang n) s.bytes p ∧ p.2 = t := by
  unfold trieFor at h
  cases h1 : mapEx (nameOne lang) s.bytes with
  | error e => rw [h1] at h; cases h
  | ok toks =>
    rw [h1] at h
    injection h with h
    subst h
    refine ⟨namePairs toks, Trie.match_fromTokens _ _, fun n t => ?_⟩
    unfold namePairs
    rw [named_flat]
    have hR := mapEx_iff.1 h1
    have hR' : List.Forall₂ (fun p q => p ∈ s.bytes ∧ nameOne lang p = .ok q) s.bytes toks :=
      List.forall₂_iff_get.2 ⟨hR.length_eq, fun i h1 h2 => ⟨List.get_mem _ _, (List.forall₂_iff_get.1 hR).2 i h1 h2⟩⟩
    have hcall : ∀ p q, (p ∈ s.bytes ∧ nameOne lang p = .ok q) →
        (Sheet.Calls p.2 lang n ↔ ∃ u, (n, u) ∈ (fun q : SheetTok V × List Str => q.2.map fun m => (m, q.1)) q) := by
      rintro p q ⟨hpm, hq⟩
      obtain ⟨hq1, hq2⟩ := nameOne_ok.1 hq
      have hnd := hp.2.2.2 p hpm
      have hns := ((namesIn_cases hl p.2 hnd).1 q.2).1 hq2
      simp only [List.mem_map]
      constructor
      · rintro ⟨ns, hm, hn⟩
        have e1 := (assocGet_iff hnd).2 hm
        rw [(assocGet_iff hnd).2 hns] at e1
        injection e1 with e1
        subst e1
        exact ⟨q.1, n, hn, rfl⟩
      · rintro ⟨u, m, hm, he⟩
        obtain ⟨rfl, -⟩ := Prod.mk.inj he
        exact ⟨q.2, hns, hm⟩
    have hval : ∀ (q : SheetTok V × List Str), (∃ u, (n, u) ∈ q.2.map fun m => (m, q.1)) →
        (named (q.2.map fun m => (m, q.1)) n = some t ↔ q.1 = t) := by
      intro q hu
      cases hn : named (q.2.map fun m => (m, q.1)) n with
      | none => obtain ⟨u, hu⟩ := hu; exact absurd hu (named_none.1 hn u)
      | some v =>
        obtain ⟨m, -, he⟩ := List.mem_map.1 (named_mem hn)
        rw [← (Prod.mk.inj he).2]
        simp
    constructor
    · rintro ⟨q, hq, ht⟩
      obtain ⟨p, hpl, hr⟩ := lastBy_forall₂ hR' hcall q hq
      obtain ⟨_, _, _, hqu, _⟩ := hq
      exact ⟨p, hpl, by rw [← (nameOne_ok.1 hr.2).1]; exact (hval q hqu).1 ht⟩
    · rintro ⟨p, hpl, ht⟩
      have hpm : p ∈ s.bytes := by obtain ⟨pre, post, he, -⟩ := hpl; rw [he]; simp
      have hcl : Sheet.Calls p.2 lang n := by obtain ⟨_, _, _, hx, _⟩ := hpl; exact hx
      obtain ⟨q₀, hq₀, hq₀'⟩ := mapEx_ok_mem h1 p hpm
      obtain ⟨q, hq⟩ := lastBy_exists (P := fun q : SheetTok V × List Str => ∃ u, (n, u) ∈ q.2.map fun m => (m, q.1)) hq₀
        ((hcall p q₀ ⟨hpm, hq₀'⟩).1 hcl)
      obtain ⟨p', hpl', hr⟩ := lastBy_forall₂ hR' hcall q hq
      have := lastBy_det hpl hpl'
      subst this
      have hqu : ∃ u, (n, u) ∈ q.2.map fun m => (m, q.1) := by obtain ⟨_, _, _, hx, _⟩ := hq; exact hx
      exact ⟨q, hq, (hval q hqu).2 (by rw [(nameOne_ok.1 hr.2).1]; exact ht)⟩

theorem matchesOf_congr {τ : Type} {a b : List (Str × τ)} (h : ∀ n, named a n = named b n) (s : Str) : matchesOf a s = matchesOf b s := by
  simp only [matchesOf, h]

end Verif
