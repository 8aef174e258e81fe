import Verif.Proofs.TokBox
import Verif.Spec.TokBox

/-
C137: containers of tokens.
-/

namespace Verif
open TokBox
variable {V : Type}

/-! ### Sheets for the examples -/

/-- A sheet with two languages in which both tokens are translated. -/
def sampleSheet : Sheet Nat :=
  ⟨[([1], ⟨[1], [("en".toList, ["If".toList, "if".toList]), ("fr".toList, ["Si".toList])], 0⟩),
    ([2, 3], ⟨[2, 3], [("en".toList, ["Stop".toList]), ("fr".toList, ["Stop".toList])], 1⟩)],
   [("en".toList, [("If".toList, [1]), ("if".toList, [1]), ("Stop".toList, [2, 3])]),
    ("fr".toList, [("Si".toList, [1]), ("Stop".toList, [2, 3])])]⟩

/-- A sheet in which a French name is an English name of another token. -/
def clashingSheet : Sheet Nat :=
  ⟨[([1], ⟨[1], [("en".toList, ["If".toList]), ("fr".toList, ["Si".toList])], 0⟩),
    ([2], ⟨[2], [("en".toList, ["Stop".toList]), ("fr".toList, ["If".toList])], 0⟩)],
   [("en".toList, [("If".toList, [1]), ("Stop".toList, [2])]), ("fr".toList, [("Si".toList, [1]), ("If".toList, [2])])]⟩

theorem sampleSheet_proper : sampleSheet.Proper ∧ clashingSheet.Proper := by
  unfold Sheet.Proper
  decide +kernel

theorem indexed_iff (s : Sheet V) : s.Indexed ↔ ∀ l ∈ s.langs, ∀ n b, (n, b) ∈ l.2 ↔
    ∃ t, LastBy (fun p : Bytes × SheetTok V => Sheet.Calls p.2 l.1 n) s.bytes (b, t) := by
  unfold Sheet.Indexed LastBy
  constructor
  · intro h l hl n b
    rw [h l hl]
    exact ⟨fun ⟨pre, t, post, x⟩ => ⟨t, pre, post, x⟩, fun ⟨t, pre, post, x⟩ => ⟨pre, t, post, x⟩⟩
  · intro h l hl n b
    rw [h l hl]
    exact ⟨fun ⟨t, pre, post, x⟩ => ⟨pre, t, post, x⟩, fun ⟨pre, t, post, x⟩ => ⟨t, pre, post, x⟩⟩

theorem clashingSheet_indexed : clashingSheet.Indexed := by
  rw [indexed_iff]
  intro l hl n b
  simp only [clashingSheet, List.mem_cons, List.not_mem_nil, or_false] at hl
  rcases hl with rfl | rfl <;> simp [clashingSheet, lastBy_cons, lastBy_nil, Sheet.Calls] <;> constructor
  · rintro (⟨rfl, rfl⟩ | ⟨rfl, rfl⟩) <;> simp
  · rintro ⟨t, h | h⟩ <;> simp [h]
  · rintro (⟨rfl, rfl⟩ | ⟨rfl, rfl⟩) <;> simp
  · rintro ⟨t, h | h⟩ <;> simp [h]

theorem sampleSheet_indexed : sampleSheet.Indexed := by
  rw [indexed_iff]
  intro l hl n b
  simp only [sampleSheet, List.mem_cons, List.not_mem_nil, or_false] at hl
  rcases hl with rfl | rfl <;> simp [sampleSheet, lastBy_cons, lastBy_nil, Sheet.Calls] <;> constructor
  · rintro (⟨rfl, rfl⟩ | ⟨rfl, rfl⟩ | ⟨rfl, rfl⟩) <;> simp
  · rintro ⟨t, ⟨⟨rfl, _⟩, rfl⟩ | ⟨⟨rfl, _⟩, rfl | rfl, _⟩⟩ <;> simp
  · rintro (⟨rfl, rfl⟩ | ⟨rfl, rfl⟩) <;> simp
  · rintro ⟨t, h | h⟩ <;> simp [h]

/-- Looks a key up in the container of a sheet, for the examples. -/
def lookUp (s : Sheet Nat) (k : BoxKey) : Option (SheetTok Nat) :=
  match TokBox.new s with
  | .error _ => none
  | .ok c => match c.get k with
    | .error _ => none
    | .ok t => some t

theorem lookUp_some {s : Sheet Nat} {k : BoxKey} {t : SheetTok Nat} (h : lookUp s k = some t) :
    ∃ c, TokBox.new s = .ok c ∧ c.get k = .ok t := by
  unfold lookUp at h
  cases hn : TokBox.new s with
  | error e => rw [hn] at h; cases h
  | ok c =>
    rw [hn] at h
    simp only at h
    cases hg : c.get k with
    | error e => rw [hg] at h; cases h
    | ok u => rw [hg] at h; injection h with h; exact ⟨c, rfl, by rw [h] at hg; exact hg⟩

/-! ### C137 -/

/-- C137: a container can be made of a sheet exactly if every token has English names, the indices name only codes of the sheet,
every token has names in every language of the sheet, and there is an English index. Otherwise the constructor raises, and a missing
translation alone is what raises `ValueError`. -/
theorem C137_new (s : Sheet V) (hp : s.Proper) :
    ((∃ c, TokBox.new s = .ok c) ↔ s.Closed ∧ s.Translated ∧ s.HasEnglish) ∧
    (¬ s.Closed → TokBox.new s = .error .keyError) ∧
    (s.Closed → ¬ s.Translated → TokBox.new s = .error .valueError) ∧
    (s.Closed → s.Translated → ¬ s.HasEnglish → TokBox.new s = .error .keyError) := by
  cases h : TokBox.new s with
  | ok c =>
    obtain ⟨h1, h2, h3⟩ := box_made hp h
    exact ⟨⟨fun _ => ⟨h1, h2, h3⟩, fun _ => ⟨c, rfl⟩⟩, fun hn => absurd h1 hn, fun _ hn => absurd h2 hn, fun _ _ hn => absurd h3 hn⟩
  | error e =>
    rcases box_error hp h with ⟨h1, rfl⟩ | ⟨h1, h2, rfl⟩ | ⟨h1, h2, h3, rfl⟩
    · exact ⟨⟨fun ⟨c, hc⟩ => (by cases hc), fun hh => absurd hh.1 h1⟩, fun _ => rfl, fun hc => absurd hc h1, fun hc => absurd hc h1⟩
    · exact ⟨⟨fun ⟨c, hc⟩ => (by cases hc), fun hh => absurd hh.2.1 h2⟩, fun hn => absurd h1 hn, fun _ _ => rfl, fun _ ht => absurd ht h2⟩
    · exact ⟨⟨fun ⟨c, hc⟩ => (by cases hc), fun hh => absurd hh.2.2 h3⟩, fun hn => absurd h1 hn, fun _ hn => absurd h2 hn, fun _ _ _ => rfl⟩

/-- The two sheets make containers, and one with a token that has no French name does not. -/
example : (∃ c, TokBox.new sampleSheet = .ok c) ∧ (∃ c, TokBox.new clashingSheet = .ok c) ∧
    TokBox.new (⟨[([1], ⟨[1], [("en".toList, ["If".toList])], 0⟩), ([2], ⟨[2], [("en".toList, ["Stop".toList]), ("fr".toList, ["Stop".toList])], 0⟩)],
      [("en".toList, [("If".toList, [1]), ("Stop".toList, [2])]), ("fr".toList, [("Stop".toList, [2])])]⟩ : Sheet Nat) = .error .valueError := by
  obtain ⟨c, h1, -⟩ := lookUp_some (s := sampleSheet) (k := .bytes [1])
    (t := ⟨[1], [("en".toList, ["If".toList, "if".toList]), ("fr".toList, ["Si".toList])], 0⟩) (by decide +kernel)
  obtain ⟨d, h2, -⟩ := lookUp_some (s := clashingSheet) (k := .bytes [1])
    (t := ⟨[1], [("en".toList, ["If".toList]), ("fr".toList, ["Si".toList])], 0⟩) (by decide +kernel)
  exact ⟨⟨c, h1⟩, ⟨d, h2⟩, rfl⟩

/-- C137: a code is looked up to the token of the sheet with that code, and all other bytes raise `KeyError`; so does every key that is
neither bytes nor text, and every text that is in no index. -/
theorem C137_codes (s : Sheet V) (hp : s.Proper) (c : TokBox V) (h : TokBox.new s = .ok c) :
    (∀ b t, (b, t) ∈ s.bytes → c.get (.bytes b) = .ok t) ∧
    (∀ b, (∀ t, (b, t) ∉ s.bytes) → c.get (.bytes b) = .error .keyError) ∧
    (∀ n, (∀ l ∈ s.langs, ∀ b, (n, b) ∉ l.2) → c.get (.str n) = .error .keyError) ∧
    c.get .other = .error .keyError := by
  have hb : c.bytes = s.bytes := by
    obtain ⟨-, langs, tries, h2, h3, h4⟩ := box_parts h
    exact ((finish_cases s.bytes langs tries (trie_keys h3)).2 c h4).2.1
  refine ⟨fun b t ht => ?_, fun b hn => ?_, fun n hn => ?_, rfl⟩
  · simp only [TokBox.get, hb]
    exact (assocGet_iff hp.1).2 ht
  · simp only [TokBox.get, hb]
    cases hg : assocGet s.bytes b with
    | ok t => exact absurd (assocGet_mem hg) (hn t)
    | error e => rw [(assocGet_keyError hg).1]
  · cases hg : c.get (.str n) with
    | ok t =>
      obtain ⟨l, ⟨pre, post, he, -⟩, b, hb', -⟩ := (box_name hp h n t).1 hg
      exact absurd hb' (hn l (by rw [he]; simp) b)
    | error e =>
      simp only [TokBox.get] at hg
      rw [(assocGet_keyError hg).1]

example : lookUp sampleSheet (.bytes [2, 3]) = some ⟨[2, 3], [("en".toList, ["Stop".toList]), ("fr".toList, ["Stop".toList])], 1⟩ ∧
    lookUp sampleSheet (.bytes [2]) = none ∧ lookUp sampleSheet (.str "Goto".toList) = none ∧ lookUp sampleSheet .other = none := by
  decide +kernel

/-- C137, partial: if no name stands for two tokens, in whatever languages, every name of every index is looked up to its token. In
general the last language with the name decides. -/
theorem C137_names_partial (s : Sheet V) (hp : s.Proper) (c : TokBox V) (h : TokBox.new s = .ok c) :
    (s.Unambiguous → ∀ l ∈ s.langs, ∀ n b t, (n, b) ∈ l.2 → (b, t) ∈ s.bytes → c.get (.str n) = .ok t) ∧
    ∀ n t, c.get (.str n) = .ok t ↔ ∃ pre l post b, s.langs = pre ++ l :: post ∧ (n, b) ∈ l.2 ∧ (b, t) ∈ s.bytes ∧
      ∀ l' ∈ post, ∀ b', (n, b') ∉ l'.2 := by
  have key : ∀ n t, c.get (.str n) = .ok t ↔ ∃ pre l post b, s.langs = pre ++ l :: post ∧ (n, b) ∈ l.2 ∧ (b, t) ∈ s.bytes ∧
      ∀ l' ∈ post, ∀ b', (n, b') ∉ l'.2 := by
    intro n t
    rw [box_name hp h]
    constructor
    · rintro ⟨l, ⟨pre, post, he, -, hn⟩, b, hb, ht⟩
      exact ⟨pre, l, post, b, he, hb, ht, fun l' hl' b' hb' => hn l' hl' ⟨b', hb'⟩⟩
    · rintro ⟨pre, l, post, b, he, hb, ht, hn⟩
      exact ⟨l, ⟨pre, post, he, ⟨b, hb⟩, fun l' hl' ⟨b', hb'⟩ => hn l' hl' b' hb'⟩, b, hb, ht⟩
  refine ⟨fun hu l hl n b t hb ht => ?_, key⟩
  obtain ⟨l', hl'⟩ := lastBy_exists (P := fun l : Str × List (Str × Bytes) => ∃ b, (n, b) ∈ l.2) hl ⟨b, hb⟩
  rw [box_name hp h]
  have hl2 := hl'
  obtain ⟨pre, post, he, ⟨b', hb'⟩, -⟩ := hl'
  have := hu l hl l' (by rw [he]; simp) n b b' hb hb'
  subst this
  exact ⟨l', hl2, b, hb', ht⟩

/-- The names of `sampleSheet` are unambiguous although both languages have "Stop". -/
example : sampleSheet.Unambiguous ∧
    (["If", "if", "Si", "Stop"].map fun n => (lookUp sampleSheet (.str n.toList)).map SheetTok.bits) = [some [1], some [1], some [1], some [2, 3]] := by
  refine ⟨?_, by decide +kernel⟩
  have : ∀ l ∈ sampleSheet.langs, ∀ l' ∈ sampleSheet.langs, ∀ p ∈ l.2, ∀ q ∈ l'.2, p.1 = q.1 → p.2 = q.2 := by decide +kernel
  exact fun l hl l' hl' n b b' h h' => this l hl l' hl' _ h _ h' rfl

/-- C137 is false of names that two languages give to different tokens: of such a sheet a container is made, and the English name of a
token is looked up to another token. -/
theorem C137_names_false :
    ∃ (s : Sheet Nat) (c : TokBox Nat) (n : Str) (t u : SheetTok Nat), s.Proper ∧ s.Indexed ∧ TokBox.new s = .ok c ∧
      (t.bits, t) ∈ s.bytes ∧ Sheet.Calls t ['e', 'n'] n ∧ c.get (.str n) = .ok u ∧ u ≠ t ∧ ¬ Sheet.Calls u ['e', 'n'] n := by
  obtain ⟨c, h1, h2⟩ := lookUp_some (s := clashingSheet) (k := .str "If".toList)
    (t := ⟨[2], [("en".toList, ["Stop".toList]), ("fr".toList, ["If".toList])], 0⟩) (by decide +kernel)
  refine ⟨clashingSheet, c, "If".toList, ⟨[1], [("en".toList, ["If".toList]), ("fr".toList, ["Si".toList])], 0⟩, _, sampleSheet_proper.2,
    clashingSheet_indexed, h1, by decide +kernel, ?_, h2, by decide +kernel, ?_⟩
  · exact ⟨["If".toList], by decide +kernel, by decide +kernel⟩
  · rintro ⟨ns, h, hn⟩
    simp at h
    subst h
    simp at hn

/-- C137: the trie of every language reads a text in the ways its index of names tells, if the index agrees with the tokens; and no
language means English. -/
theorem C137_tries (s : Sheet V) (hp : s.Proper) (hi : s.Indexed) (c : TokBox V) (h : TokBox.new s = .ok c) :
    (∀ l ∈ s.langs, ∃ tr jx, assocGet c.tries (some l.1) = .ok tr ∧ assocGet c.langs (some l.1) = .ok jx ∧
      (∀ n t, (n, t) ∈ jx ↔ ∃ b, (n, b) ∈ l.2 ∧ (b, t) ∈ s.bytes) ∧ ∀ text, Trie.match text tr = matchesOf jx text) ∧
    assocGet c.tries none = assocGet c.tries (some ['e', 'n']) ∧ assocGet c.langs none = assocGet c.langs (some ['e', 'n']) ∧
    (∃ tr, assocGet c.tries none = .ok tr) ∧
    ∀ lang, (∀ ix, (lang, ix) ∉ s.langs) → assocGet c.langs (some lang) = .error .keyError ∧
      (∀ tr, assocGet c.tries (some lang) ≠ .ok tr) := by
  obtain ⟨-, langs, tries, h2, h3, h4⟩ := box_parts h
  have hf := (finish_cases s.bytes langs tries (trie_keys h3)).2 c h4
  obtain ⟨⟨ixe, hixe⟩, -, -, hL, hT, hLn, hTn⟩ := hf
  have hkeys := lang_keys h2
  have hnd : (langs.map Prod.fst).Nodup := by rw [hkeys]; exact hp.2.1
  have hsome : (langs.map fun p => some p.1).Nodup :=
    List.pairwise_map.2 ((List.pairwise_map.1 hnd).imp fun hne he => hne (by simpa using he))
  have htn : (tries.map Prod.fst).Nodup := by rw [trie_keys h3]; exact hsome
  refine ⟨fun l hl => ?_, hTn, hLn, ?_, fun lang hn => ⟨?_, fun tr htr => ?_⟩⟩
  · obtain ⟨jx, hjx, hjn, hpairs⟩ := lang_pairs hp h2 l hl
    obtain ⟨y, hy, hye⟩ := mapEx_ok_mem h3 _ hjx
    obtain ⟨hy1, hy2⟩ := trieOne_ok.1 hye
    simp only at hy1 hy2
    refine ⟨y.2, jx, ?_, ?_, hpairs, fun text => ?_⟩
    · rw [hT, assocGet_iff htn]
      rw [← hy1]; exact hy
    · rw [hL, assocGet_iff (by rw [List.map_map]; exact hsome)]
      exact List.mem_map.2 ⟨_, hjx, rfl⟩
    · obtain ⟨tbl, hm, hnamed⟩ := box_trie hp (hp.2.2.1 l hl).2 hy2 text
      rw [hm]
      refine matchesOf_congr (fun n => ?_) text
      apply Option.ext
      intro t
      rw [hnamed, named_nodup hjn, hpairs]
      constructor
      · rintro ⟨p, ⟨pre, post, he, hc, hn⟩, rfl⟩
        exact ⟨p.1, (hi l hl n p.1).2 ⟨pre, p.2, post, he, hc, hn⟩, by rw [he]; simp⟩
      · rintro ⟨b, hb, ht⟩
        obtain ⟨pre, t', post, he, hc, hn⟩ := (hi l hl n b).1 hb
        refine ⟨(b, t'), ⟨pre, post, he, hc, hn⟩, ?_⟩
        have e1 := (assocGet_iff hp.1).2 ht
        have e2 : assocGet s.bytes b = .ok t' := (assocGet_iff hp.1).2 (by rw [he]; simp)
        rw [e1] at e2
        injection e2 with e2
        exact e2.symm
  · rw [hTn, hT]
    apply assocGet_exists
    obtain ⟨y, hy, hye⟩ := mapEx_ok_mem h3 _ hixe
    refine ⟨y.2, ?_⟩
    rw [show some english = y.1 from (trieOne_ok.1 hye).1.symm]
    exact hy
  · rw [hL]
    cases hg : assocGet (langs.map fun p => (some p.1, p.2)) (some lang) with
    | error e => rw [(assocGet_keyError hg).1]
    | ok jx =>
      obtain ⟨⟨a, b⟩, hm, he⟩ := List.mem_map.1 (assocGet_mem hg)
      have ha : a = lang := by simpa using (Prod.mk.inj he).1
      subst ha
      obtain ⟨⟨a', ix⟩, hm', he'⟩ := List.mem_map.1 (show a ∈ s.langs.map Prod.fst by rw [← hkeys]; exact List.mem_map.2 ⟨_, hm, rfl⟩)
      simp only at he'
      subst he'
      exact absurd hm' (hn ix)
  · rw [hT] at htr
    have h5 : some lang ∈ langs.map fun p => some p.1 := by
      rw [← trie_keys h3]; exact List.mem_map.2 ⟨_, assocGet_mem htr, rfl⟩
    obtain ⟨⟨a, b⟩, hm, he⟩ := List.mem_map.1 h5
    have ha : a = lang := by simpa using he
    subst ha
    obtain ⟨⟨a', ix⟩, hm', he'⟩ := List.mem_map.1 (show a ∈ s.langs.map Prod.fst by rw [← hkeys]; exact List.mem_map.2 ⟨_, hm, rfl⟩)
    simp only at he'
    subst he'
    exact absurd hm' (hn ix)

/-- In French `If` is no name, and `Stop` reads as one token. -/
example : sampleSheet.Proper ∧ sampleSheet.Indexed ∧
    (match TokBox.new sampleSheet with
      | .error _ => []
      | .ok c => match assocGet c.tries (some "fr".toList) with
        | .error _ => []
        | .ok tr => ["If", "Stopp"].map fun n => (Trie.match n.toList tr).map fun p => (p.1.bits, p.2)) = [[], [([2, 3], "p".toList)]] :=
  ⟨sampleSheet_proper.1, sampleSheet_indexed, by decide +kernel⟩

end Verif
