import Verif.Proofs.Dock

/-
C112: `load` hands an object to the method meant for its type.
-/

namespace Verif
open Spec

/-- C112. Loading an object runs the loader method meant for its type, in the definition that the
class would find itself, and nothing else; without such a method, `load` raises `TypeError` and
changes nothing. The method is one of those that only raise
`NotImplementedError` exactly for the objects the class has no use for. If the method (of an object
other than bytes and text) raises `NotImplementedError`, that becomes a `TypeError`. Missing from the full statement: the objects of
`missed`, for which see the theorems below. -/
theorem C112_load_partial {σ : Type} (run : Cls × Meth → PyM σ Unit) (c : Cls) (k : Kind) (s : σ)
    (hk : missed c k = false) :
    (meant c k = none → dockLoad run c k s = ⟨.error .typeError, s, []⟩) ∧
    (∀ m, meant c k = some m → ∃ o, MostDerived c o m ∧ refuses c (o, m) = unwanted c k ∧
      ((run (o, m) s).res ≠ .error .notImplementedError → dockLoad run c k s = run (o, m) s) ∧
      ((run (o, m) s).res = .error .notImplementedError →
        k ≠ .bytes → k ≠ .bytearray → k ≠ .str →
        dockLoad run c k s = ⟨.error .typeError, (run (o, m) s).st, (run (o, m) s).warns⟩)) := by
  have ht := table_at c k
  rw [tableOk, hk, Bool.false_or] at ht
  rw [dockLoad, dockLoop_tried]
  constructor
  · intro hm
    rw [hm] at ht
    rw [of_decide_eq_true ht]
    rfl
  · intro m hm
    rw [hm] at ht
    cases hl : tried k c.loaders with
    | nil => rw [hl] at ht; cases ht
    | cons f rest =>
      rw [hl] at ht
      simp only [Bool.and_eq_true, Bool.or_eq_true, decide_eq_true_eq, List.all_eq_true,
        Bool.not_eq_true', Bool.and_eq_false_imp] at ht
      obtain ⟨⟨⟨⟨⟨h1, h2⟩, h3⟩, h4⟩, h5⟩, h6⟩ := ht
      obtain ⟨o, m'⟩ := f
      subst h1
      refine ⟨o, ⟨h2, (contains_defines o _).mp h3, fun b hb hd => ?_⟩, beq_iff_eq.mp h6,
        fun hr => ?_, fun hr k1 k2 k3 => ?_⟩
      · rcases h4 b (Cls.mem_all b) with h | h
        · have := h hb
          rw [(contains_defines b _).mpr hd] at this
          cases this
        · exact h
      · rw [tryAll, tryLoader_stop _ _ _ hr]
      · have hrest : rest = [] := by
          rcases h5 with ((h | h) | h) | h
          · exact h
          · exact absurd h k1
          · exact absurd h k2
          · exact absurd h k3
        rw [tryAll, tryLoader_next _ _ _ hr, hrest]
        simp [tryAll, PyM.raise]

/-- C112, objects a class has no use for: `load` raises `TypeError` and changes nothing. -/
theorem C112_unwanted {σ : Type} (run : Cls × Meth → PyM σ Unit) (c : Cls) (k : Kind) (s : σ)
    (hrun : ∀ f, refuses c f = true → run f s = ⟨.error .notImplementedError, s, []⟩)
    (hk : unwanted c k = true) : dockLoad run c k s = ⟨.error .typeError, s, []⟩ := by
  have h := List.all_eq_true.mp unwanted_table c (Cls.mem_all c)
  have h := List.all_eq_true.mp h k (Kind.mem_all k)
  rw [hk] at h
  have h := (beq_iff_eq.mp h).symm
  rw [Bool.and_eq_true] at h
  rw [dockLoad, dockLoop_tried]
  exact tryAll_refused run _ s fun f hf => hrun f (List.all_eq_true.mp h.2 f hf)

/-- C112, objects a class has a use for: `load` does exactly what the method does. -/
theorem C112_wanted {σ : Type} (run : Cls × Meth → PyM σ Unit) (c : Cls) (k : Kind) (s : σ) (m : Meth)
    (hk : missed c k = false) (hm : meant c k = some m) (hu : unwanted c k = false)
    (hrun : ∀ f, refuses c f = false → (run f s).res ≠ .error .notImplementedError) :
    ∃ o, MostDerived c o m ∧ dockLoad run c k s = run (o, m) s := by
  obtain ⟨o, h1, h2, h3, -⟩ := (C112_load_partial run c k s hk).2 m hm
  exact ⟨o, h1, h3 (hrun _ (by rw [h2, hu]))⟩

/-- C112 is false for files: no class loads from a file object, although each has a method for
it. -/
theorem C112_file_false {σ : Type} (run : Cls × Meth → PyM σ Unit) (c : Cls) (s : σ) :
    meant c .file = some .loadFromFile ∧ Defines .entry .loadFromFile ∧
    dockLoad run c .file s = ⟨.error .typeError, s, []⟩ :=
  ⟨rfl, List.mem_of_elem_eq_true rfl, missed_run run c .file s rfl⟩

/-- C112 is false for sequences of tokens: no tokenized entry loads them, although each has a
method for it. -/
theorem C112_tokens_false {σ : Type} (run : Cls × Meth → PyM σ Unit) (c : Cls) (k : Kind) (s : σ)
    (hc : c.isSub .tokenizedE = true) (hk : k = .list ∨ k = .tuple) :
    meant c k = some .loadTokens ∧ Defines .tokenizedE .loadTokens ∧
    dockLoad run c k s = ⟨.error .typeError, s, []⟩ := by
  have h := List.all_eq_true.mp tokens_table c (Cls.mem_all c)
  rw [hc, Bool.not_true, Bool.false_or, Bool.and_eq_true, beq_iff_eq, beq_iff_eq] at h
  refine ⟨?_, List.mem_of_elem_eq_true rfl, missed_run run c k s ?_⟩
  · rcases hk with rfl | rfl
    · exact h.1
    · exact h.2
  · rcases hk with rfl | rfl <;> exact hc

/-- C112 is false for equations: a graphed equation does not load them, although it has a method
for it. -/
theorem C112_equation_false {σ : Type} (run : Cls × Meth → PyM σ Unit) (s : σ) :
    meant .graphedEquation .equation = some .loadEquation ∧
    Defines .graphedEquation .loadEquation ∧
    dockLoad run .graphedEquation .equation s = ⟨.error .typeError, s, []⟩ :=
  ⟨rfl, List.mem_of_elem_eq_true rfl, missed_run run _ _ s rfl⟩

/-- C112 is false for fractions: a fractional multiple of pi does not load them, although it
inherits the method. -/
theorem C112_fraction_false {σ : Type} (run : Cls × Meth → PyM σ Unit) (s : σ) :
    meant .realPiFraction .fraction = some .loadFraction ∧
    Cls.isSub .realPiFraction .realFraction = true ∧ Defines .realFraction .loadFraction ∧
    dockLoad run .realPiFraction .fraction s = ⟨.error .typeError, s, []⟩ :=
  ⟨rfl, by decide, List.mem_of_elem_eq_true rfl, missed_run run _ _ s rfl⟩

/-- A concrete run in which every loader records its name. -/
example : dockLoad (fun f => PyM.modify fun l => f :: l) .realFraction .float [] =
    ⟨.ok (), [(.realE, .loadFloat)], []⟩ := by decide +kernel

example : dockLoad (fun f => PyM.modify fun l => f :: l) .seq .dict [] =
    ⟨.ok (), [(.monoSeq, .loadDict)], []⟩ := by decide +kernel

example : dockLoad (fun f => PyM.modify fun l => f :: l) .picture .str [] =
    ⟨.ok (), [(.entry, .loadString)], []⟩ := by decide +kernel

/-- A radical refuses a `float`, a program is not read from its tokens. -/
example : dockLoad (σ := List (Cls × Meth)) (fun f =>
      if refuses .realRadical f then PyM.raise .notImplementedError else PyM.modify fun l => f :: l)
      .realRadical .float [] = ⟨.error .typeError, [], []⟩ := by decide +kernel

example : dockLoad (fun f => PyM.modify fun l => f :: l) .program .list [] =
    ⟨.error .typeError, [], []⟩ := by decide +kernel

end Verif
