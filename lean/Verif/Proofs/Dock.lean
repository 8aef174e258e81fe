import Verif.Spec.Dock

/-
Lemmas about `Dock.load`.
-/

namespace Verif
open Spec

theorem Cls.mem_all (c : Cls) : c ∈ Cls.all := by cases c <;> decide

theorem Kind.mem_all (k : Kind) : k ∈ Kind.all := by cases k <;> decide

/-- The functions the loop would try, in order, and how it ends when all of them refuse. -/
def tried (k : Kind) : List (List LTy × (Cls × Meth)) → List (Cls × Meth)
  | [] => []
  | (ts, f) :: rest =>
    match anyInstance k ts with
    | .error _ => []
    | .ok true => f :: tried k rest
    | .ok false => tried k rest

/-- The ways the loop can end without a loader are all `TypeError`. -/
theorem isInstance_error {k : Kind} {t : LTy} {e : PyErr} (h : isInstance k t = .error e) :
    e = .typeError := by
  cases t <;> simp [isInstance] at h
  exact h.symm

theorem anyInstance_error {k : Kind} {ts : List LTy} {e : PyErr}
    (h : anyInstance k ts = .error e) : e = .typeError := by
  induction ts with
  | nil => simp [anyInstance] at h
  | cons t ts ih =>
    rw [anyInstance] at h
    cases hi : isInstance k t with
    | error x =>
      rw [hi] at h
      cases h
      exact isInstance_error hi
    | ok b =>
      rw [hi] at h
      cases b
      · exact ih h
      · cases h

/-- Trying a list of loader functions in turn. -/
def tryAll {σ : Type} (run : Cls × Meth → PyM σ Unit) : List (Cls × Meth) → PyM σ Unit
  | [] => PyM.raise .typeError
  | f :: fs => tryLoader (run f) (tryAll run fs)

theorem dockLoop_tried {σ : Type} (run : Cls × Meth → PyM σ Unit) (k : Kind)
    (l : List (List LTy × (Cls × Meth))) : dockLoop run k l = tryAll run (tried k l) := by
  induction l with
  | nil => rfl
  | cons p l ih =>
    obtain ⟨ts, f⟩ := p
    rw [dockLoop, tried]
    cases h : anyInstance k ts with
    | error e =>
      rw [anyInstance_error h]
      rfl
    | ok b =>
      cases b
      · exact ih
      · simp only [tryAll, ih]

theorem tryLoader_stop {σ : Type} (x y : PyM σ Unit) (s : σ)
    (h : (x s).res ≠ .error .notImplementedError) : tryLoader x y s = x s := by
  show (match x s with | ⟨.error .notImplementedError, s', ws⟩ => _ | o => o) = x s
  rcases hx : x s with ⟨r, s', ws⟩
  rw [hx] at h
  cases r with
  | ok a => rfl
  | error e => cases e <;> first | rfl | exact absurd rfl h

theorem tryLoader_next {σ : Type} (x y : PyM σ Unit) (s : σ)
    (h : (x s).res = .error .notImplementedError) :
    tryLoader x y s = ⟨(y (x s).st).res, (y (x s).st).st, (x s).warns ++ (y (x s).st).warns⟩ := by
  show (match x s with | ⟨.error .notImplementedError, s', ws⟩ => _ | o => o) = _
  rcases hx : x s with ⟨r, s', ws⟩
  rw [hx] at h
  cases h
  rfl

theorem tryAll_refused {σ : Type} (run : Cls × Meth → PyM σ Unit) (fs : List (Cls × Meth)) (s : σ)
    (h : ∀ f ∈ fs, run f s = ⟨.error .notImplementedError, s, []⟩) :
    tryAll run fs s = ⟨.error .typeError, s, []⟩ := by
  induction fs with
  | nil => rfl
  | cons f fs ih =>
    have h1 := h f (by simp)
    rw [tryAll, tryLoader_next _ _ _ (by rw [h1]), h1, ih fun g hg => h g (by simp [hg])]
    rfl

/-- Over the whole table: what is tried first is what is meant, in its most derived version. -/
def tableOk (c : Cls) (k : Kind) : Bool :=
  missed c k || match meant c k with
    | none => tried k c.loaders = []
    | some m => match tried k c.loaders with
      | [] => false
      | f :: rest => f.2 = m && c.isSub f.1 && (definers m).contains f.1 &&
        (Cls.all.all fun b => !(c.isSub b && (definers m).contains b) || f.1.isSub b) &&
        (rest = [] || k = .bytes || k = .bytearray || k = .str) &&
        refuses c f == unwanted c k

theorem table_ok : (Cls.all.all fun c => Kind.all.all fun k => tableOk c k) = true := by
  decide +kernel

theorem table_at (c : Cls) (k : Kind) : tableOk c k = true := by
  have h := List.all_eq_true.mp table_ok c (Cls.mem_all c)
  exact List.all_eq_true.mp h k (Kind.mem_all k)

theorem contains_defines (o : Cls) (m : Meth) : (definers m).contains o = true ↔ Defines o m := List.contains_iff_mem

/-- Everything missed is not tried at all. -/
theorem missed_table : (Cls.all.all fun c => Kind.all.all fun k =>
    !missed c k || decide (tried k c.loaders = [])) = true := by
  decide +kernel

theorem missed_run {σ : Type} (run : Cls × Meth → PyM σ Unit) (c : Cls) (k : Kind) (s : σ)
    (h : missed c k = true) : dockLoad run c k s = ⟨.error .typeError, s, []⟩ := by
  have ht := List.all_eq_true.mp missed_table c (Cls.mem_all c)
  have ht := List.all_eq_true.mp ht k (Kind.mem_all k)
  rw [h] at ht
  rw [dockLoad, dockLoop_tried, of_decide_eq_true ht]
  rfl

theorem tokens_table : (Cls.all.all fun c =>
    !c.isSub .tokenizedE || (meant c .list == some .loadTokens && meant c .tuple == some .loadTokens))
    = true := by
  decide +kernel

/-- Everything tried for an unwanted object refuses it. -/
theorem unwanted_table : (Cls.all.all fun c => Kind.all.all fun k =>
    unwanted c k == (!(tried k c.loaders).isEmpty && (tried k c.loaders).all (refuses c))) = true := by
  decide +kernel

end Verif
