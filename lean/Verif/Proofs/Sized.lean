import Verif.Proofs.Assign

/-! Lemmas about the sections of an entry under histories, and about sized entries. -/

namespace Verif
open Spec

/-- A step that leaves the state alone. -/
theorem PyM.st_bind {σ α β : Type} {x : PyM σ α} {f : α → PyM σ β} {s : σ}
    (h : ∀ a s, (f a s).st = s) : ((x >>= f) s).st = (x s).st := by
  rw [PyM.bind_run]
  rcases x s with ⟨r, s', w⟩
  cases r with
  | error e => rfl
  | ok a => exact h a s'

namespace Ent
variable {V : Type} [LinearOrder V]

/-- The effect of a section operation. -/
def runOp : EntOp → Ent → Ent
  | .metaLength v, e => (setMeta v e).st
  | .typeId v, e => (setTypeId v e).st
  | .name c v, e => (setName c v e).st
  | .version v, e => (setVersion v e).st
  | .archived v, e => (setArchived v e).st
  | .archive, e => (archive e).st
  | .unarchive, e => (unarchive e).st

/-- The declared widths. -/
def Widths (e : Ent) : Prop :=
  e.metaLen.length = 2 ∧ e.typeId.length = 1 ∧ e.name.length = 8 ∧ e.version.length = 1 ∧
    e.archived.length = 1

/-- Assigning to a fixed-width section: nothing changes or the section has its width. -/
theorem section_st {α : Type} (c : Conv α) (n : Nat) (cur : Bytes) (v : α) (f : Bytes → Ent)
    (e : Ent) : ((PyM.lift (setRaw c (some n) cur v) >>= fun b => PyM.set (f b)) e).st = e ∨
      ∃ x : Bytes, x.length = n ∧
        ((PyM.lift (setRaw c (some n) cur v) >>= fun b => PyM.set (f b)) e).st = f x := by
  rw [PyM.bind_run, PyM.lift_run]
  rcases hr : setRaw c (some n) cur v () with ⟨r, u, w⟩
  cases r with
  | error x => exact Or.inl rfl
  | ok x => exact Or.inr ⟨x, setRaw_width (c := c) (by rw [hr]), rfl⟩

theorem setMeta_st (v : Int) (e : Ent) : (setMeta v e).st =
    ((PyM.lift (setRaw intConv (some 2) e.metaLen v) >>= fun b =>
      PyM.set { e with metaLen := b }) e).st := by
  simp only [setMeta]
  rw [PyM.bind_ok (PyM.get_run e)]
  by_cases h1 : v = 11 <;> by_cases h2 : e.metaLen = [0x0D, 0x00] <;>
    by_cases h3 : e.cls.flashOnly = true <;> simp only [h1, h2, h3, if_true, if_false] <;> rfl

theorem setArchived_widths {e : Ent} (h : e.Widths) (v : Bool) : (setArchived v e).st.Widths := by
  rw [setArchived_run]
  exact ⟨h.1, h.2.1, h.2.2.1, h.2.2.2.1, by cases v <;> rfl⟩

theorem runOp_widths (op : EntOp) {e : Ent} (h : e.Widths) :
    (runOp op e).Widths ∧ (runOp op e).body = e.body := by
  cases op with
  | metaLength v =>
    rw [runOp, setMeta_st]
    rcases section_st intConv 2 e.metaLen v (fun b => { e with metaLen := b }) e with hs | ⟨x, hx, hs⟩
    · rw [hs]; exact ⟨h, rfl⟩
    · rw [hs]; exact ⟨⟨hx, h.2⟩, rfl⟩
  | typeId v => rw [runOp, setTypeId_run]; exact ⟨⟨h.1, rfl, h.2.2⟩, rfl⟩
  | name c v =>
    have hn : runOp (.name c v) e = ((PyM.lift (setRaw c (some 8) e.name v) >>= fun b =>
        PyM.set { e with name := b }) e).st := by
      simp only [runOp, setName]
      rw [PyM.bind_ok (PyM.get_run e)]
    rw [hn]
    rcases section_st c 8 e.name v (fun b => { e with name := b }) e with hs | ⟨x, hx, hs⟩
    · rw [hs]; exact ⟨h, rfl⟩
    · rw [hs]; exact ⟨⟨h.1, h.2.1, hx, h.2.2.2⟩, rfl⟩
  | version v => rw [runOp, setVersion_run]; exact ⟨⟨h.1, h.2.1, h.2.2.1, rfl, h.2.2.2.2⟩, rfl⟩
  | archived v => exact ⟨setArchived_widths h v, by rw [runOp, setArchived_run]⟩
  | archive =>
    simp only [runOp, archive, PyM.bind_run, PyM.get_run, PyM.ite_run]
    split
    · exact ⟨setArchived_widths h true, by simp [setArchived_run]⟩
    · exact ⟨h, rfl⟩
  | unarchive =>
    simp only [runOp, unarchive, PyM.bind_run, PyM.get_run, PyM.ite_run]
    split
    · exact ⟨setArchived_widths h false, by simp [setArchived_run]⟩
    · exact ⟨h, rfl⟩

/-! ### Sized entries -/

theorem SizedCls.isSized {c : Cls} (h : SizedCls c = true) : c.isSized = true := by
  cases c <;> first | exact absurd h (by decide) | rfl

theorem SizedCls.starts {c : Cls} (h : SizedCls c = true) : lengthStart c = 0 ∧ dataStart c = 2 := by
  cases c <;> first | exact absurd h (by decide) | exact ⟨rfl, rfl⟩

theorem clear_inStep {c : Cls} (h : SizedCls c = true) :
    2 ≤ (clearCalc c).length ∧ fromLE ((clearCalc c).take 2) = ((clearCalc c).drop 2).length := by
  cases c <;> first | exact absurd h (by decide) | decide +kernel

theorem coerceProgram_st (env : Env V) (e : Ent) :
    (coerceProgram env e).st = e ∨ ∃ t a, (coerceProgram env e).st =
      { e with cls := programClass t a e.cls } := by
  simp only [coerceProgram, PyM.bind_run, PyM.get_run, PyM.ite_run, PyM.ofExcept_run]
  split
  · exact Or.inl rfl
  · cases e.getTypeId with
    | error x => exact Or.inl rfl
    | ok t => exact Or.inr ⟨t, _, rfl⟩

theorem coerceColorGDB_st (e : Ent) (h : SizedCls e.cls = true) :
    ∃ c, SizedCls c = true ∧ (coerceColorGDB e).st = { e with cls := c } := by
  simp only [coerceColorGDB, PyM.bind_run, PyM.get_run, PyM.ite_run, setClass, PyM.modify_run]
  split
  · exact ⟨.func, rfl, rfl⟩
  split
  · exact ⟨.param, rfl, rfl⟩
  split
  · exact ⟨.polar, rfl, rfl⟩
  split
  · exact ⟨.seq, rfl, rfl⟩
  · exact ⟨e.cls, h, rfl⟩

theorem coerceMonoGDB_st (e : Ent) (h : SizedCls e.cls = true) :
    ∃ c, SizedCls c = true ∧ (coerceMonoGDB e).st = { e with cls := c } := by
  simp only [coerceMonoGDB, PyM.bind_run, PyM.get_run, PyM.ite_run, setClass, PyM.modify_run]
  split
  · obtain ⟨c, hc, hs⟩ := coerceColorGDB_st { e with cls := .gdb } rfl
    exact ⟨c, hc, hs⟩
  split
  · exact ⟨.monoFunc, rfl, rfl⟩
  split
  · exact ⟨.monoParam, rfl, rfl⟩
  split
  · exact ⟨.monoPolar, rfl, rfl⟩
  split
  · exact ⟨.monoSeq, rfl, rfl⟩
  · exact ⟨e.cls, h, rfl⟩

theorem programClass_sized (t : Nat) (a : Bool) {c : Cls} (h : SizedCls c = true) :
    SizedCls (programClass t a c) = true := by
  unfold programClass
  split
  · cases a <;> rfl
  split
  · cases a <;> rfl
  · exact h

/-- Coercion of a sized class only changes the class. -/
theorem coerce_sized (env : Env V) {e : Ent} (h : SizedCls e.cls = true) :
    ∃ c, SizedCls c = true ∧ (coerce env e).st = { e with cls := c } := by
  have hp : ∃ c, SizedCls c = true ∧ (coerceProgram env e).st = { e with cls := c } := by
    rcases coerceProgram_st env e with hs | ⟨t, a, hs⟩
    · exact ⟨e.cls, h, hs⟩
    · exact ⟨_, programClass_sized t a h, hs⟩
  have hg := coerceColorGDB_st e h
  have hm := coerceMonoGDB_st e h
  unfold coerce
  simp only [PyM.bind_run, PyM.get_run]
  rcases hc : e.cls <;> rw [hc] at h <;>
    first
    | exact absurd h (by decide)
    | (simp only [coerceTyped, PyM.bind_run, PyM.get_run, hc]
       first
       | exact hp
       | exact hm
       | exact hg
       | exact ⟨_, h, by rw [← hc]; rfl⟩)

theorem finish_st (env : Env V) (e : Ent) : (finish env e).st = (coerce env e).st := by
  unfold finish
  refine PyM.st_bind fun _ s => ?_
  refine (PyM.st_bind fun a s => ?_).trans rfl
  refine (PyM.st_bind fun _ s => ?_).trans (by cases a.checkLoaded <;> rfl)
  rfl

theorem checkSized_st (e : Ent) : (checkSized e).st = e := by
  obtain ⟨ws, h, _⟩ := checkSized_run e
  rw [h]

theorem checkTokens_st (env : Env V) (e : Ent) : (checkTokens env e).st = e := by
  simp only [checkTokens, PyM.bind_run, PyM.get_run, PyM.ofExcept_run]
  cases e.getVersionByte with
  | error x => rfl
  | ok v =>
    simp only [PyM.warnAll_run, PyM.ite_run]
    split <;> rfl

/-- Loading into a sized class leaves the state of the base method. -/
theorem load_st (env : Env V) (data : Bytes) {e : Ent} (h : SizedCls e.cls = true) :
    (load env data e).st = (loadBase env data e).st := by
  unfold load
  have hs : ∀ (a : Unit) s, (checkSized s).st = s := fun _ s => checkSized_st s
  have ht : ∀ (a : Unit) s, (checkTokens env s).st = s := fun _ s => checkTokens_st env s
  rw [PyM.bind_run]
  simp only [PyM.get_run]
  rcases hc : e.cls <;> rw [hc] at h <;>
    first
    | exact absurd h (by decide)
    | exact PyM.st_bind hs
    | exact PyM.st_bind fun _ s => (PyM.st_bind ht).trans (hs () s)
    | (refine PyM.st_bind fun _ s => (PyM.st_bind fun _ s => ?_).trans (hs () s)
       simp only [PyM.bind_run, PyM.get_run, PyM.ite_run]
       split
       · rfl
       · exact ht () _)

/-! ### Pictures -/

theorem stepCls_cases {c : Cls} (h : StepCls c = true) : SizedCls c = true ∨ c = .monoPicture ∨ c = .picture ∨ c = .image := by
  revert h; cases c <;> decide

theorem stepCls_starts {c : Cls} (h : StepCls c = true) (hi : c ≠ .image) :
    c.isSized = true ∧ lengthStart c = 0 ∧ dataStart c = 2 := by
  revert h hi; cases c <;> decide

theorem clear_step {c : Cls} (h : StepCls c = true) :
    2 ≤ (clearCalc c).length ∧ fromLE ((clearCalc c).take 2) = ((clearCalc c).drop 2).length := by
  rcases stepCls_cases h with h | rfl | rfl | rfl
  · exact clear_inStep h
  all_goals decide +kernel

theorem coercePicture_st (e : Ent) (h : StepCls e.cls = true) :
    ∃ c, StepCls c = true ∧ (coercePicture e).st = { e with cls := c } := by
  unfold coercePicture
  simp only [PyM.bind_run, PyM.get_run, PyM.ite_run]
  split
  · exact ⟨.monoPicture, rfl, rfl⟩
  · split
    · exact ⟨.picture, rfl, rfl⟩
    · split
      · exact ⟨.image, rfl, rfl⟩
      · exact ⟨e.cls, h, rfl⟩

theorem coerce_step (env : Env V) {e : Ent} (h : StepCls e.cls = true) :
    ∃ c, StepCls c = true ∧ (coerce env e).st = { e with cls := c } := by
  rcases stepCls_cases h with h' | h'
  · obtain ⟨c, h1, h2⟩ := coerce_sized env h'
    exact ⟨c, by simp [StepCls, h1], h2⟩
  · have hp := coercePicture_st e h
    unfold coerce
    simp only [PyM.bind_run, PyM.get_run]
    rcases h' with hc | hc | hc <;> simp only [coerceTyped, PyM.bind_run, PyM.get_run, hc] <;> exact hp

theorem load_step (env : Env V) (data : Bytes) {e : Ent} (h : StepCls e.cls = true) :
    (load env data e).st = (loadBase env data e).st := by
  rcases stepCls_cases h with h' | h'
  · exact load_st env data h'
  · unfold load
    have hs : ∀ (a : Unit) s, (checkSized s).st = s := fun _ s => checkSized_st s
    rw [PyM.bind_run]
    simp only [PyM.get_run]
    rcases h' with hc | hc | hc <;> rw [hc] <;> exact PyM.st_bind hs

end Ent
end Verif
