import Verif.Proofs.Header
import Verif.Spec.Var
import Verif.Model.Var

/-! Histories of assignments to a header, and lookups in extension tables. -/

namespace Verif
open Spec

/-- The assignment statement of an operation. -/
def runHdrOp : HdrOp → PyM Hdr Unit
  | .magic v => Hdr.setMagic v
  | .extra v => Hdr.setExtra v
  | .productId v => Hdr.setProductId v
  | .comment v => Hdr.setComment v

/-- The header after a history of assignments, exceptions being caught by the caller. -/
def runHdrOps (ops : List HdrOp) (h : Hdr) : Hdr := ops.foldl (fun h op => (runHdrOp op h).st) h

theorem runHdrOp_widths (op : HdrOp) {h : Hdr} (hw : h.Widths) : (runHdrOp op h).st.Widths := by
  obtain ⟨h1, h2, h3, h4⟩ := hw
  cases op with
  | magic v =>
    simp only [runHdrOp, Hdr.setMagic_run]
    rcases e : setRaw strConv (some 8) h.magic v () with ⟨r, u, w⟩
    cases r with
    | error x => exact ⟨h1, h2, h3, h4⟩
    | ok x => exact ⟨setRaw_width (c := strConv) (by rw [e]), h2, h3, h4⟩
  | extra v =>
    simp only [runHdrOp, Hdr.setExtra_run]
    rcases e : setRaw bytesConv (some 2) h.extra v () with ⟨r, u, w⟩
    cases r with
    | error x => exact ⟨h1, h2, h3, h4⟩
    | ok x => exact ⟨h1, setRaw_width (c := bytesConv) (by rw [e]), h3, h4⟩
  | productId v =>
    simp only [runHdrOp, Hdr.setProductId_run]
    exact ⟨h1, h2, rfl, h4⟩
  | comment v =>
    simp only [runHdrOp, Hdr.setComment_run]
    rcases e : setRaw strConv (some 42) h.comment v () with ⟨r, u, w⟩
    cases r with
    | error x => exact ⟨h1, h2, h3, h4⟩
    | ok x => exact ⟨h1, h2, h3, setRaw_width (c := strConv) (by rw [e])⟩

theorem Model.mem_all (m : Model) : m ∈ Model.all := by cases m <;> decide

theorem extAt_some {tbl : List (Model × Str)} {m : Model} {ext : Str} (hm : (m, ext) ∈ tbl)
    (huniq : ∀ e, (m, e) ∈ tbl → e = ext) : Var.extAt tbl m = .ok ext := by
  unfold Var.extAt
  cases h : tbl.find? fun p => p.1 == m with
  | none =>
    have := List.find?_eq_none.1 h _ hm
    simp at this
  | some p =>
    have h1 := List.find?_some h
    have h2 := List.mem_of_find?_eq_some h
    obtain ⟨a, b⟩ := p
    simp only [beq_iff_eq] at h1
    subst h1
    rw [huniq b h2]

theorem extAt_none {tbl : List (Model × Str)} {m : Model} (hm : ∀ e, (m, e) ∉ tbl) :
    Var.extAt tbl m = .error .keyError := by
  unfold Var.extAt
  cases h : tbl.find? fun p => p.1 == m with
  | none => rfl
  | some p =>
    have h1 := List.find?_some h
    have h2 := List.mem_of_find?_eq_some h
    obtain ⟨a, b⟩ := p
    simp only [beq_iff_eq] at h1
    subst h1
    exact absurd h2 (hm b)

theorem ext_unique (c : Cls) (m : Model) (a b : Str) (ha : (m, a) ∈ c.extensions.2)
    (hb : (m, b) ∈ c.extensions.2) : a = b := by
  have hn : ∀ c : Cls, (c.extensions.2.map Prod.fst).Nodup := by
    intro c; cases c <;> decide
  have := hn c
  generalize c.extensions.2 = l at this ha hb
  induction l with
  | nil => cases ha
  | cons x l ih =>
    rw [List.map_cons, List.nodup_cons] at this
    rcases List.mem_cons.1 ha with rfl | ha <;> rcases List.mem_cons.1 hb with h | hb
    · exact (Prod.mk.inj h).2.symm
    · exact absurd (List.mem_map_of_mem (f := Prod.fst) hb) this.1
    · rw [← h] at this
      exact absurd (List.mem_map_of_mem (f := Prod.fst) ha) this.1
    · exact ih this.2 ha hb

end Verif
