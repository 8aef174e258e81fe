import Verif.Proofs.Settings
import Verif.Spec.Sample

/-! Properties of the numbers stored in window and table settings and in graph databases. -/

namespace Verif
open Spec
open Ent
variable {V : Type} [LinearOrder V]

/-! ### C58 – the fields are independent -/

/-- C58, one write: the nine bytes of the number replace the field's, and nothing else of the entry changes;
the warnings are those owed for a number that is not an integer and for a number that cannot be graphed. -/
theorem C58_write (num : Ent → Except PyErr (Int × Bool)) (e v : Ent) (i : Nat) (name : String) (n : Int)
    (whole : Bool) (hc : e.cls ∈ settingsClasses ++ gdbClasses) (hi : (fieldNames e.cls)[i]? = some name)
    (hm : e.body.mutable = true) (hd : fieldStart e.cls i + 9 ≤ e.body.bytes.length)
    (hv : v.body.bytes.length = 9) (hn : num v = .ok (n, whole)) :
    ∃ d, setField num name.toList v e =
        ⟨.ok (), { e with body := ⟨true, d⟩ }, valueWarnings name n whole ++ classWarnings v.cls⟩ ∧
      d.length = e.body.bytes.length ∧
      (∀ j, fieldBytes e.cls j d = if j = i then v.body.bytes else fieldBytes e.cls j e.body.bytes) ∧
      d.take (fieldStart e.cls i) = e.body.bytes.take (fieldStart e.cls i) ∧
      d.drop (fieldStart e.cls i + 9) = e.body.bytes.drop (fieldStart e.cls i + 9) := by
  have hb : e.body = ⟨true, e.body.bytes⟩ := by rw [← hm]
  refine ⟨_, setField_ok hc hi hb hd hv (fieldCheck_ok name hn), ?_, fieldBytes_splice hd hv, ?_, ?_⟩
  · simp [hv]; omega
  · rw [List.append_assoc, List.take_append_of_le_length (by simp; omega), List.take_take, Nat.min_self]
  · have hl : (e.body.bytes.take (fieldStart e.cls i) ++ v.body.bytes).length = fieldStart e.cls i + 9 := by
      simp [hv]; omega
    rw [← hl, List.drop_left, hl]

/-- C58, a write that is refused: if the number cannot be converted, a checked field raises and nothing
changes; the other fields do not look at the number and store it. -/
theorem C58_refused (num : Ent → Except PyErr (Int × Bool)) (e v : Ent) (i : Nat) (name : String) (x : PyErr)
    (hc : e.cls ∈ settingsClasses ++ gdbClasses) (hi : (fieldNames e.cls)[i]? = some name)
    (hm : e.body.mutable = true) (hd : fieldStart e.cls i + 9 ≤ e.body.bytes.length)
    (hv : v.body.bytes.length = 9) (hn : num v = .error x) :
    (name ∈ checkedNames → setField num name.toList v e = ⟨.error x, e, []⟩) ∧
    (name ∉ checkedNames → ∃ d, setField num name.toList v e =
        ⟨.ok (), { e with body := ⟨true, d⟩ }, classWarnings v.cls⟩ ∧
      d.length = e.body.bytes.length ∧
      ∀ j, fieldBytes e.cls j d = if j = i then v.body.bytes else fieldBytes e.cls j e.body.bytes) := by
  have hb : e.body = ⟨true, e.body.bytes⟩ := by rw [← hm]
  have hk := fieldCheck_error (kindOf name) hn
  have hkind : kindOf name = .any ↔ name ∉ checkedNames := by
    unfold kindOf checkedNames
    by_cases h1 : name ∈ integerNames
    · simp [h1]
    · by_cases h2 : name = "Xres"
      · rw [if_neg h1, if_pos h2]; simp [h2]
      · simp [h1, h2]
  refine ⟨fun h => ?_, fun h => ?_⟩
  · rw [if_neg (by rw [hkind]; exact not_not_intro h)] at hk
    exact setField_error hc hi hk
  · rw [if_pos (hkind.2 h)] at hk
    refine ⟨_, by simpa using setField_ok hc hi hb hd hv hk, ?_, fieldBytes_splice hd hv⟩
    simp [hv]; omega

/-- A write is carried out unless the field is checked and the number cannot be converted. -/
def accepted (num : Ent → Except PyErr (Int × Bool)) (c : Cls) (w : Nat × Ent) : Bool :=
  match num w.2 with
  | .ok _ => true
  | .error _ => (fieldNames c).getD w.1 "" ∉ checkedNames

/-- One write, accepted or not. -/
theorem setField_step (num : Ent → Except PyErr (Int × Bool)) (e v : Ent) (i : Nat) (name : String)
    (hc : e.cls ∈ settingsClasses ++ gdbClasses) (hi : (fieldNames e.cls)[i]? = some name)
    (hm : e.body.mutable = true) (hd : fieldStart e.cls i + 9 ≤ e.body.bytes.length)
    (hv : v.body.bytes.length = 9) :
    (accepted num e.cls (i, v) = false ∧ (setField num name.toList v e).st = e) ∨
    (accepted num e.cls (i, v) = true ∧ (setField num name.toList v e).st =
      { e with body := ⟨true, e.body.bytes.take (fieldStart e.cls i) ++ v.body.bytes ++
        e.body.bytes.drop (fieldStart e.cls i + 9)⟩ }) := by
  have hb : e.body = ⟨true, e.body.bytes⟩ := by rw [← hm]
  have hnm : (fieldNames e.cls).getD i "" = name := by rw [List.getD_eq_getElem?_getD, hi]; rfl
  rcases hn : num v with x | ⟨n, whole⟩
  · have hk := fieldCheck_error (kindOf name) hn
    by_cases hch : name ∈ checkedNames
    · left
      refine ⟨by simp only [accepted, hn, hnm]; simp [hch], ?_⟩
      rw [(C58_refused num e v i name x hc hi hm hd hv hn).1 hch]
    · right
      have hkind : kindOf name = .any := by
        unfold kindOf
        simp only [checkedNames, List.mem_cons, not_or] at hch
        rw [if_neg hch.2, if_neg hch.1]
      rw [if_pos hkind] at hk
      exact ⟨by simp only [accepted, hn, hnm]; simp [hch], by rw [setField_ok hc hi hb hd hv hk]⟩
  · right
    exact ⟨by simp only [accepted, hn], by rw [setField_ok hc hi hb hd hv (fieldCheck_ok name hn)]⟩

/-- C58, a history: after any sequence of writes, some of them refused, each field holds the last number
accepted for it or its original content, and the size, the bytes before the first field and every other
section are the same. -/
theorem C58_history (num : Ent → Except PyErr (Int × Bool)) (writes : List (Nat × Ent)) (e : Ent)
    (hc : e.cls ∈ settingsClasses ++ gdbClasses) (hm : e.body.mutable = true)
    (hd : fieldStart e.cls (fieldNames e.cls).length ≤ e.body.bytes.length)
    (hw : ∀ w ∈ writes, w.1 < (fieldNames e.cls).length ∧ w.2.body.bytes.length = 9) :
    ∃ d, writes.foldl (fun s w => (setField num ((fieldNames e.cls).getD w.1 "").toList w.2 s).st) e =
        { e with body := ⟨true, d⟩ } ∧
      d.length = e.body.bytes.length ∧
      (∀ j, fieldBytes e.cls j d = lastStored j
        ((writes.filter (accepted num e.cls)).map fun w => (w.1, w.2.body.bytes))
        (fieldBytes e.cls j e.body.bytes)) ∧
      d.take (firstField e.cls) = e.body.bytes.take (firstField e.cls) ∧
      d.drop (fieldStart e.cls (fieldNames e.cls).length) =
        e.body.bytes.drop (fieldStart e.cls (fieldNames e.cls).length) := by
  induction writes generalizing e with
  | nil => exact ⟨e.body.bytes, by rw [← hm]; rfl, rfl, fun _ => rfl, rfl, rfl⟩
  | cons w ws ih =>
    obtain ⟨i, v⟩ := w
    obtain ⟨hi, hv⟩ := hw (i, v) (by simp)
    simp only at hi hv
    have hws : ∀ w ∈ ws, w.1 < (fieldNames e.cls).length ∧ w.2.body.bytes.length = 9 :=
      fun w h => hw w (List.mem_cons_of_mem _ h)
    have hname : (fieldNames e.cls)[i]? = some ((fieldNames e.cls).getD i "") := by
      rw [List.getD_eq_getElem?_getD, List.getElem?_eq_getElem hi]; rfl
    obtain ⟨name, hnm⟩ : ∃ n, n = (fieldNames e.cls).getD i "" := ⟨_, rfl⟩
    rw [← hnm] at hname
    have hfit : fieldStart e.cls i + 9 ≤ e.body.bytes.length := by
      simp only [fieldStart] at hd ⊢; omega
    have hfirst : firstField e.cls ≤ fieldStart e.cls i := by simp [fieldStart]
    have hlast : fieldStart e.cls i + 9 ≤ fieldStart e.cls (fieldNames e.cls).length := by
      simp only [fieldStart]; omega
    rcases setField_step num e v i name hc hname hm hfit hv with ⟨hacc, hst⟩ | ⟨hacc, hst⟩
    · rw [List.foldl_cons, ← hnm, hst, List.filter_cons_of_neg (by simp [hacc])]
      exact ih e hc hm hd hws
    · obtain ⟨d, h1, h2, h3, h4, h5⟩ := ih { e with body := ⟨true, e.body.bytes.take (fieldStart e.cls i) ++
        v.body.bytes ++ e.body.bytes.drop (fieldStart e.cls i + 9)⟩ } hc rfl
        (by simp [hv]; omega) hws
      refine ⟨d, ?_, ?_, ?_, ?_, ?_⟩
      · rw [List.foldl_cons, ← hnm, hst]; exact h1
      · rw [h2]; simp [hv]; omega
      · intro j
        rw [h3 j, List.filter_cons_of_pos hacc]
        simp only [List.map_cons, lastStored]
        rw [fieldBytes_splice hfit hv]
        congr 1
        by_cases hj : j = i
        · rw [if_pos hj, if_pos hj.symm]
        · rw [if_neg hj, if_neg (fun h => hj h.symm)]
      · rw [h4]
        simp only
        rw [List.append_assoc, List.take_append_of_le_length (by simp; omega), List.take_take,
          Nat.min_eq_left hfirst]
      · rw [h5]
        simp only
        rw [List.drop_append, List.drop_eq_nil_of_le (by simp [hv]; omega), List.nil_append, List.drop_drop]
        congr 1
        simp [hv]; omega

/-- C58, reading: a field holding the nine bytes of a real number of any class reads as that number. -/
theorem C58_read (env : Env V) (nm : Bytes) (e x : Ent) (i : Nat) (name : String)
    (hc : e.cls ∈ settingsClasses ++ gdbClasses) (hi : (fieldNames e.cls)[i]? = some name)
    (hx : RealElem x) (hf : fieldBytes e.cls i e.body.bytes = x.body.bytes) :
    ∃ y, getField env nm name.toList e () = ⟨.ok y, (), []⟩ ∧ SameNumber x y := by
  have hlen : 9 ≤ (e.body.bytes.drop (fieldStart e.cls i)).length := by
    have := congrArg List.length hf
    rw [hx.2.1] at this
    simp only [fieldBytes, List.length_take] at this
    omega
  have hd : fieldStart e.cls i + 9 ≤ e.body.bytes.length := by
    simp only [List.length_drop] at hlen; omega
  have hs : getSlice e.body.bytes
      { start := some (fieldStart e.cls i : Int), stop := some (fieldStart e.cls i + 9 : Int) } =
        x.body.bytes := by
    have := getSlice_nat (d := e.body.bytes) (a := fieldStart e.cls i) (b := fieldStart e.cls i + 9)
      (by omega) hd
    rw [← hf, fieldBytes]
    refine this.trans ?_
    congr 1
    omega
  unfold getField
  simp only [lookup_field hc hi]
  rw [hs]
  have := new_real' env nm (Or.inr rfl) hx.1 hx.2.1 hx.2.2
  exact ⟨_, wrapIndex_ok this, rfl, rfl⟩

/-- Window settings with three numbers written, one of them refused, and one overwritten: `nMax` is refused
since the conversion fails, `Xmin` is stored twice. -/
example :
    let e : Ent := ⟨.window, [0x0D, 0x00], [0x0F], List.replicate 8 0x41, [0], [0],
      ⟨true, toLE 2 208 ++ List.replicate 208 0⟩⟩
    let x : Nat → Ent := fun b => ⟨.real, [0x0D, 0x00], [0], List.replicate 8 0x41, [0], [0],
      ⟨true, [0x00, 0x80, UInt8.ofNat b, 0, 0, 0, 0, 0, 0]⟩⟩
    let num : Ent → Except PyErr (Int × Bool) := fun v =>
      if v.body.bytes.getD 2 0 = 0x30 then .error .overflowError else .ok (1, true)
    let e' := [(0, x 0x10), (13, x 0x30), (0, x 0x20), (2, x 0x40)].foldl
      (fun s w => (setField num ((fieldNames e.cls).getD w.1 "").toList w.2 s).st) e
    fieldBytes .window 0 e'.body.bytes = [0x00, 0x80, 0x20, 0, 0, 0, 0, 0, 0] ∧
    fieldBytes .window 13 e'.body.bytes = List.replicate 9 0 ∧
    fieldBytes .window 2 e'.body.bytes = [0x00, 0x80, 0x40, 0, 0, 0, 0, 0, 0] ∧
    e'.body.bytes.length = 210 := by decide +kernel

/-- The number 2.5 in `Xres` warns, the number π in `Xmin` warns. -/
example :
    let e : Ent := ⟨.func, [0x0D, 0x00], [0x08], List.replicate 8 0x41, [0], [0],
      ⟨true, toLE 2 126 ++ List.replicate 126 0⟩⟩
    let x : Ent := ⟨.real, [0x0D, 0x00], [0], List.replicate 8 0x41, [0], [0],
      ⟨true, [0x00, 0x80, 0x25, 0, 0, 0, 0, 0, 0]⟩⟩
    (setField (fun _ => .ok (2, false)) "Xres".toList x e).warns = [.notInteger] ∧
    (setField (fun _ => .ok (3, false)) "Xmin".toList { x with cls := .realPi } e).warns = [.notGraphable] := by
  decide +kernel

/-! ### C72 – the dictionary of settings -/

/-- C72 is false of the code: the dictionary that settings produce can never be loaded, the loop unpacking
the names of the fields. -/
theorem C72_dict_false (e : Ent) (hc : e.cls ∈ settingsClasses) :
    loadKeys (settingsKeys e.cls) e = ⟨.error .valueError, e, []⟩ := by
  simp only [settingsClasses, List.mem_cons, List.not_mem_nil, or_false] at hc
  rcases hc with h | h | h <;> rw [h] <;> rfl

/-- C72, the part that holds: loading a dictionary never changes the settings, and it succeeds if and only if
every key has two characters (so that the empty dictionary can be loaded). Missing: dictionaries with the
names of fields, which cannot be loaded. -/
theorem C72_dict_partial (keys : List Str) (e : Ent) :
    (loadKeys keys e).st = e ∧
    ((loadKeys keys e).res = .ok () ↔ ∀ k ∈ keys, k.length = 2) ∧
    (loadKeys [] e) = ⟨.ok (), e, []⟩ := by
  refine ⟨?_, ?_, rfl⟩
  · induction keys with
    | nil => rfl
    | cons k ks ih =>
      unfold loadKeys
      by_cases h : k.length ≠ 2
      · simp [h]
      · simp only [h, if_false, PyM.bind_run, PyM.warn_run]
        exact ih
  · induction keys with
    | nil => simp [loadKeys]
    | cons k ks ih =>
      unfold loadKeys
      by_cases h : k.length ≠ 2
      · simp [h]
      · simp only [h, if_false, PyM.bind_run, PyM.warn_run]
        rw [ih]
        simp only [ne_eq, not_not] at h
        simp [h]

end Verif
