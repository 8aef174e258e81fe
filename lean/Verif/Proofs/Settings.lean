import Verif.Model.Settings
import Verif.Spec.Settings
import Verif.Spec.Array
import Verif.Proofs.Array

/-! Lemmas on the numbers stored in settings and graph databases. -/

namespace Verif
open Spec
namespace Ent
variable {V : Type} [LinearOrder V]

/-- The kind of check due to a name. -/
def kindOf (name : String) : FieldCheck :=
  if name ∈ integerNames then .integer else if name = "Xres" then .xres else .any

theorem lookup_table : ∀ c ∈ settingsClasses ++ gdbClasses, ∀ i ∈ List.range (fieldNames c).length,
    (graphFields c).lookup ((fieldNames c).getD i "").toList =
      some (fieldStart c i, kindOf ((fieldNames c).getD i "")) := by decide +kernel

theorem lookup_field {c : Cls} (hc : c ∈ settingsClasses ++ gdbClasses) {i : Nat} {name : String}
    (hi : (fieldNames c)[i]? = some name) :
    (graphFields c).lookup name.toList = some (fieldStart c i, kindOf name) := by
  have h1 : i < (fieldNames c).length := by
    rw [List.getElem?_eq_some_iff] at hi; exact hi.1
  have := lookup_table c hc i (List.mem_range.2 h1)
  rw [List.getD_eq_getElem?_getD, hi] at this
  exact this

theorem fieldTarget_table : ∀ c ∈ settingsClasses ++ gdbClasses, ∀ i ∈ List.range (fieldNames c).length,
    viewLength (fieldTarget c) (Slice.nat (fieldStart c i) (fieldStart c i + 9)) = some 9 := by
  decide +kernel

theorem graphView_length (num : Ent → Except PyErr (Int × Bool)) {c : Cls}
    (hc : c ∈ settingsClasses ++ gdbClasses) {i : Nat} {name : String}
    (hi : (fieldNames c)[i]? = some name) (k : FieldCheck) :
    (graphView num c (fieldStart c i) k).length = some 9 := by
  have h1 : i < (fieldNames c).length := by
    rw [List.getElem?_eq_some_iff] at hi; exact hi.1
  exact fieldTarget_table c hc i (List.mem_range.2 h1)

theorem fieldCheck_ok {num : Ent → Except PyErr (Int × Bool)} {v : Ent} {n : Int} {whole : Bool}
    (name : String) (h : num v = .ok (n, whole)) :
    fieldCheck num (kindOf name) v () = ⟨.ok (), (), valueWarnings name n whole⟩ := by
  unfold kindOf valueWarnings
  by_cases h1 : name ∈ integerNames
  · simp only [h1, if_true, fieldCheck, h, PyM.bind_run, PyM.ofExcept_run]
    cases whole <;> simp
  · rw [if_neg h1, if_neg h1]
    by_cases h2 : name = "Xres"
    · rw [if_pos h2, if_pos h2]
      simp only [fieldCheck, h, PyM.bind_run, PyM.ofExcept_run]
      by_cases h3 : whole = true ∧ 1 ≤ n ∧ n ≤ 8 <;> simp [h3]
    · rw [if_neg h2, if_neg h2]
      rfl

/-- A failing check comes from the number. -/
theorem fieldCheck_error {num : Ent → Except PyErr (Int × Bool)} {v : Ent} {x : PyErr} (k : FieldCheck)
    (h : num v = .error x) :
    fieldCheck num k v () = if k = .any then ⟨.ok (), (), []⟩ else ⟨.error x, (), []⟩ := by
  cases k <;> simp [fieldCheck, h, PyM.bind_run]

theorem fieldSet_ok {num : Ent → Except PyErr (Int × Bool)} {k : FieldCheck} {v : Ent} {ws : List Warn}
    (h : fieldCheck num k v () = ⟨.ok (), (), ws⟩) :
    fieldSet num k v () = ⟨.ok v.body.bytes, (), ws ++ classWarnings v.cls⟩ := by
  unfold fieldSet classWarnings
  simp only [PyM.bind_run, h]
  by_cases h1 : v.cls = .real ∨ v.cls = .undefReal ∨ v.cls = .realFraction <;> simp [h1, PyM.bind_run]

theorem fieldSet_error {num : Ent → Except PyErr (Int × Bool)} {k : FieldCheck} {v : Ent} {x : PyErr}
    {ws : List Warn} (h : fieldCheck num k v () = ⟨.error x, (), ws⟩) :
    fieldSet num k v () = ⟨.error x, (), ws⟩ := by
  unfold fieldSet
  simp only [PyM.bind_run, h]

theorem wrapIndex_ok {α : Type} {x : PyM Unit α} {a : α} {ws : List Warn} (h : x () = ⟨.ok a, (), ws⟩) :
    wrapIndex x () = ⟨.ok a, (), ws⟩ := by
  unfold wrapIndex
  simp only [h, wrapIndexError]

/-- Writing a field whose check passes. -/
theorem setField_ok {num : Ent → Except PyErr (Int × Bool)} {e v : Ent} {d : Bytes} {i : Nat} {name : String}
    {ws : List Warn} (hc : e.cls ∈ settingsClasses ++ gdbClasses) (hi : (fieldNames e.cls)[i]? = some name)
    (hb : e.body = ⟨true, d⟩) (hd : fieldStart e.cls i + 9 ≤ d.length) (hv : v.body.bytes.length = 9)
    (hk : fieldCheck num (kindOf name) v () = ⟨.ok (), (), ws⟩) :
    setField num name.toList v e =
      ⟨.ok (), { e with body := ⟨true, d.take (fieldStart e.cls i) ++ v.body.bytes ++
        d.drop (fieldStart e.cls i + 9)⟩ }, ws ++ classWarnings v.cls⟩ := by
  unfold setField
  rw [PyM.bind_run, PyM.get_run]
  simp only [lookup_field hc hi, List.nil_append]
  have hs : (graphView num e.cls (fieldStart e.cls i) (kindOf name)).slice =
      Slice.nat (fieldStart e.cls i) (fieldStart e.cls i + 9) := rfl
  have hl := graphView_length num hc hi (kindOf name)
  have hput : viewPut (graphView num e.cls (fieldStart e.cls i) (kindOf name)) v e =
      ⟨.ok (), { e with body := ⟨true, d.take (fieldStart e.cls i) ++ v.body.bytes ++
        d.drop (fieldStart e.cls i + 9)⟩ }, ws ++ classWarnings v.cls⟩ := by
    refine viewPut_ok ?_
    rw [hb]
    have h1 : setRaw (graphView num e.cls (fieldStart e.cls i) (kindOf name)).conv
        (graphView num e.cls (fieldStart e.cls i) (kindOf name)).length
        (getSlice d (graphView num e.cls (fieldStart e.cls i) (kindOf name)).slice) v () =
        ⟨.ok v.body.bytes, (), ws ++ classWarnings v.cls⟩ := by
      rw [hl]
      unfold setRaw
      have h2 : (graphView num e.cls (fieldStart e.cls i) (kindOf name)).conv.set v (some 9)
          (getSlice d (graphView num e.cls (fieldStart e.cls i) (kindOf name)).slice) () =
          ⟨.ok v.body.bytes, (), ws ++ classWarnings v.cls⟩ := fieldSet_ok hk
      rw [PyM.bind_run, h2]
      simp only [fitWidth_eq hv, List.append_nil]
    rw [view_put_ok h1, hs, setSlice_nat (by omega) hd]
  rw [hput]

/-- A write whose check raises. -/
theorem setField_error {num : Ent → Except PyErr (Int × Bool)} {e v : Ent} {i : Nat} {name : String} {x : PyErr}
    (hc : e.cls ∈ settingsClasses ++ gdbClasses) (hi : (fieldNames e.cls)[i]? = some name)
    (hk : fieldCheck num (kindOf name) v () = ⟨.error x, (), []⟩) :
    setField num name.toList v e = ⟨.error x, e, []⟩ := by
  unfold setField
  rw [PyM.bind_run, PyM.get_run]
  simp only [lookup_field hc hi, List.nil_append]
  have h2 : setRaw (graphView num e.cls (fieldStart e.cls i) (kindOf name)).conv
      (graphView num e.cls (fieldStart e.cls i) (kindOf name)).length
      (getSlice e.body.bytes (graphView num e.cls (fieldStart e.cls i) (kindOf name)).slice) v () =
      ⟨.error x, (), []⟩ := by
    unfold setRaw
    rw [PyM.bind_error]
    exact fieldSet_error hk
  rw [viewPut_error (b := e.body) (view_put_error (m := e.body.mutable) h2)]

end Ent

namespace Spec

theorem fieldBytes_splice {c : Cls} {i : Nat} {d x : Bytes} (hd : fieldStart c i + 9 ≤ d.length)
    (hx : x.length = 9) (j : Nat) :
    fieldBytes c j (d.take (fieldStart c i) ++ x ++ d.drop (fieldStart c i + 9)) =
      if j = i then x else fieldBytes c j d := by
  have hlt : (d.take (fieldStart c i)).length = fieldStart c i := by simp; omega
  have key : ∀ k, k < 9 → ∀ j, (d.take (fieldStart c i) ++ x ++ d.drop (fieldStart c i + 9))[fieldStart c j + k]? =
      if j = i then x[k]? else d[fieldStart c j + k]? := by
    intro k hk j
    rcases Nat.lt_trichotomy j i with h | h | h
    · rw [if_neg (by omega), List.append_assoc, List.getElem?_append_left (by simp [fieldStart] at *; omega),
        List.getElem?_take_of_lt (by simp [fieldStart]; omega)]
    · subst h
      rw [if_pos rfl, List.append_assoc, List.getElem?_append_right (by omega), hlt,
        List.getElem?_append_left (by omega)]
      congr 1; omega
    · rw [if_neg (by omega), List.getElem?_append_right (by simp [hx, fieldStart] at *; omega),
        List.getElem?_drop]
      have : fieldStart c i + 9 + (fieldStart c j + k - (d.take (fieldStart c i) ++ x).length) =
          fieldStart c j + k := by
        rw [List.length_append, hlt, hx]
        simp only [fieldStart]
        omega
      rw [this]
  apply List.ext_getElem?
  intro k
  by_cases hk : k < 9
  · have h1 := key k hk j
    unfold fieldBytes
    rw [List.getElem?_take_of_lt hk, List.getElem?_drop, h1]
    split
    · rfl
    · rw [List.getElem?_take_of_lt hk, List.getElem?_drop]
  · have h2 : ∀ l : Bytes, (l.take 9)[k]? = none := fun l => by
      rw [List.getElem?_eq_none]; simp; omega
    unfold fieldBytes
    rw [h2]
    split
    · rw [List.getElem?_eq_none (by omega)]
    · rw [h2]

end Spec
end Verif
