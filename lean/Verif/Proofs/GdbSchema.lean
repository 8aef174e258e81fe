import Verif.Proofs.SchemaText
import Verif.Proofs.GdbText

/-! What each part of the schema of graph databases asks. -/

namespace Verif
open Spec Ent Json
set_option linter.unusedSimpArgs false

/-! ### What each part of the schema asks -/

section parts
variable {root v : Json}

theorem type_object : typeOk v (jsonStr "object") = true ↔ ∃ kvs, v = .obj kvs := by
  cases v <;> simp [typeOk, jsonStr, hasType]
theorem type_array : typeOk v (jsonStr "array") = true ↔ ∃ xs, v = .arr xs := by
  cases v <;> simp [typeOk, jsonStr, hasType]
theorem type_string : typeOk v (jsonStr "string") = true ↔ ∃ s, v = .str s := by
  cases v <;> simp [typeOk, jsonStr, hasType]
theorem type_boolean : typeOk v (jsonStr "boolean") = true ↔ ∃ b, v = .bool b := by
  cases v <;> simp [typeOk, jsonStr, hasType]
theorem type_integer : typeOk v (jsonStr "integer") = true ↔ ∃ n, v = .int n := by
  cases v <;> simp [typeOk, jsonStr, hasType]
theorem type_number : typeOk v numberTypes = true ↔ ∃ j : JNum, v = numJson j := by
  constructor
  · intro h
    cases v with
    | int n => exact ⟨.int n, rfl⟩
    | float x => exact ⟨.float x, rfl⟩
    | str s => exact ⟨.str s, rfl⟩
    | null => exact absurd h (by decide)
    | bool b => exact absurd h (by simp [typeOk, numberTypes, jsonStrs, jsonStr, hasType])
    | arr b => exact absurd h (by simp [typeOk, numberTypes, jsonStrs, jsonStr, hasType])
    | obj b => exact absurd h (by simp [typeOk, numberTypes, jsonStrs, jsonStr, hasType])
  · rintro ⟨j, rfl⟩
    cases j <;> simp [typeOk, numberTypes, jsonStrs, jsonStr, hasType, numJson]

theorem mem_names {names : List String} : v ∈ elements (jsonStrs names) ↔ ∃ n ∈ names, v = .str n.toList := by
  simp [elements, jsonStrs, jsonStr, eq_comm]

theorem readSch_oneOf (names : List String) (d : List (String × Json)) (hd : d = [] ∨ ∃ x, d = [("default", x)]) :
    readSch ((oneOf names ++ d).map fun p => (p.1.toList, p.2)) = ⟨some (jsonStr "string"), some (jsonStrs names), [], none, none, none⟩ := by
  rcases hd with rfl | ⟨x, rfl⟩ <;> simp [readSch, oneOf, jsonObj, members, List.lookup]

theorem conforms_oneOf {names : List String} {d : List (String × Json)} (hd : d = [] ∨ ∃ x, d = [("default", x)]) :
    Conforms root (jsonObj (oneOf names ++ d)) v ↔ ∃ n ∈ names, v = .str n.toList := by
  unfold jsonObj
  rw [conforms_obj, readSch_oneOf names d hd]
  simp only [Option.some.injEq, forall_eq', mem_names, type_string]
  constructor
  · exact fun h => h.2.1
  · rintro ⟨n, hn, rfl⟩
    exact ⟨⟨_, rfl⟩, ⟨n, hn, rfl⟩, by simp [members], by simp, by simp⟩

theorem conforms_boolean {d : Json} : Conforms root (boolDefault d) v ↔ ∃ b, v = .bool b := by
  unfold boolDefault jsonObj
  rw [conforms_obj, show readSch _ = ⟨some (jsonStr "boolean"), none, [], none, none, none⟩ from by simp [readSch, oneOf, jsonObj, members, List.lookup]]
  simp only [Option.some.injEq, forall_eq', type_boolean]
  constructor
  · exact fun h => h.1
  · rintro ⟨b, rfl⟩
    exact ⟨⟨_, rfl⟩, by simp, by simp [members], by simp, by simp⟩

theorem conforms_text : Conforms root schExpr v ↔ ∃ s, v = .str s := by
  unfold schExpr jsonObj
  rw [conforms_obj, show readSch _ = ⟨some (jsonStr "string"), none, [], none, none, none⟩ from by simp [readSch, oneOf, jsonObj, members, List.lookup]]
  simp only [Option.some.injEq, forall_eq', type_string]
  constructor
  · exact fun h => h.1
  · rintro ⟨b, rfl⟩
    exact ⟨⟨_, rfl⟩, by simp, by simp [members], by simp, by simp⟩

theorem conforms_num {d : List (String × Json)} (hd : d = [] ∨ ∃ x, d = [("default", x)]) :
    Conforms root (jsonObj (("type", numberTypes) :: d)) v ↔ ∃ j : JNum, v = numJson j := by
  have : readSch ((("type", numberTypes) :: d).map fun p => (p.1.toList, p.2)) = ⟨some numberTypes, none, [], none, none, none⟩ := by
    rcases hd with rfl | ⟨x, rfl⟩ <;> simp [readSch, oneOf, jsonObj, members, List.lookup]
  unfold jsonObj
  rw [conforms_obj, this]
  simp only [Option.some.injEq, forall_eq', type_number]
  constructor
  · exact fun h => h.1
  · rintro ⟨b, rfl⟩
    exact ⟨⟨_, rfl⟩, by simp, by cases b <;> simp [members, numJson], by simp, by simp⟩

theorem conforms_color {d : List (String × Json)} (hd : d = [] ∨ ∃ x, d = [("default", x)]) :
    Conforms gdbSchema (colorRef d) v ↔ ∃ n ∈ schemaColors, v = .str n.toList := by
  have : readSch (([("type", jsonStr "string"), ("$ref", jsonStr "#/definitions/colors")] ++ d).map fun p => (p.1.toList, p.2)) =
      ⟨some (jsonStr "string"), none, [], none, none, some (jsonStr "#/definitions/colors")⟩ := by
    rcases hd with rfl | ⟨x, rfl⟩ <;> simp [readSch, oneOf, jsonObj, members, List.lookup]
  have ht : refTarget gdbSchema (jsonStr "#/definitions/colors") = some schColors := rfl
  have hc : Conforms gdbSchema schColors v ↔ ∃ n ∈ schemaColors, v = .str n.toList := by
    unfold schColors jsonObj
    rw [conforms_obj, show readSch _ = ⟨none, some (jsonStrs schemaColors), [], none, none, none⟩ from by simp [readSch, oneOf, jsonObj, members, List.lookup]]
    simp only [Option.some.injEq, forall_eq', mem_names]
    constructor
    · exact fun h => h.2.1
    · rintro ⟨n, hn, rfl⟩
      exact ⟨by simp, ⟨n, hn, rfl⟩, by simp [members], by simp, by simp⟩
  unfold colorRef jsonObj
  rw [conforms_obj, this]
  simp only [Option.some.injEq, forall_eq', type_string, ht, exists_eq_left', hc]
  constructor
  · exact fun h => h.2.2.2.2
  · rintro ⟨n, hn, rfl⟩
    exact ⟨⟨_, rfl⟩, by simp, by simp [members], by simp, ⟨n, hn, rfl⟩⟩

theorem conforms_border : Conforms root schBorder v ↔ ∃ n : Int, (1 ≤ n ∧ n ≤ 4) ∧ v = .int n := by
  unfold schBorder jsonObj
  rw [conforms_obj, show readSch _ = ⟨some (jsonStr "integer"), some (.arr [.int 1, .int 2, .int 3, .int 4]), [], none, none, none⟩ from by simp [readSch, oneOf, jsonObj, members, List.lookup]]
  simp only [Option.some.injEq, forall_eq', type_integer, elements, List.mem_cons, List.not_mem_nil, or_false]
  constructor
  · rintro ⟨-, h, -⟩
    rcases h with rfl | rfl | rfl | rfl
    · exact ⟨1, by omega, rfl⟩
    · exact ⟨2, by omega, rfl⟩
    · exact ⟨3, by omega, rfl⟩
    · exact ⟨4, by omega, rfl⟩
  · rintro ⟨n, hn, rfl⟩
    refine ⟨⟨_, rfl⟩, ?_, by simp [members], by simp, by simp⟩
    obtain rfl | rfl | rfl | rfl : n = 1 ∨ n = 2 ∨ n = 3 ∨ n = 4 := by omega
    all_goals simp

theorem conforms_format : Conforms root schFormat v ↔ ∃ l : List Str, v = .arr (l.map .str) ∧ ∀ s ∈ l, ∃ n ∈ schemaFormats, s = n.toList := by
  unfold schFormat
  conv => lhs; unfold jsonObj
  rw [conforms_obj, show readSch _ = ⟨some (jsonStr "array"), none, [], none, some (jsonObj (oneOf schemaFormats)), none⟩ from by simp [readSch, oneOf, jsonObj, members, List.lookup]]
  have h1 : ∀ x, Conforms root (jsonObj (oneOf schemaFormats)) x ↔ ∃ n ∈ schemaFormats, x = .str n.toList := fun x => by
    have := conforms_oneOf (root := root) (v := x) (names := schemaFormats) (d := []) (.inl rfl)
    rwa [List.append_nil] at this
  simp only [Option.some.injEq, forall_eq', type_array, h1]
  constructor
  · rintro ⟨⟨xs, rfl⟩, -, -, h, -⟩
    simp only [elements] at h
    clear h1
    induction xs with
    | nil => exact ⟨[], rfl, by simp⟩
    | cons x xs ih =>
      obtain ⟨l, hl, hall⟩ := ih fun y hy => h y (.tail _ hy)
      obtain ⟨n, hn, rfl⟩ := h x (.head _)
      refine ⟨n.toList :: l, ?_, ?_⟩
      · simp only [Json.arr.injEq] at hl
        rw [hl]
        rfl
      · intro s hs
        rcases List.mem_cons.1 hs with rfl | hs
        · exact ⟨n, hn, rfl⟩
        · exact hall s hs
  · rintro ⟨l, rfl, hl⟩
    refine ⟨⟨_, rfl⟩, by simp, by simp [members], ?_, by simp⟩
    intro x hx
    simp only [elements, List.mem_map] at hx
    obtain ⟨s, hs, rfl⟩ := hx
    obtain ⟨n, hn, rfl⟩ := hl s hs
    exact ⟨n, hn, rfl⟩

/-- A dictionary with named members only. -/
theorem conforms_closed {props : List (String × Json)} : Conforms root (closedObj props) v ↔
    ∃ kvs, v = .obj kvs ∧ ∀ kv ∈ kvs, ∃ p, (props.map fun p => (p.1.toList, p.2)).lookup kv.1 = some p ∧ Conforms root p kv.2 := by
  unfold closedObj
  conv => lhs; unfold jsonObj
  rw [conforms_obj, show readSch _ = ⟨some (jsonStr "object"), none, props.map fun p => (p.1.toList, p.2), some (.bool false), none, none⟩ from by simp [readSch, oneOf, jsonObj, members, List.lookup]]
  simp only [Option.some.injEq, forall_eq', type_object]
  constructor
  · rintro ⟨⟨kvs, rfl⟩, -, h, -⟩
    refine ⟨kvs, rfl, fun kv hkv => ?_⟩
    have := h kv hkv
    unfold MemberOk at this
    split at this
    · exact ⟨_, ‹_›, this⟩
    · exact absurd (this _ rfl) conforms_false
  · rintro ⟨kvs, rfl, h⟩
    refine ⟨⟨_, rfl⟩, by simp, fun kv hkv => ?_, by simp, by simp⟩
    obtain ⟨p, hp, hc⟩ := h kv hkv
    simp only [MemberOk, hp]
    exact hc

/-- A dictionary with named members and others. -/
theorem conforms_open {props d : List (String × Json)} (hd : d = [] ∨ ∃ x, d = [("default", x)]) :
    Conforms root (jsonObj (("type", jsonStr "object") :: ("properties", jsonObj props) :: d)) v ↔
    ∃ kvs, v = .obj kvs ∧ ∀ kv ∈ kvs, ∀ p, (props.map fun p => (p.1.toList, p.2)).lookup kv.1 = some p → Conforms root p kv.2 := by
  have : readSch ((("type", jsonStr "object") :: ("properties", jsonObj props) :: d).map fun p => (p.1.toList, p.2)) =
      ⟨some (jsonStr "object"), none, props.map fun p => (p.1.toList, p.2), none, none, none⟩ := by
    rcases hd with rfl | ⟨x, rfl⟩ <;> simp [readSch, oneOf, jsonObj, members, List.lookup]
  conv => lhs; unfold jsonObj
  rw [conforms_obj]
  simp only [jsonObj] at this
  rw [this]
  simp only [Option.some.injEq, forall_eq', type_object]
  constructor
  · rintro ⟨⟨kvs, rfl⟩, -, h, -⟩
    refine ⟨kvs, rfl, fun kv hkv p hp => ?_⟩
    have := h kv hkv
    simp only [MemberOk, hp] at this
    exact this
  · rintro ⟨kvs, rfl, h⟩
    refine ⟨⟨_, rfl⟩, by simp, fun kv hkv => ?_, by simp, by simp⟩
    unfold MemberOk
    split
    · exact h kv hkv _ ‹_›
    · simp

/-- A dictionary all of whose values conform. -/
theorem conforms_map {a : Json} : Conforms root (jsonObj [("type", jsonStr "object"), ("additionalProperties", a), ("default", .obj [])]) v ↔
    ∃ kvs, v = .obj kvs ∧ ∀ kv ∈ kvs, Conforms root a kv.2 := by
  conv => lhs; unfold jsonObj
  rw [conforms_obj, show readSch _ = ⟨some (jsonStr "object"), none, [], some a, none, none⟩ from by simp [readSch, oneOf, jsonObj, members, List.lookup]]
  simp only [Option.some.injEq, forall_eq', type_object]
  constructor
  · rintro ⟨⟨kvs, rfl⟩, -, h, -⟩
    refine ⟨kvs, rfl, fun kv hkv => ?_⟩
    have := h kv hkv
    simp only [MemberOk, List.lookup] at this
    exact this a rfl
  · rintro ⟨kvs, rfl, h⟩
    refine ⟨⟨_, rfl⟩, by simp, fun kv hkv => ?_, by simp, by simp⟩
    simp only [MemberOk, List.lookup]
    rintro _ ⟨⟩
    exact h kv hkv

end parts

end Verif
