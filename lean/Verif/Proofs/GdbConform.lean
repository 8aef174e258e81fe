import Verif.Proofs.GdbSchema
import Verif.Spec.GdbSchema

/-! Which dictionaries of graph databases conform to the schema. -/

namespace Verif
open Spec Ent Json
variable {V : Type} [LinearOrder V]

theorem all_present {parts : List (String × Option Json)} {P : Str → Json → Prop} :
    (∀ kv ∈ present parts, P kv.1 kv.2) ↔ ∀ p ∈ parts, ∀ j, p.2 = some j → P p.1.toList j := by
  unfold present
  simp only [List.mem_filterMap, Option.map_eq_some_iff]
  constructor
  · intro h p hp j hj
    exact h (p.1.toList, j) ⟨p, hp, j, hj, rfl⟩
  · rintro h kv ⟨p, hp, j, hj, rfl⟩
    exact h p hp j hj

section parts
variable {root : Json}

theorem lookup_member {α : Type} {l : List (Str × α)} {k : Str} {x : α} (h : l.lookup k = some x) : (k, x) ∈ l := by
  induction l with
  | nil => cases h
  | cons p l ih =>
    simp only [List.lookup] at h
    split at h
    · rename_i hk
      obtain rfl := Option.some.inj h
      rw [eq_of_beq hk]
      exact .head _
    · exact .tail _ (ih h)

theorem lookup_toList {α : Type} (props : List (String × α)) (k : String) :
    (props.map fun p => (p.1.toList, p.2)).lookup k.toList = props.lookup k := by
  induction props with
  | nil => rfl
  | cons p props ih =>
    simp only [List.map_cons, List.lookup]
    by_cases h : k = p.1
    · simp [h]
    · have h' : k.toList ≠ p.1.toList := fun hh => h (String.toList_inj.1 hh)
      rw [beq_false_of_ne h, beq_false_of_ne h']
      exact ih

theorem closed_present {props : List (String × Json)} {parts : List (String × Option Json)} :
    Conforms root (closedObj props) (.obj (present parts)) ↔
      ∀ p ∈ parts, ∀ j, p.2 = some j → ∃ s, props.lookup p.1 = some s ∧ Conforms root s j := by
  rw [conforms_closed]
  simp only [Json.obj.injEq, exists_eq_left']
  rw [all_present (P := fun k x => ∃ p, List.lookup k _ = some p ∧ Conforms root p x)]
  simp only [lookup_toList]

theorem open_present {props d : List (String × Json)} (hd : d = [] ∨ ∃ x, d = [("default", x)]) {parts : List (String × Option Json)} :
    Conforms root (jsonObj (("type", jsonStr "object") :: ("properties", jsonObj props) :: d)) (.obj (present parts)) ↔
      ∀ p ∈ parts, ∀ j, p.2 = some j → ∀ s, props.lookup p.1 = some s → Conforms root s j := by
  rw [conforms_open hd]
  simp only [Json.obj.injEq, exists_eq_left']
  rw [all_present (P := fun k x => ∀ p, List.lookup k _ = some p → Conforms root p x)]
  simp only [lookup_toList]

theorem fits_flags (f : EqFlags) : Conforms root schFlags (flagsJson f) := by
  refine (open_present (.inr ⟨_, rfl⟩)).2 ?_
  simp only [flagsParts, List.forall_mem_cons, List.not_mem_nil, false_imp_iff, implies_true, and_true, Option.map_eq_some_iff]
  refine ⟨?_, ?_, ?_⟩ <;> (rintro j ⟨b, -, rfl⟩ s hs; simp [List.lookup] at hs; subst hs; exact conforms_boolean.2 ⟨b, rfl⟩)

theorem named_json {names : List String} {o : Option Str} : (∃ n ∈ names, nameJson o = .str n.toList) ↔ NamedIn names (some o) := by
  cases o <;> simp [nameJson, NamedIn]

theorem optNamed_iff {names : List String} {s : Option (Option Str)} :
    OptNamed names s ↔ ∀ j, s.map nameJson = some j → ∃ n ∈ names, j = .str n.toList := by
  cases s with
  | none => simp [OptNamed]
  | some o =>
    simp only [OptNamed, Option.map_some, Option.some.injEq, forall_eq', named_json]
    simp

theorem fits_eq (q : EqDict) : Conforms gdbSchema schEq (eqJson q) ↔ OptNamed graphStyles q.style ∧ OptNamed paints q.color := by
  have h1 : ∀ x, Conforms gdbSchema (jsonObj (oneOf graphStyles)) x ↔ ∃ n ∈ graphStyles, x = .str n.toList := fun x => by
    have := conforms_oneOf (root := gdbSchema) (v := x) (names := graphStyles) (d := []) (.inl rfl)
    rwa [List.append_nil] at this
  have h2 : ∀ x, Conforms gdbSchema (colorRef []) x ↔ ∃ n ∈ paints, x = .str n.toList := fun x => conforms_color (.inl rfl)
  unfold schEq eqJson
  rw [open_present (.inl rfl)]
  simp only [eqParts, List.forall_mem_cons, List.not_mem_nil, false_imp_iff, implies_true, and_true]
  simp [List.lookup, -forall_exists_index, -Option.map_eq_some_iff, h1, h2, ← optNamed_iff]
  intro _ _
  constructor
  · intro j hj
    obtain ⟨f, -, rfl⟩ := Option.map_eq_some_iff.1 hj
    exact fits_flags f
  · intro j hj
    obtain ⟨f, -, rfl⟩ := Option.map_eq_some_iff.1 hj
    exact conforms_text.2 ⟨f, rfl⟩

theorem fits_numbers (l : List (Str × JNum)) : Conforms root schSettings (numbersJson l) := by
  refine conforms_map.2 ⟨_, rfl, ?_⟩
  intro kv hkv
  obtain ⟨p, -, rfl⟩ := List.mem_map.1 hkv
  exact (conforms_num (.inl rfl)).2 ⟨p.2, rfl⟩

theorem fits_window (l : List (Str × JNum)) :
    Conforms root schWindow (numbersJson l) ↔ ∀ kv ∈ l, ∃ n ∈ plotNames, kv.1 = n.toList := by
  unfold schWindow numbersJson
  rw [conforms_closed]
  simp only [Json.obj.injEq, exists_eq_left', List.forall_mem_map]
  have key : ∀ (k : Str) (j : JNum), (∃ p, List.lookup k ([("Xmin", schNum (-10)), ("Xmax", schNum 10), ("Xscl", schNum 1),
      ("Ymin", schNum (-10)), ("Ymax", schNum 10), ("Yscl", schNum 1)].map fun p => (p.1.toList, p.2)) = some p ∧ Conforms root p (numJson j)) ↔
      ∃ n ∈ plotNames, k = n.toList := by
    intro k j
    have hn : ∀ d, Conforms root (schNum d) (numJson j) := fun d => (conforms_num (.inr ⟨_, rfl⟩)).2 ⟨j, rfl⟩
    constructor
    · rintro ⟨p, hp, -⟩
      obtain ⟨q, hq, hk⟩ := List.mem_map.1 (lookup_member hp)
      have : q.1 ∈ plotNames := by
        simp only [List.mem_cons, List.not_mem_nil, or_false] at hq
        rcases hq with rfl | rfl | rfl | rfl | rfl | rfl <;> simp [plotNames]
      exact ⟨q.1, this, (congrArg Prod.fst hk).symm⟩
    · rintro ⟨n, hmem, rfl⟩
      rw [lookup_toList]
      simp only [plotNames, List.mem_cons, List.not_mem_nil, or_false] at hmem
      rcases hmem with rfl | rfl | rfl | rfl | rfl | rfl
      all_goals exact ⟨_, rfl, hn _⟩
  constructor
  · intro h kv hkv
    exact (key kv.1 kv.2).1 (h kv hkv)
  · intro h kv hkv
    exact (key kv.1 kv.2).2 (h kv hkv)

theorem fits_ext (showExpr : Option Bool) (extSeq : Option Str) :
    Conforms root schExt (.obj (present (extParts showExpr extSeq))) ↔ ∀ s, extSeq = some s → ∃ n ∈ seqForms, s = n.toList := by
  have h1 : ∀ x, Conforms root (oneOfDefault seqForms "SEQ(n)") x ↔ ∃ n ∈ seqForms, x = .str n.toList := fun x => conforms_oneOf (.inr ⟨_, rfl⟩)
  unfold schExt
  rw [closed_present]
  simp only [extParts, List.forall_mem_cons, List.not_mem_nil, false_imp_iff, implies_true, and_true]
  simp only [List.lookup, String.reduceBEq, beq_self_eq_true, Option.some.injEq, exists_eq_left', h1, conforms_boolean]
  constructor
  · rintro ⟨-, h⟩ s rfl
    obtain ⟨n, hn, hs⟩ := h (.str s) rfl
    exact ⟨n, hn, by simpa using hs⟩
  · intro h
    refine ⟨fun j hj => ?_, fun j hj => ?_⟩
    · obtain ⟨b, -, rfl⟩ := Option.map_eq_some_iff.1 hj
      exact ⟨b, rfl⟩
    · obtain ⟨b, hb, rfl⟩ := Option.map_eq_some_iff.1 hj
      obtain ⟨n, hn, rfl⟩ := h b hb
      exact ⟨n, hn, rfl⟩

theorem fits_seq (s : Str) : Conforms root schSeq (seqJson s) ↔ ∃ n ∈ schemaSeqModes, s = n.toList := by
  have h1 : ∀ x, Conforms root (oneOfDefault schemaSeqModes "Time") x ↔ ∃ n ∈ schemaSeqModes, x = .str n.toList :=
    fun x => conforms_oneOf (.inr ⟨_, rfl⟩)
  unfold schSeq seqJson
  rw [closed_present]
  simp only [List.forall_mem_cons, List.not_mem_nil, false_imp_iff, implies_true, and_true]
  simp only [List.lookup, beq_self_eq_true, Option.some.injEq, exists_eq_left', h1, forall_eq', Json.str.injEq]

theorem fits_specific (settings : List (Str × JNum)) (equations : List (Str × EqDict)) :
    (∀ j, specificJson settings equations = some j → Conforms gdbSchema schSpecific j) ↔
      ∀ kv ∈ equations, OptNamed graphStyles kv.2.style ∧ OptNamed paints kv.2.color := by
  have heq : Conforms gdbSchema schEquations (.obj (equations.map fun kv => (kv.1, eqJson kv.2))) ↔
      ∀ kv ∈ equations, OptNamed graphStyles kv.2.style ∧ OptNamed paints kv.2.color := by
    unfold schEquations
    rw [conforms_map]
    simp only [Json.obj.injEq, exists_eq_left', List.forall_mem_map, fits_eq]
  unfold specificJson
  split
  · rename_i h
    rw [h.2]
    simp
  · simp only [Option.some.injEq, forall_eq']
    unfold schSpecific
    rw [open_present (.inl rfl)]
    simp only [specificParts, List.forall_mem_cons, List.not_mem_nil, false_imp_iff, implies_true, and_true]
    simp only [List.lookup, String.reduceBEq, beq_self_eq_true, Option.some.injEq, forall_eq', heq]
    exact ⟨fun h => h.2, fun h => ⟨fits_numbers _, h⟩⟩

theorem fits_colors (d : ColorDict) : Conforms gdbSchema schGlobal (colorJson d) ↔
    OptNamed paints d.grid ∧ OptNamed paints d.axes ∧ (∀ n, d.border = some n → 1 ≤ n ∧ n ≤ 4) ∧ d.line = none := by
  have h2 : ∀ c x, Conforms gdbSchema (colorRef [("default", c)]) x ↔ ∃ n ∈ paints, x = .str n.toList := fun c x => conforms_color (.inr ⟨_, rfl⟩)
  have ha : Conforms gdbSchema schPaint (.obj (present (colorsParts d))) ↔
      OptNamed paints d.grid ∧ OptNamed paints d.axes ∧ (∀ n, d.border = some n → 1 ≤ n ∧ n ≤ 4) := by
    unfold schPaint
    rw [closed_present]
    simp only [colorsParts, List.forall_mem_cons, List.not_mem_nil, false_imp_iff, implies_true, and_true]
    simp only [List.lookup, String.reduceBEq, beq_self_eq_true, Option.some.injEq, exists_eq_left', h2, conforms_border, ← optNamed_iff]
    refine and_congr Iff.rfl (and_congr Iff.rfl ?_)
    constructor
    · intro h n hn
      obtain ⟨m, hm, he⟩ := h (.int n) (by rw [hn]; rfl)
      obtain rfl : n = m := by simpa using he
      exact hm
    · intro h j hj
      obtain ⟨n, hn, rfl⟩ := Option.map_eq_some_iff.1 hj
      exact ⟨n, h n hn, rfl⟩
  have hb : Conforms gdbSchema schOther (.obj (present (otherParts d))) ↔ d.line = none := by
    unfold schOther
    rw [closed_present]
    simp only [otherParts, List.forall_mem_cons, List.not_mem_nil, false_imp_iff, implies_true, and_true]
    simp only [List.lookup, String.reduceBEq, beq_self_eq_true, Option.some.injEq, exists_eq_left', conforms_boolean, reduceCtorEq, false_and,
      exists_false]
    constructor
    · rintro ⟨h, -⟩
      cases hl : d.line with
      | none => rfl
      | some o => exact (h (nameJson o) (by rw [hl]; rfl)).elim
    · intro h
      refine ⟨fun j hj => (by rw [h] at hj; cases hj), fun j hj => ?_⟩
      obtain ⟨b, -, rfl⟩ := Option.map_eq_some_iff.1 hj
      exact ⟨b, rfl⟩
  unfold schGlobal colorJson
  rw [open_present (.inr ⟨_, rfl⟩)]
  simp only [colorParts, List.forall_mem_cons, List.not_mem_nil, false_imp_iff, implies_true, and_true]
  simp only [List.lookup, String.reduceBEq, beq_self_eq_true, Option.some.injEq, forall_eq', ha, hb, and_assoc]

/-- The properties of the whole schema. -/
def rootProps : List (String × Json) := [("graphMode", schMode), ("formatSettings", schFormat), ("seqSettings", schSeq), ("extSettings", schExt),
    ("globalWindowSettings", schWindow), ("specificData", schSpecific), ("global84CSettings", schGlobal)]

theorem conforms_root {v : Json} : Conforms gdbSchema gdbSchema v ↔
    ∃ kvs, v = .obj kvs ∧ ∀ kv ∈ kvs, ∀ p, (rootProps.map fun p => (p.1.toList, p.2)).lookup kv.1 = some p → Conforms gdbSchema p kv.2 := by
  have hroot := conforms_obj (root := gdbSchema) (v := v) (s := [("type", jsonStr "object"), ("definitions", jsonObj [("colors", schColors)]),
    ("properties", jsonObj rootProps)].map fun p => (p.1.toList, p.2))
  rw [show readSch _ = ⟨some (jsonStr "object"), none, rootProps.map fun p => (p.1.toList, p.2), none, none, none⟩ from by
    simp [readSch, jsonObj, members, List.lookup]] at hroot
  refine Iff.trans hroot ?_
  simp only [Option.some.injEq, forall_eq', type_object]
  constructor
  · rintro ⟨⟨kvs, rfl⟩, -, h, -⟩
    refine ⟨kvs, rfl, fun kv hkv p hp => ?_⟩
    have := h kv hkv
    simp only [MemberOk, hp] at this
    exact this
  · rintro ⟨kvs, rfl, h⟩
    refine ⟨⟨_, rfl⟩, by simp, fun kv hkv => ?_, by simp, by simp⟩
    unfold MemberOk
    split
    · exact h kv hkv _ ‹_›
    · simp

theorem formats_same (s : Str) : (∃ n ∈ schemaFormats, s = n.toList) ↔ ∃ f ∈ formatBits, s = f.1.toList := by
  constructor
  · rintro ⟨n, hn, rfl⟩
    obtain ⟨f, hf, rfl⟩ := (by decide +kernel : ∀ n ∈ schemaFormats, ∃ f ∈ formatBits, f.1 = n) n hn
    exact ⟨f, hf, rfl⟩
  · rintro ⟨f, hf, rfl⟩
    exact ⟨f.1, (by decide +kernel : ∀ f ∈ formatBits, f.1 ∈ schemaFormats) f hf, rfl⟩

/-- The dictionaries that conform. -/
theorem fits_gdb (d : GdbDict JNum) : Conforms gdbSchema gdbSchema (gdbJson d) ↔ SchemaFits d := by
  have h1 : ∀ x, Conforms gdbSchema schMode x ↔ ∃ n ∈ schemaModes, x = .str n.toList := fun x => conforms_oneOf (.inr ⟨_, rfl⟩)
  have hf : Conforms gdbSchema schFormat (.arr (d.format.map .str)) ↔ ∀ s ∈ d.format, ∃ f ∈ formatBits, s = f.1.toList := by
    rw [conforms_format]
    simp only [formats_same]
    constructor
    · rintro ⟨l, hl, h⟩
      have : d.format = l := List.map_injective_iff.2 (fun a b h => by simpa using h) (Json.arr.inj hl)
      rwa [this]
    · exact fun h => ⟨_, rfl, h⟩
  rw [conforms_root]
  unfold gdbJson
  simp only [Json.obj.injEq, exists_eq_left']
  rw [all_present (P := fun k x => ∀ p, List.lookup k _ = some p → Conforms gdbSchema p x)]
  simp only [lookup_toList]
  simp only [gdbParts, rootProps, List.forall_mem_cons, List.not_mem_nil, false_imp_iff, implies_true, and_true]
  simp only [List.lookup, String.reduceBEq, beq_self_eq_true, Option.some.injEq, forall_eq', reduceCtorEq, false_imp_iff, implies_true, h1, hf,
    fits_ext, fits_window, fits_specific, ← optNamed_iff, true_and]
  constructor
  · rintro ⟨a1, a2, a3, a4, a5, a6, a7⟩
    exact ⟨a1, a2, a3, fun s hs => (fits_seq s).1 (a5 _ (by rw [hs]; rfl)), a4, a6,
      fun c hc => (fits_colors c).1 (a7 _ (by rw [hc]; rfl))⟩
  · rintro ⟨a1, a2, a3, a5, a4, a6, a7⟩
    refine ⟨a1, a2, a3, a4, fun j hj => ?_, a6, fun j hj => ?_⟩
    · obtain ⟨s, hs, rfl⟩ := Option.map_eq_some_iff.1 hj
      exact (fits_seq s).2 (a5 s hs)
    · obtain ⟨s, hs, rfl⟩ := Option.map_eq_some_iff.1 hj
      exact (fits_colors s).2 (a7 s hs)

end parts

/-! ### What the dictionary of a database has -/

/-- A dictionary as databases have it. -/
structure OutDict (c : Cls) (d : GdbDict JNum) : Prop where
  mode : d.mode = some none ∨ NamedIn ["Function", "Parametric", "Polar", "Sequence"] d.mode
  format : ∀ s ∈ d.format, ∃ f ∈ formatBits, s = f.1.toList
  form : ∀ s, d.extSeq = some s → ∃ n ∈ seqForms, s = n.toList
  seq : ∀ s, d.seqSettings = some s → ∃ m ∈ seqModeCodes, s = m.1.toList
  window : ∀ kv ∈ d.window, ∃ n ∈ plotNames, kv.1 = n.toList
  curves : ∀ kv ∈ d.equations, (kv.2.style = some none ∨ NamedIn graphStyles kv.2.style) ∧
    (kv.2.color = none ∨ kv.2.color = some none ∨ NamedIn paints kv.2.color)
  colors : (d.color ≠ none ↔ c.isSub .gdb = true) ∧ ∀ c, d.color = some c → c.line ≠ none

theorem getName_named {names : List (Str × Int)} {l : List String} (h : ∀ p ∈ names, ∃ n ∈ l, p.1 = n.toList) (v : Int) :
    getName names v = none ∨ NamedIn l (some (getName names v)) := by
  unfold getName
  cases hf : names.find? fun p => p.2 = v with
  | none => exact .inl rfl
  | some p =>
    obtain ⟨n, hn, hp⟩ := h p (List.mem_of_find?_eq_some hf)
    exact .inr ⟨n, hn, by rw [Option.map_some, hp]⟩

theorem getName_color {v : Int} (hv : v ≠ 0) : getName colorNames v = none ∨ NamedIn paints (some (getName colorNames v)) := by
  unfold getName
  cases hf : colorNames.find? fun p => p.2 = v with
  | none => exact .inl rfl
  | some p =>
    have hp : p.2 = v := by simpa using List.find?_some hf
    obtain ⟨n, hn, he⟩ := (by decide +kernel : ∀ p ∈ colorNames, p.2 ≠ 0 → ∃ n ∈ paints, p.1 = n.toList) p (List.mem_of_find?_eq_some hf)
      (by rw [hp]; exact hv)
    exact .inr ⟨n, hn, by rw [Option.map_some, he]⟩

theorem eq_out {env : Env V} {g : GEq} {q : EqDict} (h : (g.dict env ()).res = .ok q) :
    (q.style = some none ∨ NamedIn graphStyles q.style) ∧ (q.color = none ∨ q.color = some none ∨ NamedIn paints q.color) := by
  unfold GEq.dict at h
  obtain ⟨s, -, h⟩ := bind_res h
  obtain ⟨c, -, h⟩ := bind_res h
  obtain ⟨f, -, h⟩ := bind_res h
  obtain ⟨_, -, h⟩ := bind_res h
  obtain ⟨_, -, h⟩ := bind_res h
  obtain ⟨_, -, h⟩ := bind_res h
  obtain ⟨_, -, h⟩ := bind_res h
  obtain rfl := Except.ok.inj h
  refine ⟨?_, ?_⟩
  · rcases getName_named (by decide +kernel : ∀ p ∈ styleNames, ∃ n ∈ graphStyles, p.1 = n.toList) s with h | h
    · exact .inl (congrArg some h)
    · exact .inr h
  · by_cases hc : c = 0
    · left
      simp [hc]
    · right
      simp only [ne_eq, hc, not_false_eq_true, if_true]
      rcases getName_color hc with h | h
      · exact .inl (congrArg some h)
      · exact .inr h

theorem choose_out {f flag : FlagItems} {a b : String} {s : Str} (h : (choose f flag a b ()).res = .ok s) : s = a.toList ∨ s = b.toList := by
  unfold choose at h
  obtain ⟨r, -, h⟩ := bind_res h
  obtain rfl := Except.ok.inj h
  cases r
  · exact .inr rfl
  · exact .inl rfl

theorem format_out {f : FlagItems} {l : List Str} (h : (formatOut f ()).res = .ok l) : ∀ s ∈ l, ∃ f ∈ formatBits, s = f.1.toList := by
  unfold formatOut at h
  obtain ⟨a, ha, h⟩ := bind_res h
  obtain ⟨b, hb, h⟩ := bind_res h
  obtain ⟨c, hc, h⟩ := bind_res h
  obtain ⟨d, hd, h⟩ := bind_res h
  obtain ⟨g, hg, h⟩ := bind_res h
  obtain ⟨x, hx, h⟩ := bind_res h
  obtain ⟨i, hi, h⟩ := bind_res h
  obtain rfl := Except.ok.inj h
  have key : ∀ (n : String) (s : Str), s = n.toList → n ∈ formatBits.map Prod.fst → ∃ f ∈ formatBits, s = f.1.toList := by
    rintro n s rfl hn
    obtain ⟨f, hf, rfl⟩ := List.mem_map.1 hn
    exact ⟨f, hf, rfl⟩
  intro s hs
  simp only [List.mem_cons, List.not_mem_nil, or_false] at hs
  rcases hs with rfl | rfl | rfl | rfl | rfl | rfl | rfl
  · rcases choose_out ha with h | h <;> exact key _ _ h (by decide +kernel)
  · rcases choose_out hb with h | h <;> exact key _ _ h (by decide +kernel)
  · rcases choose_out hc with h | h <;> exact key _ _ h (by decide +kernel)
  · rcases choose_out hd with h | h <;> exact key _ _ h (by decide +kernel)
  · rcases choose_out hg with h | h <;> exact key _ _ h (by decide +kernel)
  · rcases choose_out hx with h | h <;> exact key _ _ h (by decide +kernel)
  · rcases choose_out hi with h | h <;> exact key _ _ h (by decide +kernel)

theorem first_out {f : FlagItems} {s : Str} : ∀ {l : List (Str × FlagItems)}, (firstMode f l ()).res = .ok (some s) → s ∈ l.map Prod.fst
  | [], h => by cases h
  | (n, flag) :: l, h => by
    unfold firstMode at h
    obtain ⟨r, -, h⟩ := bind_res h
    cases r
    · exact .tail _ (first_out h)
    · obtain rfl := Option.some.inj (Except.ok.inj h)
      exact .head _

theorem gdb_out {env : Env V} {nm : Bytes} {e : Ent} {d : GdbDict JNum} (h : (gdbDict env nm (realIO env nm) e ()).res = .ok d) :
    OutDict e.cls d := by
  unfold gdbDict at h
  obtain ⟨mode, hmode, h⟩ := bind_res h
  obtain ⟨f, -, h⟩ := bind_res h
  obtain ⟨format, hformat, h⟩ := bind_res h
  obtain ⟨x, -, h⟩ := bind_res h
  obtain ⟨showExpr, -, h⟩ := bind_res h
  obtain ⟨window, hw, h⟩ := bind_res h
  have hmode' : some mode = some none ∨ NamedIn ["Function", "Parametric", "Polar", "Sequence"] (some mode) := by
    unfold modeName at hmode
    split at hmode
    · obtain rfl := Except.ok.inj hmode
      exact .inr ⟨"Function", by simp, rfl⟩
    split at hmode
    · obtain rfl := Except.ok.inj hmode
      exact .inr ⟨"Parametric", by simp, rfl⟩
    split at hmode
    · obtain rfl := Except.ok.inj hmode
      exact .inr ⟨"Polar", by simp, rfl⟩
    split at hmode
    · obtain rfl := Except.ok.inj hmode
      exact .inr ⟨"Sequence", by simp, rfl⟩
    · obtain ⟨-, -, hmode⟩ := bind_res hmode
      obtain rfl := Except.ok.inj hmode
      exact .inl rfl
  have hwin : ∀ kv ∈ window, ∃ n ∈ plotNames, kv.1 = n.toList := by
    intro kv hkv
    have : kv.1 ∈ windowKeys.map Prod.fst := (numbers_res hw).1 ▸ List.mem_map_of_mem hkv
    exact (by decide +kernel : ∀ k ∈ windowKeys.map Prod.fst, ∃ n ∈ plotNames, k = n.toList) _ this
  have last : ∀ extSeq seqSettings, (∀ s, extSeq = some s → ∃ n ∈ seqForms, s = n.toList) →
      (∀ s, seqSettings = some s → ∃ m ∈ seqModeCodes, s = m.1.toList) → ((do
      let settings ← mapW (numberOut env nm (realIO env nm) e) (numberKeys e.cls)
      let eqs ← mapW (GEq.dict env) (getEquations e)
      if e.cls.isSub .gdb then do
        let c ← colorsOut e
        pure (⟨some mode, format, some showExpr, extSeq, seqSettings, none, window, settings,
          (equationNames e.cls).zip eqs, some c⟩ : GdbDict JNum)
      else pure ⟨some mode, format, some showExpr, extSeq, seqSettings, none, window, settings,
          (equationNames e.cls).zip eqs, none⟩ : PyM Unit (GdbDict JNum)) ()).res = .ok d → OutDict e.cls d := by
    intro extSeq seqSettings hx hs h
    obtain ⟨settings, -, h⟩ := bind_res h
    obtain ⟨eqs, he, h⟩ := bind_res h
    have hcur : ∀ kv ∈ (equationNames e.cls).zip eqs, (kv.2.style = some none ∨ NamedIn graphStyles kv.2.style) ∧
        (kv.2.color = none ∨ kv.2.color = some none ∨ NamedIn paints kv.2.color) := by
      intro kv hkv
      have hmem : kv.2 ∈ eqs := (List.of_mem_zip hkv).2
      have hall : ∀ q ∈ eqs, (q.style = some none ∨ NamedIn graphStyles q.style) ∧
          (q.color = none ∨ q.color = some none ∨ NamedIn paints q.color) := by
        have := mapW_res he
        clear he hkv hmem h
        generalize getEquations e = gs at this
        induction this with
        | nil => simp
        | cons hab _ ih =>
          intro q hq
          rcases List.mem_cons.1 hq with rfl | hq
          · exact eq_out hab
          · exact ih q hq
      exact hall _ hmem
    split at h
    · rename_i hsub
      obtain ⟨c, hc, h⟩ := bind_res h
      obtain rfl := Except.ok.inj h
      refine ⟨hmode', format_out hformat, hx, hs, hwin, hcur, by simp [hsub], ?_⟩
      rintro c' ⟨⟩
      unfold colorsOut at hc
      obtain ⟨_, -, hc⟩ := bind_res hc
      obtain ⟨_, -, hc⟩ := bind_res hc
      obtain ⟨_, -, hc⟩ := bind_res hc
      obtain ⟨_, -, hc⟩ := bind_res hc
      obtain ⟨_, -, hc⟩ := bind_res hc
      obtain ⟨_, -, hc⟩ := bind_res hc
      obtain rfl := Except.ok.inj hc
      simp
    · rename_i hsub
      obtain rfl := Except.ok.inj h
      exact ⟨hmode', format_out hformat, hx, hs, hwin, hcur, by simp [hsub], by simp⟩
  simp only at h
  by_cases hm : e.cls.isSub .monoSeq = true
  · rw [if_pos hm] at h
    obtain ⟨ext, hext, h⟩ := bind_res h
    rw [if_pos hm] at h
    obtain ⟨fl, -, h⟩ := bind_res h
    obtain ⟨seq, hseq, h⟩ := bind_res h
    refine last _ _ ?_ ?_ h
    · rintro s rfl
      exact (by decide +kernel : ∀ k ∈ extSeqNames.map Prod.fst, ∃ n ∈ seqForms, k = n.toList) s (first_out hext)
    · rintro s rfl
      exact (by decide +kernel : ∀ k ∈ seqModes.map Prod.fst, ∃ m ∈ seqModeCodes, k = m.1.toList) s (first_out hseq)
  · rw [if_neg hm] at h
    obtain ⟨ext, hext, h⟩ := bind_res h
    rw [if_neg hm] at h
    obtain ⟨seq, hseq, h⟩ := bind_res h
    obtain rfl := Except.ok.inj hext
    obtain rfl := Except.ok.inj hseq
    exact last _ _ (by simp) (by simp) h

/-! ### Reading dictionaries that conform -/

theorem readKey_ok {α : Type} {k : String} {f : Json → Option α} {kvs : List (Str × Json)} {P : α → Prop}
    (h : ∀ j, kvs.lookup k.toList = some j → ∃ a, f j = some a ∧ P a) :
    ∃ o, readKey k f kvs = some o ∧ ∀ a, o = some a → P a := by
  unfold readKey
  cases hl : kvs.lookup k.toList with
  | none => exact ⟨none, rfl, by simp⟩
  | some j =>
    obtain ⟨a, ha, hp⟩ := h j hl
    exact ⟨some a, by simp [ha], by simpa using hp⟩

theorem readDict_ok {k : String} {kvs : List (Str × Json)} {P : List (Str × Json) → Prop}
    (h : ∀ j, kvs.lookup k.toList = some j → ∃ m, j = .obj m ∧ P m) (h0 : P []) : ∃ m, readDict k kvs = some m ∧ P m := by
  unfold readDict
  cases hl : kvs.lookup k.toList with
  | none => exact ⟨[], rfl, h0⟩
  | some j =>
    obtain ⟨m, rfl, hp⟩ := h j hl
    exact ⟨m, rfl, hp⟩

theorem readValues_ok {α : Type} {f : Json → Option α} {P : Str → α → Prop} : ∀ {kvs : List (Str × Json)},
    (∀ kv ∈ kvs, ∃ a, f kv.2 = some a ∧ P kv.1 a) → ∃ l, readValues f kvs = some l ∧ ∀ kv ∈ l, P kv.1 kv.2
  | [], _ => ⟨[], rfl, by simp⟩
  | (k, j) :: kvs, h => by
    obtain ⟨a, ha, hp⟩ := h (k, j) (.head _)
    obtain ⟨l, hl, hps⟩ := readValues_ok fun kv hkv => h kv (.tail _ hkv)
    refine ⟨(k, a) :: l, by simp [readValues, ha, hl], ?_⟩
    intro kv hkv
    rcases List.mem_cons.1 hkv with rfl | hkv
    · exact hp
    · exact hps kv hkv

theorem readItems_strs : ∀ l : List Str, readItems readStr (l.map .str) = some l
  | [] => rfl
  | s :: l => by simp [readItems, readStr, readItems_strs l]

/-- The value of a key in a dictionary with named members. -/
theorem closed_key {root : Json} {props : List (String × Json)} {kvs : List (Str × Json)}
    (h : Conforms root (closedObj props) (.obj kvs)) {k : String} {j : Json} (hj : kvs.lookup k.toList = some j) :
    ∃ p, props.lookup k = some p ∧ Conforms root p j := by
  obtain ⟨_, ⟨⟩, h⟩ := conforms_closed.1 h
  have := h _ (lookup_member hj)
  rwa [lookup_toList] at this

theorem open_key {root : Json} {props d : List (String × Json)} (hd : d = [] ∨ ∃ x, d = [("default", x)]) {kvs : List (Str × Json)}
    (h : Conforms root (jsonObj (("type", jsonStr "object") :: ("properties", jsonObj props) :: d)) (.obj kvs)) {k : String} {j : Json}
    (hj : kvs.lookup k.toList = some j) {p : Json} (hp : props.lookup k = some p) : Conforms root p j := by
  obtain ⟨_, ⟨⟩, h⟩ := (conforms_open hd).1 h
  have := h _ (lookup_member hj)
  rw [lookup_toList] at this
  exact this p hp

theorem read_name {names : List String} {j : Json} (h : ∃ n ∈ names, j = .str n.toList) :
    ∃ o, readName j = some o ∧ NamedIn names (some o) := by
  obtain ⟨n, hn, rfl⟩ := h
  exact ⟨some n.toList, rfl, n, hn, rfl⟩

theorem read_opt {names : List String} {o : Option (Option Str)} (h : ∀ a, o = some a → NamedIn names (some a)) : OptNamed names o := by
  cases o with
  | none => exact .inl rfl
  | some a => exact .inr (h a rfl)

theorem read_flags {root j : Json} (h : Conforms root schFlags j) : ∃ f, readFlags j = some f := by
  obtain ⟨kvs, rfl, -⟩ := (conforms_open (.inr ⟨_, rfl⟩)).1 h
  have hb : ∀ k ∈ ["selected", "wasUsedForGraph", "linkTransfer"], ∀ x, kvs.lookup (String.toList k) = some x →
      ∃ a, readBool x = some a ∧ True := by
    intro k hk x hx
    have : ∃ d, Conforms root (boolDefault d) x := by
      simp only [List.mem_cons, List.not_mem_nil, or_false] at hk
      rcases hk with rfl | rfl | rfl
      · exact ⟨_, open_key (.inr ⟨_, rfl⟩) h hx rfl⟩
      · exact ⟨_, open_key (.inr ⟨_, rfl⟩) h hx rfl⟩
      · exact ⟨_, open_key (.inr ⟨_, rfl⟩) h hx rfl⟩
    obtain ⟨d, hd⟩ := this
    obtain ⟨b, rfl⟩ := conforms_boolean.1 hd
    exact ⟨b, rfl, trivial⟩
  obtain ⟨a, ha, -⟩ := readKey_ok (hb "selected" (by simp))
  obtain ⟨b, hb', -⟩ := readKey_ok (hb "wasUsedForGraph" (by simp))
  obtain ⟨c, hc, -⟩ := readKey_ok (hb "linkTransfer" (by simp))
  exact ⟨⟨a, b, c⟩, by simp [readFlags, readObj, ha, hb', hc]⟩

theorem read_eq {j : Json} (h : Conforms gdbSchema schEq j) :
    ∃ q, readEq j = some q ∧ OptNamed graphStyles q.style ∧ OptNamed paints q.color := by
  have h1 : ∀ x, Conforms gdbSchema (jsonObj (oneOf graphStyles)) x ↔ ∃ n ∈ graphStyles, x = .str n.toList := fun x => by
    have := conforms_oneOf (root := gdbSchema) (v := x) (names := graphStyles) (d := []) (.inl rfl)
    rwa [List.append_nil] at this
  obtain ⟨kvs, rfl, -⟩ := (conforms_open (.inl rfl)).1 h
  obtain ⟨s, hs, ps⟩ := readKey_ok (k := "style") (f := readName) (kvs := kvs) (P := fun a => NamedIn graphStyles (some a))
    fun x hx => read_name ((h1 x).1 (open_key (.inl rfl) h hx rfl))
  obtain ⟨c, hc, pc⟩ := readKey_ok (k := "color") (f := readName) (kvs := kvs) (P := fun a => NamedIn paints (some a))
    fun x hx => read_name ((conforms_color (.inl rfl)).1 (open_key (.inl rfl) h hx rfl))
  obtain ⟨f, hf, -⟩ := readKey_ok (k := "flags") (f := readFlags) (kvs := kvs) (P := fun _ => True)
    fun x hx => (read_flags (open_key (.inl rfl) h hx rfl)).imp fun a ha => ⟨ha, trivial⟩
  obtain ⟨t, ht, -⟩ := readKey_ok (k := "expr") (f := readStr) (kvs := kvs) (P := fun _ => True) fun x hx => by
    obtain ⟨t, rfl⟩ := conforms_text.1 (open_key (.inl rfl) h hx rfl)
    exact ⟨t, rfl, trivial⟩
  exact ⟨⟨s, c, f, t⟩, by simp [readEq, readObj, hs, hc, hf, ht], read_opt ps, read_opt pc⟩

theorem read_colors {j : Json} (h : Conforms gdbSchema schGlobal j) : ∃ c, readColors j = some c ∧
    OptNamed paints c.grid ∧ OptNamed paints c.axes ∧ (∀ n, c.border = some n → 1 ≤ n ∧ n ≤ 4) ∧ c.line = none := by
  obtain ⟨kvs, rfl, -⟩ := (conforms_open (.inr ⟨_, rfl⟩)).1 h
  obtain ⟨cs, hcs, pcs⟩ := readDict_ok (k := "colors") (kvs := kvs) (P := fun m => Conforms gdbSchema schPaint (.obj m))
    (fun x hx => by
      have := open_key (.inr ⟨_, rfl⟩) h hx rfl
      obtain ⟨m, rfl, -⟩ := conforms_closed.1 this
      exact ⟨m, rfl, this⟩) (conforms_closed.2 ⟨[], rfl, by simp⟩)
  obtain ⟨os, hos, pos⟩ := readDict_ok (k := "other") (kvs := kvs) (P := fun m => Conforms gdbSchema schOther (.obj m))
    (fun x hx => by
      have := open_key (.inr ⟨_, rfl⟩) h hx rfl
      obtain ⟨m, rfl, -⟩ := conforms_closed.1 this
      exact ⟨m, rfl, this⟩) (conforms_closed.2 ⟨[], rfl, by simp⟩)
  obtain ⟨g, hg, pg⟩ := readKey_ok (k := "grid") (f := readName) (kvs := cs) (P := fun a => NamedIn paints (some a)) fun x hx => by
    obtain ⟨p, hp, hx⟩ := closed_key pcs hx
    obtain rfl : colorRef [("default", jsonStr "MedGray")] = p := Option.some.inj hp
    exact read_name ((conforms_color (.inr ⟨_, rfl⟩)).1 hx)
  obtain ⟨a, ha, pa⟩ := readKey_ok (k := "axes") (f := readName) (kvs := cs) (P := fun a => NamedIn paints (some a)) fun x hx => by
    obtain ⟨p, hp, hx⟩ := closed_key pcs hx
    obtain rfl : colorRef [("default", jsonStr "Black")] = p := Option.some.inj hp
    exact read_name ((conforms_color (.inr ⟨_, rfl⟩)).1 hx)
  obtain ⟨b, hb, pb⟩ := readKey_ok (k := "border") (f := readInt) (kvs := cs) (P := fun n => 1 ≤ n ∧ n ≤ 4) fun x hx => by
    obtain ⟨p, hp, hx⟩ := closed_key pcs hx
    obtain rfl : schBorder = p := Option.some.inj hp
    obtain ⟨n, hn, rfl⟩ := conforms_border.1 hx
    exact ⟨n, rfl, hn⟩
  have hl : readKey "globalLineStyle" readName os = some none := by
    unfold readKey
    cases hlo : os.lookup "globalLineStyle".toList with
    | none => rfl
    | some x =>
      obtain ⟨p, hp, -⟩ := closed_key pos hlo
      exact absurd hp (by simp [List.lookup])
  obtain ⟨t, ht, -⟩ := readKey_ok (k := "detectAsymptotes") (f := readBool) (kvs := os) (P := fun _ => True) fun x hx => by
    obtain ⟨p, hp, hx⟩ := closed_key pos hx
    obtain rfl : boolDefault (.bool true) = p := Option.some.inj hp
    obtain ⟨b, rfl⟩ := conforms_boolean.1 hx
    exact ⟨b, rfl, trivial⟩
  exact ⟨⟨g, a, b, none, t⟩, by simp [readColors, readObj, hcs, hos, hg, ha, hb, hl, ht], read_opt pg, read_opt pa, pb, rfl⟩

theorem read_num {root j : Json} {d : List (String × Json)} (hd : d = [] ∨ ∃ x, d = [("default", x)])
    (h : Conforms root (jsonObj (("type", numberTypes) :: d)) j) : ∃ n, readNum j = some n := by
  obtain ⟨n, rfl⟩ := (conforms_num hd).1 h
  cases n <;> exact ⟨_, rfl⟩

/-- A dictionary that conforms is read. -/
theorem conforms_read {kvs : List (Str × Json)} (h : Conforms gdbSchema gdbSchema (.obj kvs))
    (hs : ∀ j, kvs.lookup "seqMode".toList = some j → ∃ s, j = .str s) :
    ∃ d, readGdb kvs = some d ∧ SchemaFits { d with seqSettings := none } := by
  have key : ∀ {k : String} {p : Json} {x : Json}, kvs.lookup k.toList = some x → rootProps.lookup k = some p → Conforms gdbSchema p x := by
    intro k p x hx hp
    obtain ⟨_, ⟨⟩, h⟩ := conforms_root.1 h
    have := h _ (lookup_member hx)
    rw [lookup_toList] at this
    exact this p hp
  obtain ⟨mode, hmode, pmode⟩ := readKey_ok (k := "graphMode") (f := readName) (kvs := kvs) (P := fun a => NamedIn schemaModes (some a))
    fun x hx => read_name ((conforms_oneOf (.inr ⟨_, rfl⟩)).1 (key hx rfl))
  obtain ⟨format, hformat, pformat⟩ := readKey_ok (k := "formatSettings") (f := fun j => (readArr j).bind (readItems readStr)) (kvs := kvs)
    (P := fun l => ∀ s ∈ l, ∃ f ∈ formatBits, s = f.1.toList) fun x hx => by
      obtain ⟨l, rfl, hl⟩ := conforms_format.1 (key hx rfl)
      exact ⟨l, by simp [readArr, readItems_strs], fun s hs => (formats_same s).1 (hl s hs)⟩
  obtain ⟨ext, hext, pext⟩ := readDict_ok (k := "extSettings") (kvs := kvs) (P := fun m => Conforms gdbSchema schExt (.obj m))
    (fun x hx => by
      have := key hx rfl
      obtain ⟨m, rfl, -⟩ := conforms_closed.1 this
      exact ⟨m, rfl, this⟩) (conforms_closed.2 ⟨[], rfl, by simp⟩)
  obtain ⟨se, hse, -⟩ := readKey_ok (k := "showExpr") (f := readBool) (kvs := ext) (P := fun _ => True) fun x hx => by
    obtain ⟨p, hp, hx⟩ := closed_key pext hx
    obtain rfl : boolDefault (.bool true) = p := Option.some.inj hp
    obtain ⟨b, rfl⟩ := conforms_boolean.1 hx
    exact ⟨b, rfl, trivial⟩
  obtain ⟨es, hes, pes⟩ := readKey_ok (k := "seqMode") (f := readStr) (kvs := ext) (P := fun s => ∃ n ∈ seqForms, s = n.toList) fun x hx => by
    obtain ⟨p, hp, hx⟩ := closed_key pext hx
    obtain rfl : oneOfDefault seqForms "SEQ(n)" = p := Option.some.inj hp
    obtain ⟨n, hn, rfl⟩ := (conforms_oneOf (.inr ⟨_, rfl⟩)).1 hx
    exact ⟨_, rfl, n, hn, rfl⟩
  obtain ⟨ss, hss, -⟩ := readKey_ok (k := "seqSettings") (f := readSeq) (kvs := kvs) (P := fun _ => True) fun x hx => by
    cases x <;> exact ⟨_, rfl, trivial⟩
  obtain ⟨sm, hsm, -⟩ := readKey_ok (k := "seqMode") (f := readStr) (kvs := kvs) (P := fun _ => True) fun x hx => by
    obtain ⟨s, rfl⟩ := hs x hx
    exact ⟨s, rfl, trivial⟩
  obtain ⟨win, hwin, pwin⟩ := readDict_ok (k := "globalWindowSettings") (kvs := kvs) (P := fun m => Conforms gdbSchema schWindow (.obj m))
    (fun x hx => by
      have := key hx rfl
      obtain ⟨m, rfl, -⟩ := conforms_closed.1 this
      exact ⟨m, rfl, this⟩) (conforms_closed.2 ⟨[], rfl, by simp⟩)
  obtain ⟨w, hw, pw⟩ := readValues_ok (f := readNum) (kvs := win) (P := fun k _ => ∃ n ∈ plotNames, k = n.toList) fun kv hkv => by
    obtain ⟨_, ⟨⟩, h⟩ := conforms_closed.1 pwin
    obtain ⟨p, hp, hc⟩ := h kv hkv
    obtain ⟨q, hq, hk⟩ := List.mem_map.1 (lookup_member hp)
    have hq' : q.1 ∈ plotNames ∧ ∃ d, q.2 = schNum d := by
      simp only [List.mem_cons, List.not_mem_nil, or_false] at hq
      rcases hq with rfl | rfl | rfl | rfl | rfl | rfl <;> exact ⟨by simp [plotNames], _, rfl⟩
    obtain ⟨h1, d, h2⟩ := hq'
    obtain ⟨hk1, rfl⟩ : q.1.toList = kv.1 ∧ q.2 = p := by simpa using hk
    rw [h2] at hc
    obtain ⟨n, hn⟩ := read_num (.inr ⟨_, rfl⟩) hc
    exact ⟨n, hn, _, h1, hk1.symm⟩
  obtain ⟨data, hdata, pdata⟩ := readDict_ok (k := "specificData") (kvs := kvs) (P := fun m => Conforms gdbSchema schSpecific (.obj m))
    (fun x hx => by
      have := key hx rfl
      obtain ⟨m, rfl, -⟩ := (conforms_open (.inl rfl)).1 this
      exact ⟨m, rfl, this⟩) ((conforms_open (.inl rfl)).2 ⟨[], rfl, by simp⟩)
  obtain ⟨st, hst, pst⟩ := readDict_ok (k := "settings") (kvs := data) (P := fun m => Conforms gdbSchema schSettings (.obj m))
    (fun x hx => by
      have := open_key (.inl rfl) pdata hx rfl
      obtain ⟨m, rfl, -⟩ := conforms_map.1 this
      exact ⟨m, rfl, this⟩) (conforms_map.2 ⟨[], rfl, by simp⟩)
  obtain ⟨sv, hsv, -⟩ := readValues_ok (f := readNum) (kvs := st) (P := fun _ _ => True) fun kv hkv => by
    obtain ⟨_, ⟨⟩, h⟩ := conforms_map.1 pst
    exact (read_num (.inl rfl) (h kv hkv)).imp fun n hn => ⟨hn, trivial⟩
  obtain ⟨eqs, heqs, peqs⟩ := readDict_ok (k := "equations") (kvs := data) (P := fun m => Conforms gdbSchema schEquations (.obj m))
    (fun x hx => by
      have := open_key (.inl rfl) pdata hx rfl
      obtain ⟨m, rfl, -⟩ := conforms_map.1 this
      exact ⟨m, rfl, this⟩) (conforms_map.2 ⟨[], rfl, by simp⟩)
  obtain ⟨ev, hev, pev⟩ := readValues_ok (f := readEq) (kvs := eqs) (P := fun _ q => OptNamed graphStyles q.style ∧ OptNamed paints q.color)
    fun kv hkv => by
      obtain ⟨_, ⟨⟩, h⟩ := conforms_map.1 peqs
      exact read_eq (h kv hkv)
  obtain ⟨c, hc, pc⟩ := readKey_ok (k := "global84CSettings") (f := readColors) (kvs := kvs)
    (P := fun c => OptNamed paints c.grid ∧ OptNamed paints c.axes ∧ (∀ n, c.border = some n → 1 ≤ n ∧ n ≤ 4) ∧ c.line = none)
    fun x hx => read_colors (key hx rfl)
  refine ⟨⟨mode, format.getD [], se, es, ss, sm, w, sv, ev, c⟩, ?_, ?_⟩
  · unfold readGdb
    simp only [hmode, hformat, hext, hse, hes, hss, hsm, hwin, hw, hdata, hst, hsv, heqs, hev, hc, Option.bind_eq_bind, Option.bind_some]
  · refine ⟨read_opt pmode, ?_, pes, by simp, pw, pev, pc⟩
    cases format with
    | none => simp
    | some l => exact pformat l rfl

end Verif
