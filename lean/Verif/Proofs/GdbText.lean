import Verif.Proofs.Json
import Verif.Model.GdbText
import Verif.Spec.JsonText

/-! The dictionaries of databases and their values of JSON. -/

namespace Verif
namespace Ent
open Spec Json
variable {V : Type} [LinearOrder V]

theorem present_lookup_not (parts : List (String × Option Json)) (k : String) (h : k ∉ parts.map Prod.fst) :
    (present parts).lookup k.toList = none := by
  induction parts with
  | nil => rfl
  | cons p parts ih =>
    obtain ⟨k', o⟩ := p
    simp only [List.map_cons, List.mem_cons, not_or] at h
    have hk : k.toList ≠ k'.toList := fun e => h.1 (String.toList_inj.1 e)
    cases o with
    | none => exact ih h.2
    | some j =>
      show List.lookup k.toList ((k'.toList, j) :: present parts) = none
      rw [List.lookup_cons, beq_eq_false_iff_ne.2 hk]
      exact ih h.2

/-- The value of a key. -/
theorem present_lookup {parts : List (String × Option Json)} (hn : (parts.map Prod.fst).Nodup) {k : String} {o : Option Json}
    (h : (k, o) ∈ parts) : (present parts).lookup k.toList = o := by
  induction parts with
  | nil => cases h
  | cons p parts ih =>
    obtain ⟨k', o'⟩ := p
    simp only [List.map_cons, List.nodup_cons] at hn
    rcases List.mem_cons.1 h with h | h'
    · obtain ⟨rfl, rfl⟩ := Prod.mk.inj h
      cases o with
      | none => exact present_lookup_not parts k hn.1
      | some j =>
        show List.lookup k.toList ((k.toList, j) :: present parts) = some j
        rw [List.lookup_cons, beq_self_eq_true]
    · have hk : k.toList ≠ k'.toList := fun e => hn.1 (by
        rw [← String.toList_inj.1 e]
        exact List.mem_map.2 ⟨_, h', rfl⟩)
      cases o' with
      | none => exact ih hn.2 h'
      | some j =>
        show List.lookup k.toList ((k'.toList, j) :: present parts) = o
        rw [List.lookup_cons, beq_eq_false_iff_ne.2 hk]
        exact ih hn.2 h'

theorem readName_json (o : Option Str) : readName (nameJson o) = some o := by cases o <;> rfl
theorem readNum_json (x : JNum) : readNum (numJson x) = some x := by cases x <;> rfl

theorem readKey_present {α : Type} {k : String} {f : Json → Option α} {g : α → Json} (hfg : ∀ a, f (g a) = some a)
    {parts : List (String × Option Json)} (hn : (parts.map Prod.fst).Nodup) {o : Option α} (h : (k, o.map g) ∈ parts) :
    readKey k f (present parts) = some o := by
  unfold readKey
  rw [present_lookup hn h]
  cases o with
  | none => rfl
  | some a => simp [hfg]

theorem readDict_present {k : String} {parts : List (String × Option Json)} (hn : (parts.map Prod.fst).Nodup) {l : List (Str × Json)}
    (h : (k, some (.obj l)) ∈ parts) : readDict k (present parts) = some l := by
  unfold readDict
  rw [present_lookup hn h]
  rfl

theorem readValues_map {α : Type} {f : Json → Option α} {g : α → Json} (hfg : ∀ a, f (g a) = some a) (l : List (Str × α)) :
    readValues f (l.map fun kv => (kv.1, g kv.2)) = some l := by
  induction l with
  | nil => rfl
  | cons p l ih => simp [readValues, hfg, ih]

theorem readItems_map {α : Type} {f : Json → Option α} {g : α → Json} (hfg : ∀ a, f (g a) = some a) (l : List α) :
    readItems f (l.map g) = some l := by
  induction l with
  | nil => rfl
  | cons p l ih => simp [readItems, hfg, ih]

theorem flagsParts_nodup (f : EqFlags) : ((flagsParts f).map Prod.fst).Nodup :=
  (by decide : ["selected", "wasUsedForGraph", "linkTransfer"].Nodup)
theorem eqParts_nodup (q : EqDict) : ((eqParts q).map Prod.fst).Nodup := (by decide : ["style", "color", "flags", "expr"].Nodup)
theorem colorParts_nodup (d : ColorDict) : ((colorParts d).map Prod.fst).Nodup := (by decide : ["colors", "other"].Nodup)
theorem colorsParts_nodup (d : ColorDict) : ((colorsParts d).map Prod.fst).Nodup := (by decide : ["grid", "axes", "border"].Nodup)
theorem otherParts_nodup (d : ColorDict) : ((otherParts d).map Prod.fst).Nodup :=
  (by decide : ["globalLineStyle", "detectAsymptotes"].Nodup)
theorem specificParts_nodup (s : List (Str × JNum)) (q : List (Str × EqDict)) : ((specificParts s q).map Prod.fst).Nodup :=
  (by decide : ["settings", "equations"].Nodup)
theorem extParts_nodup (s : Option Bool) (q : Option Str) : ((extParts s q).map Prod.fst).Nodup := (by decide : ["showExpr", "seqMode"].Nodup)

theorem readFlags_json (f : EqFlags) : readFlags (flagsJson f) = some f := by
  have hn := flagsParts_nodup f
  unfold readFlags flagsJson
  simp only [readObj, Option.bind_eq_bind, Option.bind_some]
  rw [readKey_present (g := .bool) (fun _ => rfl) hn (o := f.selected) (by simp [flagsParts]),
    readKey_present (g := .bool) (fun _ => rfl) hn (o := f.used) (by simp [flagsParts]),
    readKey_present (g := .bool) (fun _ => rfl) hn (o := f.transfer) (by simp [flagsParts])]
  rfl

theorem readEq_json (q : EqDict) : readEq (eqJson q) = some q := by
  have hn := eqParts_nodup q
  unfold readEq eqJson
  simp only [readObj, Option.bind_eq_bind, Option.bind_some]
  rw [readKey_present (g := nameJson) readName_json hn (o := q.style) (by simp [eqParts]),
    readKey_present (g := nameJson) readName_json hn (o := q.color) (by simp [eqParts]),
    readKey_present (g := flagsJson) readFlags_json hn (o := q.flags) (by simp [eqParts]),
    readKey_present (g := .str) (fun _ => rfl) hn (o := q.expr) (by simp [eqParts])]
  rfl

theorem readColors_json (d : ColorDict) : readColors (colorJson d) = some d := by
  have hn := colorParts_nodup d
  have hc := colorsParts_nodup d
  have ho := otherParts_nodup d
  unfold readColors colorJson
  simp only [readObj, Option.bind_eq_bind, Option.bind_some]
  rw [readDict_present hn (l := present (colorsParts d)) (by simp [colorParts]),
    readDict_present hn (l := present (otherParts d)) (by simp [colorParts])]
  simp only [Option.bind_some]
  rw [readKey_present (g := nameJson) readName_json hc (o := d.grid) (by simp [colorsParts]),
    readKey_present (g := nameJson) readName_json hc (o := d.axes) (by simp [colorsParts]),
    readKey_present (g := .int) (fun _ => rfl) hc (o := d.border) (by simp [colorsParts]),
    readKey_present (g := nameJson) readName_json ho (o := d.line) (by simp [otherParts]),
    readKey_present (g := .bool) (fun _ => rfl) ho (o := d.detect) (by simp [otherParts])]
  rfl

theorem gdbParts_nodup (d : GdbDict JNum) : ((gdbParts d).map Prod.fst).Nodup :=
  (by decide : ["graphMode", "formatSettings", "extSettings", "globalWindowSettings", "seqSettings", "seqMode", "specificData",
    "global84CSettings"].Nodup)

theorem readSeq_json (s : Str) : readSeq (seqJson s) = some s := by
  show some (((List.lookup "mode".toList [("mode".toList, Json.str s)]).bind readStr).getD []) = some s
  rw [List.lookup_cons, beq_self_eq_true]
  rfl

/-- Nothing of a dictionary is lost in its value of JSON. -/
theorem readGdb_json (d : GdbDict JNum) : readGdb (present (gdbParts d)) = some d := by
  have hn := gdbParts_nodup d
  have hfmt : readKey "formatSettings" (fun j => (readArr j).bind (readItems readStr)) (present (gdbParts d)) = some (some d.format) := by
    refine readKey_present (g := fun l : List Str => .arr (l.map .str)) (o := some d.format) (fun l => ?_) hn (by simp [gdbParts])
    simp only [readArr, Option.bind_some]
    exact readItems_map (g := .str) (fun _ => rfl) l
  have hdata : ∃ data, readDict "specificData" (present (gdbParts d)) = some data ∧
      ∃ a b, readDict "settings" data = some a ∧ readValues readNum a = some d.settings ∧
        readDict "equations" data = some b ∧ readValues readEq b = some d.equations := by
    by_cases h : d.settings = [] ∧ d.equations = []
    · refine ⟨[], ?_, [], [], rfl, by rw [h.1]; rfl, rfl, by rw [h.2]; rfl⟩
      unfold readDict
      rw [present_lookup hn (o := none) (by simp [gdbParts, specificJson, h])]
    · have hs := specificParts_nodup d.settings d.equations
      exact ⟨_, readDict_present hn (l := present (specificParts d.settings d.equations)) (by simp [gdbParts, specificJson, h]), _, _,
        readDict_present hs (l := d.settings.map fun kv => (kv.1, numJson kv.2)) (by simp [specificParts, numbersJson]),
        readValues_map readNum_json _,
        readDict_present hs (l := d.equations.map fun kv => (kv.1, eqJson kv.2)) (by simp [specificParts]), readValues_map readEq_json _⟩
  obtain ⟨data, h1, a, b, h2, h3, h4, h5⟩ := hdata
  have hx := extParts_nodup d.showExpr d.extSeq
  have e1 := readKey_present (k := "graphMode") (g := nameJson) readName_json hn (o := d.mode) (by simp [gdbParts])
  have e2 := readDict_present (k := "extSettings") hn (l := present (extParts d.showExpr d.extSeq))
    (by simp [gdbParts])
  have e3 := readKey_present (k := "seqSettings") (f := readSeq) (g := seqJson) readSeq_json hn (o := d.seqSettings) (by simp [gdbParts])
  have e4 := readDict_present (k := "globalWindowSettings") hn (l := d.window.map fun kv => (kv.1, numJson kv.2))
    (by simp [gdbParts, numbersJson])
  have e5 := readKey_present (k := "global84CSettings") (g := colorJson) readColors_json hn (o := d.color) (by simp [gdbParts])
  have e6 := readKey_present (k := "seqMode") (f := readStr) (g := .str) (fun _ => rfl) hn (o := d.seqMode) (by simp [gdbParts])
  have e7 := readKey_present (k := "showExpr") (f := readBool) (g := .bool) (fun _ => rfl) hx (o := d.showExpr) (by simp [extParts])
  have e8 := readKey_present (k := "seqMode") (f := readStr) (g := .str) (fun _ => rfl) hx (o := d.extSeq) (by simp [extParts])
  unfold readGdb
  simp only [e1, hfmt, e2, e3, e4, e5, e6, e7, e8, h1, h2, h3, h4, h5, readValues_map readNum_json, Option.bind_eq_bind, Option.bind_some,
    Option.getD_some]

set_option linter.unusedSimpArgs false

/-! ### Dictionaries without keys twice -/

theorem present_keys (parts : List (String × Option Json)) :
    ((present parts).map Prod.fst).Sublist ((parts.map Prod.fst).map String.toList) := by
  induction parts with
  | nil => exact List.Sublist.slnil
  | cons p parts ih =>
    obtain ⟨k, o⟩ := p
    cases o with
    | none => exact ih.cons _
    | some j => exact ih.cons_cons _

theorem proper_present {parts : List (String × Option Json)} (hn : (parts.map Prod.fst).Nodup)
    (h : ∀ k j, (k, some j) ∈ parts → Proper j) : Proper (.obj (present parts)) := by
  simp only [Proper]
  refine ⟨(present_keys parts).nodup (hn.map fun _ _ h => String.toList_inj.1 h), ?_⟩
  clear hn
  induction parts with
  | nil => simp [present, ProperMembers]
  | cons p parts ih =>
    obtain ⟨k, o⟩ := p
    have ih := ih fun k j hkj => h k j (List.mem_cons_of_mem _ hkj)
    cases o with
    | none => exact ih
    | some j =>
      show ProperMembers ((k.toList, j) :: present parts)
      simp only [ProperMembers]
      exact ⟨h k j List.mem_cons_self, ih⟩

theorem properMembers_map {α : Type} (f : α → Json) (l : List (Str × α)) (h : ∀ kv ∈ l, Proper (f kv.2)) :
    ProperMembers (l.map fun kv => (kv.1, f kv.2)) := by
  induction l with
  | nil => simp [ProperMembers]
  | cons p l ih =>
    simp only [List.map_cons, ProperMembers]
    exact ⟨h p (by simp), ih fun kv hkv => h kv (by simp [hkv])⟩

theorem proper_name (o : Option Str) : Proper (nameJson o) := by cases o <;> simp [nameJson, Proper]

/-- An absent value or a proper one. -/
theorem proper_map {α : Type} {f : α → Json} (h : ∀ a, Proper (f a)) (o : Option α) {j : Json} (hj : some j = o.map f) : Proper j := by
  cases o with
  | none => cases hj
  | some a => obtain rfl := Option.some.inj hj; exact h a

theorem proper_bool (b : Bool) : Proper (.bool b) := by simp [Proper]
theorem proper_str (s : Str) : Proper (.str s) := by simp [Proper]
theorem proper_int (n : Int) : Proper (.int n) := by simp [Proper]

theorem proper_flags (f : EqFlags) : Proper (flagsJson f) := by
  refine proper_present (flagsParts_nodup f) fun k j h => ?_
  simp only [flagsParts, eqParts, colorParts, colorsParts, otherParts, specificParts, extParts, List.mem_cons, Prod.mk.injEq, List.not_mem_nil, or_false] at h
  rcases h with ⟨-, h⟩ | ⟨-, h⟩ | ⟨-, h⟩ <;> exact proper_map proper_bool _ h

theorem proper_eq (q : EqDict) : Proper (eqJson q) := by
  refine proper_present (eqParts_nodup q) fun k j h => ?_
  simp only [flagsParts, eqParts, colorParts, colorsParts, otherParts, specificParts, extParts, List.mem_cons, Prod.mk.injEq, List.not_mem_nil, or_false] at h
  rcases h with ⟨-, h⟩ | ⟨-, h⟩ | ⟨-, h⟩ | ⟨-, h⟩
  · exact proper_map proper_name _ h
  · exact proper_map proper_name _ h
  · exact proper_map proper_flags _ h
  · exact proper_map proper_str _ h

theorem proper_colors (d : ColorDict) : Proper (colorJson d) := by
  refine proper_present (colorParts_nodup d) fun k j h => ?_
  simp only [flagsParts, eqParts, colorParts, colorsParts, otherParts, specificParts, extParts, List.mem_cons, Prod.mk.injEq, List.not_mem_nil, or_false, Option.some.injEq] at h
  rcases h with ⟨-, rfl⟩ | ⟨-, rfl⟩
  · refine proper_present (colorsParts_nodup d) fun k j h => ?_
    simp only [flagsParts, eqParts, colorParts, colorsParts, otherParts, specificParts, extParts, List.mem_cons, Prod.mk.injEq, List.not_mem_nil, or_false] at h
    rcases h with ⟨-, h⟩ | ⟨-, h⟩ | ⟨-, h⟩
    · exact proper_map proper_name _ h
    · exact proper_map proper_name _ h
    · exact proper_map proper_int _ h
  · refine proper_present (otherParts_nodup d) fun k j h => ?_
    simp only [flagsParts, eqParts, colorParts, colorsParts, otherParts, specificParts, extParts, List.mem_cons, Prod.mk.injEq, List.not_mem_nil, or_false] at h
    rcases h with ⟨-, h⟩ | ⟨-, h⟩
    · exact proper_map proper_name _ h
    · exact proper_map proper_bool _ h

theorem proper_numbers {l : List (Str × JNum)} (h : (l.map Prod.fst).Nodup) (hf : ∀ k x, (k, JNum.float x) ∈ l → IsFloat x) :
    Proper (numbersJson l) := by
  unfold numbersJson
  simp only [Proper]
  refine ⟨by simpa [Function.comp_def] using h, properMembers_map _ _ ?_⟩
  rintro ⟨k, x⟩ hkv
  cases x with
  | float x => simp only [numJson, Proper]; exact hf k x hkv
  | int n => simp [numJson, Proper]
  | str s => simp [numJson, Proper]

theorem properItems_str (l : List Str) : ProperItems (l.map .str) := by
  induction l with
  | nil => simp [ProperItems]
  | cons s l ih => simp [ProperItems, Proper, ih]

/-- The value of JSON of a dictionary is proper. -/
theorem proper_gdb {d : GdbDict JNum} (h : ProperDict d) : Proper (gdbJson d) := by
  refine proper_present (gdbParts_nodup d) fun k j hj => ?_
  simp only [gdbParts, List.mem_cons, Prod.mk.injEq, List.not_mem_nil, or_false] at hj
  rcases hj with ⟨-, hj⟩ | ⟨-, hj⟩ | ⟨-, hj⟩ | ⟨-, hj⟩ | ⟨-, hj⟩ | ⟨-, hj⟩ | ⟨-, hj⟩ | ⟨-, hj⟩
  · exact proper_map proper_name _ hj
  · obtain rfl := Option.some.inj hj
    simp only [Proper]
    exact properItems_str _
  · obtain rfl := Option.some.inj hj
    refine proper_present (extParts_nodup _ _) fun k j h => ?_
    simp only [flagsParts, eqParts, colorParts, colorsParts, otherParts, specificParts, extParts, List.mem_cons, Prod.mk.injEq, List.not_mem_nil, or_false] at h
    rcases h with ⟨-, h⟩ | ⟨-, h⟩
    · exact proper_map proper_bool _ h
    · exact proper_map proper_str _ h
  · obtain rfl := Option.some.inj hj
    exact proper_numbers h.window fun k x hx => h.floats k x (List.mem_append_left _ hx)
  · refine proper_map (fun s => ?_) _ hj
    refine proper_present (by decide : ["mode"].Nodup) fun k j h => ?_
    simp only [flagsParts, eqParts, colorParts, colorsParts, otherParts, specificParts, extParts, List.mem_cons, Prod.mk.injEq, List.not_mem_nil, or_false, Option.some.injEq] at h
    rw [h.2]
    exact proper_str s
  · exact proper_map proper_str _ hj
  · unfold specificJson at hj
    split at hj
    · cases hj
    · obtain rfl := Option.some.inj hj
      refine proper_present (specificParts_nodup _ _) fun k j hk => ?_
      simp only [flagsParts, eqParts, colorParts, colorsParts, otherParts, specificParts, extParts, List.mem_cons, Prod.mk.injEq, List.not_mem_nil, or_false, Option.some.injEq] at hk
      rcases hk with ⟨-, rfl⟩ | ⟨-, rfl⟩
      · exact proper_numbers h.settings fun k x hx => h.floats k x (List.mem_append_right _ hx)
      · simp only [Proper]
        exact ⟨by simpa [Function.comp_def] using h.equations, properMembers_map _ _ fun kv _ => proper_eq kv.2⟩
  · exact proper_map proper_colors _ hj

/-! ### The dictionaries that databases have -/

theorem bind_res {α β : Type} {x : PyM Unit α} {f : α → PyM Unit β} {b : β} (h : ((x >>= f) ()).res = .ok b) :
    ∃ a, (x ()).res = .ok a ∧ (f a ()).res = .ok b := by
  rw [PyM.bind_run] at h
  revert h
  cases hx : x () with
  | mk r s w =>
    cases r with
    | error e => intro h; cases h
    | ok a => intro h; exact ⟨a, rfl, h⟩

theorem mapW_res {α β : Type} {f : α → PyM Unit β} {l : List α} {r : List β} (h : (mapW f l ()).res = .ok r) :
    List.Forall₂ (fun a b => (f a ()).res = .ok b) l r := by
  induction l generalizing r with
  | nil => obtain rfl := Except.ok.inj h; exact List.Forall₂.nil
  | cons a l ih =>
    unfold mapW at h
    obtain ⟨b, h1, h⟩ := bind_res h
    obtain ⟨bs, h2, h⟩ := bind_res h
    obtain rfl := Except.ok.inj h
    exact List.Forall₂.cons h1 (ih h2)

theorem numberOut_res {env : Env V} {nm : Bytes} {e : Ent} {k : Str × Str × Bool} {kv : Str × JNum}
    (h : (numberOut env nm (realIO env nm) e k ()).res = .ok kv) : kv.1 = k.1 ∧ ∀ x, kv.2 = .float x → IsFloat x := by
  unfold numberOut at h
  obtain ⟨v, -, h⟩ := bind_res h
  obtain ⟨j, h2, h⟩ := bind_res h
  obtain rfl := Except.ok.inj h
  refine ⟨rfl, ?_⟩
  rintro x hx
  simp only at hx
  subst hx
  rw [PyM.ofExcept_run] at h2
  change (if k.2.2 then (match realInt v.cls v.body with
    | .error x => Except.error x
    | .ok n => .ok (JNum.int n)) else jsonNumber v.cls v.body) = _ at h2
  split at h2
  · split at h2 <;> cases h2
  · unfold jsonNumber realFloat at h2
    split at h2
    · cases h2
    · rename_i y hy
      split at hy
      · cases hy
      · obtain rfl := Except.ok.inj hy
        have := Except.ok.inj h2
        split at this
        · obtain rfl := JNum.float.inj this
          exact floatOfDec_isFloat _
        · cases this

theorem numbers_res {env : Env V} {nm : Bytes} {e : Ent} {ks : List (Str × Str × Bool)} {r : List (Str × JNum)}
    (h : (mapW (numberOut env nm (realIO env nm) e) ks ()).res = .ok r) :
    r.map Prod.fst = ks.map Prod.fst ∧ ∀ k x, (k, JNum.float x) ∈ r → IsFloat x := by
  replace h := mapW_res h
  induction h with
  | nil => exact ⟨rfl, fun _ _ h => by cases h⟩
  | cons hab _ ih =>
    obtain ⟨h1, h2⟩ := numberOut_res hab
    obtain ⟨g1, g2⟩ := ih
    refine ⟨by rw [List.map_cons, List.map_cons, h1, g1], fun k x hkx => ?_⟩
    rcases List.mem_cons.1 hkx with hk | hk
    · exact h2 x (by rw [← hk])
    · exact g2 k x hk

theorem numberKeys_nodup (c : Cls) : ((numberKeys c).map Prod.fst).Nodup := by cases c <;> decide
theorem equationNames_nodup (c : Cls) : (equationNames c).Nodup := by cases c <;> decide

theorem zip_keys {α β : Type} : ∀ (a : List α) (b : List β), ((a.zip b).map Prod.fst).Sublist a
  | [], _ => by simp
  | a :: as, [] => by simp
  | a :: as, b :: bs => by simpa using (zip_keys as bs).cons_cons a

/-- The dictionary of a database is one that Python can have. -/
theorem gdb_proper {env : Env V} {nm : Bytes} {e : Ent} {d : GdbDict JNum}
    (h : (gdbDict env nm (realIO env nm) e ()).res = .ok d) : ProperDict d := by
  unfold gdbDict at h
  obtain ⟨mode, -, h⟩ := bind_res h
  obtain ⟨f, -, h⟩ := bind_res h
  obtain ⟨format, -, h⟩ := bind_res h
  obtain ⟨x, -, h⟩ := bind_res h
  obtain ⟨showExpr, -, h⟩ := bind_res h
  obtain ⟨window, hw, h⟩ := bind_res h
  obtain ⟨w1, w2⟩ := numbers_res hw
  have key : ∃ settings eqs, (mapW (numberOut env nm (realIO env nm) e) (numberKeys e.cls) ()).res = .ok settings ∧
      d.window = window ∧ d.settings = settings ∧ d.equations = (equationNames e.cls).zip eqs := by
    have last : ∀ extSeq seqSettings, ((do
        let settings ← mapW (numberOut env nm (realIO env nm) e) (numberKeys e.cls)
        let eqs ← mapW (GEq.dict env) (getEquations e)
        if e.cls.isSub .gdb then do
          let c ← colorsOut e
          pure (⟨some mode, format, some showExpr, extSeq, seqSettings, none, window, settings,
            (equationNames e.cls).zip eqs, some c⟩ : GdbDict JNum)
        else pure ⟨some mode, format, some showExpr, extSeq, seqSettings, none, window, settings,
            (equationNames e.cls).zip eqs, none⟩ : PyM Unit (GdbDict JNum)) ()).res = .ok d →
        ∃ settings eqs, (mapW (numberOut env nm (realIO env nm) e) (numberKeys e.cls) ()).res = .ok settings ∧
          d.window = window ∧ d.settings = settings ∧ d.equations = (equationNames e.cls).zip eqs := by
      intro extSeq seqSettings h
      obtain ⟨settings, hs, h⟩ := bind_res h
      obtain ⟨eqs, -, h⟩ := bind_res h
      refine ⟨settings, eqs, hs, ?_⟩
      split at h
      · obtain ⟨c, -, h⟩ := bind_res h
        obtain rfl := Except.ok.inj h
        exact ⟨rfl, rfl, rfl⟩
      · obtain rfl := Except.ok.inj h
        exact ⟨rfl, rfl, rfl⟩
    simp only at h
    by_cases hm : e.cls.isSub .monoSeq = true
    · rw [if_pos hm] at h
      obtain ⟨_, -, h⟩ := bind_res h
      rw [if_pos hm] at h
      obtain ⟨_, -, h⟩ := bind_res h
      obtain ⟨_, -, h⟩ := bind_res h
      exact last _ _ h
    · rw [if_neg hm] at h
      obtain ⟨_, -, h⟩ := bind_res h
      rw [if_neg hm] at h
      obtain ⟨_, -, h⟩ := bind_res h
      exact last _ _ h
  obtain ⟨settings, eqs, hs, key⟩ := key
  obtain ⟨s1, s2⟩ := numbers_res hs
  obtain ⟨k1, k2, k3⟩ := key
  refine ⟨by rw [k1, w1]; decide, by rw [k2, s1]; exact numberKeys_nodup _, ?_, ?_⟩
  · rw [k3]
    exact (zip_keys _ _).nodup (equationNames_nodup _)
  · intro k x hk
    rw [k1, k2] at hk
    rcases List.mem_append.1 hk with hk | hk
    · exact w2 k x hk
    · exact s2 k x hk

end Ent
end Verif
