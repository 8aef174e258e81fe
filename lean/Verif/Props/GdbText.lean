import Verif.Proofs.JsonAscii
import Verif.Proofs.GdbText
import Verif.Props.JsonGdb
import Verif.Props.Settings

/-! Property theorems about the JSON text of graph databases and settings: C125. -/

namespace Verif
open Spec Ent Json
variable {V : Type} [LinearOrder V]

/-! ### The text of JSON -/

/-- C125 for values: whatever value Python has, its text is read back as the same value, and has the characters from the space to the
tilde only. -/
theorem C125_json (j : Json) (hj : Proper j) : loads (dump j) = .ok j ∧ Printable (dump j) :=
  ⟨loads_dump j hj, printable_dump j hj⟩

/-- The other way: whatever text is read, its value is one that Python has; a text that is not read raises `ValueError`. -/
theorem C125_read (s : Str) :
    (∀ j, loads s = .ok j → Proper j ∧ loads (dump j) = .ok j) ∧ (∀ x, loads s = .error x → x = .valueError) :=
  ⟨fun j h => ⟨loads_proper h, loads_dump j (loads_proper h)⟩, fun _ h => loads_error h⟩

example : dump (.obj [("θ\n".toList, .arr [.int (-12), .float ⟨false, 1, -1⟩, .str "😀\"".toList, .null, .bool false])]) =
    "{\"\\u03b8\\n\": [-12, 0.5, \"\\ud83d\\ude00\\\"\", null, false]}".toList := by
  simp [dump, dumpMembers, dumpMoreMembers, dumpItems, dumpMoreItems]
  decide +kernel

/-! ### Graph databases -/

/-- C125 for databases: if there is a dictionary, then there is a text, and loading the text is loading the dictionary. (The dictionaries of
the base class `TIGDB` are not modelled.) -/
theorem C125_text (env : Env V) (nm : Bytes) (eq : Str → PyM Unit Ent) (e : Ent) (d : GdbDict JNum) (ws : List Warn)
    (h : gdbDict env nm (realIO env nm) e () = ⟨.ok d, (), ws⟩) :
    ∃ s, gdbText env nm e () = ⟨.ok s, (), ws⟩ ∧ Printable s ∧
      loadGdbString env nm eq s = some (loadGdbDict env nm (realIO env nm) eq d) := by
  have hp : Proper (gdbJson d) := proper_gdb (gdb_proper (env := env) (nm := nm) (e := e) (by rw [h]))
  refine ⟨dump (gdbJson d), ?_, printable_dump _ hp, ?_⟩
  · unfold gdbText
    rw [PyM.bind_ok h]
    simp
  · unfold loadGdbString
    rw [loads_dump _ hp]
    show (readGdb (present (gdbParts d))).map _ = _
    rw [readGdb_json]
    rfl

/-- C125 for the bytes of databases, the part that holds: the text of a plain function, parametric or polar database whose numbers each have
six digits or more or are floats, and whose resolution is a whole number from 1 to 8, loads back into any database of the same class: all
bytes are the same. What is missing of databases is said at C102 and C120. -/
theorem C125_back_partial (env : Env V) (trie : Trie (Tok V)) (mode : EncMode) (nm nmE : Bytes) (p : Plot) (e e' : Ent)
    (hc : e.cls ∈ [.func, .param, .polar]) (hcls : e'.cls = e.cls) (hb : e.body = ⟨true, p.bytes⟩) (hp : PlainPlot e.cls p)
    (hnum : ∀ (i : Nat) (n : String), (fieldNames e.cls)[i]? = some n → JsonField n (fieldBytes e.cls i p.head)) :
    ∃ s m, gdbText env nm e () = ⟨.ok s, (), []⟩ ∧ loadGdbString env nm (equationOf env trie mode nmE) s = some m ∧
      m e' = ⟨.ok (), { e' with body := e.body }, []⟩ := by
  obtain ⟨d, h1, h2⟩ := C120_gdb_partial env trie mode nm nmE p e e' hc hcls hb hp hnum
  obtain ⟨s, h3, -, h4⟩ := C125_text env nm (equationOf env trie mode nmE) e d [] h1
  exact ⟨s, _, h3, h4, h2⟩

/-- The text of a database loaded back into it. -/
def textReload (e : Ent) : Option (Out Ent Unit) :=
  match gdbText sampleEnv [0x41] e () with
  | ⟨.ok s, _, _⟩ => (loadGdbString sampleEnv [0x41] (equationOf sampleEnv sampleTrie .max [0x5E, 0x10]) s).map fun m => m e
  | ⟨.error _, _, _⟩ => none

example : textReload (plotEntry .func (jsonPlot [0x00, 0x7F, 0x50, 0, 0, 0, 0, 0, 0])) =
    some ⟨.ok (), plotEntry .func (jsonPlot [0x00, 0x7F, 0x50, 0, 0, 0, 0, 0, 0]), []⟩ := by decide +kernel

example : (gdbText sampleEnv [0x41] (plotEntry .func (jsonPlot [0x00, 0x7F, 0x50, 0, 0, 0, 0, 0, 0])) ()).res.map (·.take 138) =
    .ok ("{\"graphMode\": \"Function\", \"formatSettings\": [\"Dot\", \"Sequential\", \"GridOn\", " ++
      "\"RectGC\", \"CoordOff\", \"AxesOff\", \"LabelOff\"], \"extSettings\": {").toList := by decide +kernel

/-- A text that is no JSON raises `ValueError` and leaves the database as it was. -/
theorem C125_invalid (env : Env V) (nm : Bytes) (eq : Str → PyM Unit Ent) (s : Str) (x : PyErr) (h : loads s = .error x) (e : Ent) :
    ∃ m, loadGdbString env nm eq s = some m ∧ m e = ⟨.error .valueError, e, []⟩ := by
  refine ⟨PyM.raise x, ?_, ?_⟩
  · unfold loadGdbString
    rw [h]
  · rw [loads_error h]
    rfl

/-- A list, a text, a number or a truth value raises `AttributeError`, but the database has been emptied before. -/
theorem C125_emptied (env : Env V) (nm : Bytes) (eq : Str → PyM Unit Ent) (s : Str) (j : Json) (h : loads s = .ok j) (hn : j ≠ .null)
    (ho : ∀ kvs, j ≠ .obj kvs) (e : Ent) :
    ∃ m, loadGdbString env nm eq s = some m ∧ m e = ⟨.error .attributeError, { e with body := ⟨true, clearCalc e.cls⟩ }, []⟩ := by
  unfold loadGdbString
  rw [h]
  cases j with
  | null => exact absurd rfl hn
  | obj kvs => exact absurd rfl (ho kvs)
  | _ => exact ⟨_, rfl, rfl⟩

/-- C125 is false of texts that are refused: not all of them leave the database as it was. -/
theorem C125_emptied_false : ∃ (s : Str) (e e' : Ent), e ≠ e' ∧
    (loadGdbString sampleEnv [0x41] (equationOf sampleEnv sampleTrie .max [0x5E, 0x10]) s).map (fun m => m e) =
      some ⟨.error .attributeError, e', []⟩ := by
  refine ⟨"[1, 2]".toList, plotEntry .func (jsonPlot [0x00, 0x7F, 0x50, 0, 0, 0, 0, 0, 0]),
    { plotEntry .func (jsonPlot [0x00, 0x7F, 0x50, 0, 0, 0, 0, 0, 0]) with body := ⟨true, clearCalc .func⟩ }, by decide +kernel, ?_⟩
  obtain ⟨m, h1, h2⟩ := C125_emptied sampleEnv [0x41] (equationOf sampleEnv sampleTrie .max [0x5E, 0x10]) "[1, 2]".toList (.arr [.int 1, .int 2])
    (by rfl) (by simp) (by simp) (plotEntry .func (jsonPlot [0x00, 0x7F, 0x50, 0, 0, 0, 0, 0, 0]))
  rw [h1]
  exact congrArg some h2

/-! ### Settings -/

/-- C125 is false of settings: the text of settings can never be loaded. -/
theorem C125_settings_false (env : Env V) (nm : Bytes) (e e' : Ent) (hc : e.cls ∈ settingsClasses) (s : Str)
    (h : (settingsText env nm e ()).res = .ok s) :
    ∃ m, loadSettingsString env nm s = some m ∧ m e' = ⟨.error .valueError, e', []⟩ := by
  unfold settingsText at h
  obtain ⟨d, h1, h⟩ := bind_res h
  obtain rfl := Except.ok.inj h
  obtain ⟨k1, k2⟩ := numbers_res h1
  have k1' : d.map Prod.fst = settingsKeys e.cls := by rw [k1]; simp [settingsKeys]
  have hnd : (settingsKeys e.cls).Nodup := by
    simp only [settingsClasses, List.mem_cons, List.not_mem_nil, or_false] at hc
    rcases hc with h | h | h <;> rw [h] <;> decide
  have hp : Proper (numbersJson d) := proper_numbers (by rw [k1']; exact hnd) k2
  refine ⟨loadKeys (settingsKeys e.cls), ?_, ?_⟩
  · unfold loadSettingsString
    rw [loads_dump _ hp]
    show some (loadKeys ((d.map fun kv => (kv.1, numJson kv.2)).map Prod.fst)) = _
    rw [List.map_map, ← k1']
    rfl
  · simp only [settingsClasses, List.mem_cons, List.not_mem_nil, or_false] at hc
    rcases hc with h | h | h <;> rw [h] <;> rfl

/-- Table settings: the start -3 and the step 2. -/
def exTableSettings : Ent :=
  { noData .tableSettings with
    body := ⟨true, [0x12, 0x00, 0x80, 0x80, 0x30, 0, 0, 0, 0, 0, 0, 0x00, 0x80, 0x20, 0, 0, 0, 0, 0, 0]⟩ }

example : (settingsText sampleEnv [0x41] exTableSettings ()).res = .ok "{\"TblMin\": -3, \"DeltaTbl\": 2}".toList := by decide +kernel

/-- Not even a list of pairs can be loaded, as soon as one of the names is that of a field: a number raises `NotImplementedError` and a text
`ValueError`. -/
theorem C125_pairs_false (env : Env V) (nm : Bytes) (e : Ent) (kvs : List (Str × JNum)) (kv : Str × JNum) (hkv : kv ∈ kvs)
    (hk : kv.1 ∈ (graphFields e.cls).map Prod.fst) :
    (loadPairs env nm kvs e).st = e ∧ ∃ x, (loadPairs env nm kvs e).res = .error x := by
  induction kvs with
  | nil => cases hkv
  | cons p kvs ih =>
    unfold loadPairs
    rw [PyM.bind_run]
    simp only [PyM.get_run]
    cases hl : (graphFields e.cls).lookup p.1 with
    | none =>
      have hmem : kv ∈ kvs := by
        rcases List.mem_cons.1 hkv with rfl | h
        · obtain ⟨f, hf, hfk⟩ := List.mem_map.1 hk
          exact absurd (List.lookup_eq_none_iff.1 hl f hf) (by rw [hfk]; simp)
        · exact h
      simp only [PyM.bind_run, PyM.warn_run]
      exact ih hmem
    | some f =>
      simp only [PyM.bind_run, PyM.lift_run]
      cases hg : getField env nm p.1 e () with
      | mk r s ws =>
        cases r with
        | error x => exact ⟨rfl, x, rfl⟩
        | ok v =>
          obtain ⟨k, j⟩ := p
          cases j <;> exact ⟨rfl, _, rfl⟩

example : (loadSettingsString sampleEnv [0x41] "[[\"TblMin\", 5]]".toList).map (fun m => m exTableSettings) =
    some ⟨.error .notImplementedError, exTableSettings, []⟩ := by decide +kernel

end Verif
