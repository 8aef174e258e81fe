import Verif.Proofs.GdbConform
import Verif.Props.GdbText

/-! Property theorems about the schema of graph databases: C129. -/

namespace Verif
open Spec Ent Json
variable {V : Type} [LinearOrder V]

/-! ### Dictionaries of databases -/

/-- C129, what holds of the dictionaries that the library makes: that of a database conforms to the schema if and only if the database has
no colours, its mode and the styles and colours of its curves have names, and its sequences are not drawn as `VertWeb`. -/
theorem C129_dict_partial (env : Env V) (nm : Bytes) (e : Ent) (d : GdbDict JNum) (h : (gdbDict env nm (realIO env nm) e ()).res = .ok d) :
    ConformsTo schemaText (gdbJson d) ↔ e.cls.isSub .gdb = false ∧ d.mode ≠ some none ∧ d.seqSettings ≠ some "VertWeb".toList ∧
      ∀ kv ∈ d.equations, kv.2.style ≠ some none ∧ kv.2.color ≠ some none := by
  obtain ⟨o1, o2, o3, o4, o5, o6, o7, o8⟩ := gdb_out h
  rw [conformsTo_schema, fits_gdb]
  have named : ∀ {names : List String} {s : Option (Option Str)}, OptNamed names s → s ≠ some none := by
    rintro names s (rfl | ⟨n, -, rfl⟩) <;> simp
  constructor
  · rintro ⟨f1, f2, f3, f4, f5, f6, f7⟩
    refine ⟨?_, named f1, ?_, fun kv hkv => ⟨named (f6 kv hkv).1, named (f6 kv hkv).2⟩⟩
    · cases hc : d.color with
      | none =>
        rw [hc] at o7
        simpa using o7
      | some c => exact absurd (f7 c hc).2.2.2 (o8 c hc)
    · intro hv
      obtain ⟨n, hn, hs⟩ := f4 _ hv
      exact absurd (String.toList_inj.1 hs) ((by decide : ∀ n ∈ ["Time", "Web", "uv", "vw", "uw"], "VertWeb" ≠ n) n hn)
  · rintro ⟨g1, g2, g3, g4⟩
    refine ⟨.inr (o1.resolve_left g2), o2, o3, ?_, o5, ?_, ?_⟩
    · intro s hs
      obtain ⟨m, hm, rfl⟩ := o4 s hs
      have hne : m.1 ≠ "VertWeb" := fun h => g3 (by rw [hs, h])
      exact ⟨m.1, (by decide : ∀ m ∈ seqModeCodes, m.1 ≠ "VertWeb" → m.1 ∈ ["Time", "Web", "uv", "vw", "uw"]) m hm hne, rfl⟩
    · intro kv hkv
      obtain ⟨h1, h2⟩ := g4 kv hkv
      obtain ⟨k1, k2⟩ := o6 kv hkv
      refine ⟨.inr (k1.resolve_left h1), ?_⟩
      rcases k2 with h | h | h
      · exact .inl h
      · exact absurd h h2
      · exact .inr h
    · intro c hc
      have : e.cls.isSub .gdb = true := o7.1 (by rw [hc]; simp)
      rw [g1] at this
      cases this

/-- C129 is false of all databases with colours: their dictionary has a key that the schema does not allow. -/
theorem C129_color_false (env : Env V) (nm : Bytes) (e : Ent) (d : GdbDict JNum) (hc : e.cls ∈ [.func, .param, .polar, .seq])
    (h : (gdbDict env nm (realIO env nm) e ()).res = .ok d) : ¬ConformsTo schemaText (gdbJson d) := by
  rw [C129_dict_partial env nm e d h]
  rintro ⟨h1, -⟩
  exact absurd h1 ((by decide : ∀ c ∈ [Cls.func, .param, .polar, .seq], ¬c.isSub .gdb = false) _ hc)

/-- The database of the samples without its colours. -/
def schemaSample (style : UInt8) : Ent :=
  plotEntry .monoFunc { jsonPlot [0x00, 0x7F, 0x50, 0, 0, 0, 0, 0, 0] with
    styles := style :: List.replicate 9 0
    tail := none }

/-- A sequence database in the mode given by a byte. -/
def sequenceSample (b : UInt8) : Ent := { noData .monoSeq with body := ⟨true, (clearCalc .monoSeq).set 5 b⟩ }

/-- The condition of `C129_dict_partial`, by calculation. -/
def dictFits (e : Ent) : Bool :=
  match (gdbDict sampleEnv [0x41] (realIO sampleEnv [0x41]) e ()).res with
  | .ok d => !e.cls.isSub .gdb && decide (d.mode ≠ some none) && decide (d.seqSettings ≠ some "VertWeb".toList) &&
      d.equations.all fun kv => decide (kv.2.style ≠ some none ∧ kv.2.color ≠ some none)
  | .error _ => false

theorem dictFits_iff {e : Ent} {d : GdbDict JNum} (h : (gdbDict sampleEnv [0x41] (realIO sampleEnv [0x41]) e ()).res = .ok d) :
    dictFits e = true ↔ ConformsTo schemaText (gdbJson d) := by
  rw [C129_dict_partial _ _ _ _ h, dictFits, h]
  simp [and_assoc]

example : dictFits (schemaSample 3) = true := by decide +kernel

theorem dict_of {e : Ent} (h : (gdbDict sampleEnv [0x41] (realIO sampleEnv [0x41]) e ()).res.isOk = true) :
    ∃ d, (gdbDict sampleEnv [0x41] (realIO sampleEnv [0x41]) e ()).res = .ok d := by
  cases hr : (gdbDict sampleEnv [0x41] (realIO sampleEnv [0x41]) e ()).res with
  | ok d => exact ⟨d, rfl⟩
  | error x => rw [hr] at h; cases h

/-- C129 is false of databases with a style that has no name: the dictionary has a `null`. -/
theorem C129_style_false : ∃ d, (gdbDict sampleEnv [0x41] (realIO sampleEnv [0x41]) (schemaSample 9) ()).res = .ok d ∧
    ¬ConformsTo schemaText (gdbJson d) := by
  obtain ⟨d, hd⟩ := dict_of (e := schemaSample 9) (by decide +kernel)
  exact ⟨d, hd, fun h => absurd ((dictFits_iff hd).2 h) (by decide +kernel)⟩

/-- … and of the sequences drawn as `VertWeb`, although the library itself has that name. -/
theorem C129_vertweb_false : ∃ d, (gdbDict sampleEnv [0x41] (realIO sampleEnv [0x41]) (sequenceSample 2) ()).res = .ok d ∧
    d.seqSettings = some "VertWeb".toList ∧ ¬ConformsTo schemaText (gdbJson d) := by
  obtain ⟨d, hd⟩ := dict_of (e := sequenceSample 2) (by decide +kernel)
  have hs : (gdbDict sampleEnv [0x41] (realIO sampleEnv [0x41]) (sequenceSample 2) ()).res.map (·.seqSettings) =
    .ok (some "VertWeb".toList) := by decide +kernel
  rw [hd] at hs
  exact ⟨d, hd, Except.ok.inj hs, fun h => ((C129_dict_partial _ _ _ _ hd).1 h).2.2.1 (Except.ok.inj hs)⟩

/-! ### The default dictionaries -/

theorem default_check : ∀ c ∈ [Cls.func, .param, .polar, .seq],
    (match defaultText c with
      | some s => match loads s with
        | .ok j => checkSchema gdbSchema 9 gdbSchema j
        | .error _ => false
      | none => false) = true := by decide +kernel

/-- C129 holds of the default dictionaries: all of them conform. -/
theorem C129_default (c : Cls) (s : Str) (h : defaultText c = some s) : ∃ j, loads s = .ok j ∧ ConformsTo schemaText j := by
  have key : ∀ c' ∈ [Cls.func, .param, .polar, .seq], defaultText c' = some s → ∃ j, loads s = .ok j ∧ ConformsTo schemaText j := by
    intro c' hc' h'
    have := default_check c' hc'
    rw [h'] at this
    simp only at this
    cases hl : loads s with
    | error x =>
      rw [hl] at this
      cases this
    | ok j =>
      rw [hl] at this
      exact ⟨j, rfl, conformsTo_schema.2 (check_sound _ _ _ _ this)⟩
  unfold defaultText at h
  split at h
  · exact key .func (by decide) h
  · exact key .func (by decide) h
  · exact key .param (by decide) h
  · exact key .param (by decide) h
  · exact key .polar (by decide) h
  · exact key .polar (by decide) h
  · exact key .seq (by decide) h
  · exact key .seq (by decide) h
  · cases h

/-! ### Loading dictionaries that conform -/

/-- C129 for loading: all values of a dictionary that conforms are of the kinds that the code expects and all names in it are known (`seqMode`
at the top, which the schema does not mention, is taken to be a text). -/
theorem C129_read (kvs : List (Str × Json)) (h : ConformsTo schemaText (.obj kvs))
    (hs : ∀ j, kvs.lookup "seqMode".toList = some j → ∃ s, j = .str s) :
    ∃ d, readGdb kvs = some d ∧ SchemaFits { d with seqSettings := none } :=
  conforms_read (conformsTo_schema.1 h) hs

/-- C129 for loading, the part that holds: a text that conforms is loaded into a database of its mode, if it says everything of each equation
that it mentions, has the names of the class, has nothing about sequences, and has numbers and expressions that convert; the database
says what the text says. -/
theorem C129_load_partial (env : Env V) (trie : Trie (Tok V)) (mode : EncMode) (nm nmE : Bytes) (val : JNum → Ent) (tok : Str → Bytes) (s : Str)
    (kvs : List (Str × Json)) (d : GdbDict JNum) (e : Ent) (hl : loads s = .ok (.obj kvs)) (hconf : ConformsTo schemaText (.obj kvs))
    (hd : readGdb kvs = some d) (hc : e.cls ∈ plotClasses) (hmode : d.mode = some (some (plotMode e.cls).1.toList))
    (hseq : d.extSeq = none ∧ d.seqSettings = none ∧ d.seqMode = none)
    (hnames : ∀ kv ∈ d.settings, ∃ n ∈ fieldNames e.cls, kv.1 = n.toList)
    (hcurves : ∀ kv ∈ d.equations, (∃ n ∈ curveNames e.cls, kv.1 = n.toList) ∧
      kv.2.style ≠ none ∧ kv.2.color ≠ none ∧ kv.2.flags ≠ none ∧ kv.2.expr ≠ none)
    (hcol : d.color ≠ none → colored e.cls = true)
    (hnum : ∀ kv ∈ d.window ++ d.settings, Converts (realIO env nm) val kv.2)
    (heq : ∀ kv ∈ d.equations, ∀ t, kv.2.expr = some t → Tokenizes env trie mode tok t) :
    ∃ m p, loadGdbString env nm (equationOf env trie mode nmE) s = some m ∧
      m e = ⟨.ok (), { e with body := ⟨true, p.bytes⟩ }, (d.window ++ d.settings).flatMap (numberWarns (realIO env nm) val) ++
          d.equations.flatMap fun kv => textWarns env tok (kv.2.expr.getD [])⟩ ∧
      Says e.cls d (fun j => (val j).body.bytes) tok p := by
  have hsm : ∀ j, kvs.lookup "seqMode".toList = some j → ∃ s, j = .str s := by
    intro j hj
    by_contra hno
    have hr : readKey "seqMode" readStr kvs = none := by
      unfold readKey
      rw [hj]
      cases j with
      | str s => exact absurd ⟨s, rfl⟩ hno
      | _ => rfl
    unfold readGdb at hd
    simp only [hr, Option.bind_eq_bind, Option.bind_none, Option.bind_fun_none] at hd
    cases hd
  obtain ⟨d', hd', f1, f2, f3, f4, f5, f6, f7⟩ := C129_read kvs hconf hsm
  obtain rfl : d = d' := Option.some.inj (hd.symm.trans hd')
  have sub : ∀ {a b : List String} {o : Option (Option Str)}, (∀ n ∈ a, n ∈ b) → OptNamed a o → o ≠ none → NamedIn b o := by
    rintro a b o hab (h | ⟨n, hn, h⟩) ho
    · exact absurd h ho
    · exact ⟨n, hab n hn, h⟩
  have paints_sub : ∀ n ∈ paints, n ∈ graphColors := by decide
  have hknown : KnownGdb e.cls d := by
    refine ⟨hmode, f2, ?_, ?_, ?_, ?_⟩
    · intro s hs
      rw [hseq.1] at hs
      cases hs
    · intro kv hkv
      rcases List.mem_append.1 hkv with h | h
      · obtain ⟨n, hn, hk⟩ := f5 kv h
        exact ⟨n, (by decide : ∀ c ∈ plotClasses, ∀ n ∈ plotNames, n ∈ fieldNames c) _ hc n hn, hk⟩
      · exact hnames kv h
    · intro kv hkv
      obtain ⟨h1, h2, h3, h4, h5⟩ := hcurves kv hkv
      exact ⟨h1, sub (fun _ h => h) (f6 kv hkv).1 h2, sub paints_sub (f6 kv hkv).2 h3, h4, h5⟩
    · intro cd hcd
      obtain ⟨h1, h2, h3, h4⟩ := f7 cd hcd
      exact ⟨hcol (by rw [hcd]; simp), sub paints_sub h1, sub paints_sub h2, fun h => absurd h4 h, h3⟩
  obtain ⟨p, h1, h2⟩ := C101_load_partial env trie mode nm nmE (realIO env nm) val tok d e hc hknown (fun h => absurd hseq.2.1 h) hnum heq
  refine ⟨loadGdbDict env nm (realIO env nm) (equationOf env trie mode nmE) d, p, ?_, h1, h2⟩
  simp [loadGdbString, hl, loadGdbJson, hd]

/-- A text that conforms, by calculation. -/
theorem conforms_text_check {s : Str} (h : (match loads s with
      | .ok j => checkSchema gdbSchema 9 gdbSchema j
      | .error _ => false) = true) : ∃ j, loads s = .ok j ∧ ConformsTo schemaText j := by
  split at h
  · exact ⟨_, ‹_›, conformsTo_schema.2 (check_sound _ _ _ _ h)⟩
  · cases h

/-- Loading a text into an empty function database. -/
def loadFuncText (s : Str) : Option (Out Ent Unit) :=
  (loadGdbString sampleEnv [0x41] (equationOf sampleEnv sampleTrie .max [0x5E, 0x10]) s).map fun m => m (noData .func)

example : (loadFuncText "{\"graphMode\": \"Function\", \"globalWindowSettings\": {\"Xmin\": -2.5}}".toList).map (fun r => (r.res, r.warns)) =
    some (.ok (), []) := by decide +kernel

/-- C129 is false of loading: a dictionary that conforms, and leaves out what the schema has a default for, is refused. -/
theorem C129_load_false : ∃ s : Str, (∃ j, loads s = .ok j ∧ ConformsTo schemaText j) ∧
    (loadFuncText s).map (·.res) = some (.error .keyError) :=
  ⟨"{\"specificData\": {\"equations\": {\"Y1\": {\"style\": \"Trace\", \"color\": \"Red\", \"flags\": {}}}}}".toList,
    conforms_text_check (by decide +kernel), by decide +kernel⟩

/-- … and the style of lines that the schema has a key for is ignored without a warning. -/
theorem C129_line_false : ∃ s : Str, (∃ j, loads s = .ok j ∧ ConformsTo schemaText j) ∧
    s = "{\"global84CSettings\": {\"other\": {\"globalStyle\": \"Thin\"}}}".toList ∧
    (loadFuncText s).map (fun r => (r.res, r.warns, (viewGet lineView r.st).map (getName lineNames))) =
      some (.ok (), [], .ok (some "Thick".toList)) :=
  ⟨_, conforms_text_check (by decide +kernel), rfl, by decide +kernel⟩

end Verif
