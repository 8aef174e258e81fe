import Verif.Proofs.GdbEq
import Verif.Props.Gdb
import Verif.Spec.Sample

/-! Property theorems about the dictionaries of graphed equations and graph databases: C99 – C101. -/

namespace Verif
open Spec
open Ent
variable {V : Type} [LinearOrder V]

/-! ### C99 – loading a dictionary into a graphed equation -/

/-- C99: a dictionary in which everything is known makes any equation the one it describes: the codes of style and
colour, the flags, and the tokens of its text with their length; the warnings are those of decoding the tokens, given
twice. -/
theorem C99_load (env : Env V) (trie : Trie (Tok V)) (mode : EncMode) (nm : Bytes) {q : EqDict} (hq : KnownEq q)
    {acc : EncAcc V} (henc : encode env.initial trie mode (q.expr.getD []) = some (.ok acc))
    (hn : acc.data.length < 65536) {g : GEq} (hg : g.body ≠ []) :
    loadEqDict (equationOf env trie mode nm) q g = ⟨.ok (), ⟨[codeIn graphStyles q.style],
        [codeIn graphColors q.color],
        (PlotEq.mk (eqFlagByte (q.flags.getD ⟨none, none, none⟩)) acc.data).bytes⟩,
      (decode env.initial env.table acc.data).warns ++ (decode env.initial env.table acc.data).warns⟩ := by
  obtain ⟨s, hrun, hb⟩ := equationOf_run env trie mode nm henc hn
  refine loadEqDict_run (tok := fun _ => acc.data) (ws := fun _ => (decode env.initial env.table acc.data).warns ++
    (decode env.initial env.table acc.data).warns) hq ?_ hg
  intro t ht
  rw [ht] at hrun
  exact ⟨s, hrun, hb⟩

/-- The tokens of the sample environment, each with its name. -/
def sampleTrie : Trie (Tok Nat) := Trie.fromTokens (sampleTable.map fun t => (t, t.names))

/-- A dictionary of an equation with the text `ʟA`. -/
def sampleEquation : EqDict :=
  ⟨some (some "Trace".toList), some (some "Navy".toList), some ⟨some true, none, some false⟩, some "ʟA".toList⟩

example : KnownEq sampleEquation :=
  ⟨⟨"Trace", by decide, rfl⟩, ⟨"Navy", by decide, rfl⟩, by decide, by decide⟩

example : loadEqDict (equationOf sampleEnv sampleTrie .max [0x5E, 0x10]) sampleEquation
    freshEquation = ⟨.ok (), ⟨[4], [8], [0x23, 2, 0, 0xEB, 0x41]⟩, []⟩ := by decide +kernel

/-- The error a name that is absent, `null` or unknown leads to. -/
def nameError : Option (Option Str) → PyErr
  | none => .keyError
  | some none => .typeError
  | some (some _) => .attributeError

theorem lookup_unknown {α : Type} {names : List (Str × α)} {l : List String}
    (h : names.map Prod.fst = l.map String.toList) {s : Str} (hs : ¬NamedIn l (some (some s))) :
    names.lookup s = none := by
  refine List.lookup_eq_none_iff.mpr fun kv hkv => ?_
  have : kv.1 ∈ names.map Prod.fst := List.mem_map_of_mem hkv
  rw [h] at this
  obtain ⟨n, hn, he⟩ := List.mem_map.mp this
  exact bne_iff_ne.mpr fun hc => hs ⟨n, hn, by rw [he, hc]⟩

theorem name_refused {α : Type} {names : List (Str × Int)} {l : List String}
    (h : names.map Prod.fst = l.map String.toList) {s : Option (Option Str)} (hs : ¬NamedIn l s)
    (f : Int → PyM GEq α) (g : GEq) :
    (do
      let s ← PyM.ofExcept (getKey s)
      let v ← PyM.ofExcept (getAttr names s)
      f v : PyM GEq α) g = ⟨.error (nameError s), g, []⟩ := by
  rcases s with _ | _ | s
  · exact PyM.bind_error rfl
  · rw [show getKey (some (none : Option Str)) = .ok none from rfl, PyM.bind_ok (PyM.ofExcept_run _ _)]
    rw [PyM.bind_error (show PyM.ofExcept (getAttr names none) g = ⟨.error .typeError, g, []⟩ from rfl)]
    rfl
  · rw [show getKey (some (some s)) = .ok (some s) from rfl, PyM.bind_ok (PyM.ofExcept_run _ _)]
    have : getAttr names (some s) = .error .attributeError := by
      simp only [getAttr, lookup_unknown h hs]
    rw [PyM.bind_error (e := .attributeError) (s' := g) (w := []) (by rw [this]; rfl)]
    rfl

/-- C99, dictionaries that are refused: the first thing missing or unknown, in the order style, colour, text, flags,
raises an error, and what comes before it has been stored. -/
theorem C99_refused (eq : Str → PyM Unit Ent) (q : EqDict) (g : GEq) :
    (¬NamedIn graphStyles q.style → loadEqDict eq q g = ⟨.error (nameError q.style), g, []⟩) ∧
    (NamedIn graphStyles q.style →
      (¬NamedIn graphColors q.color → loadEqDict eq q g =
        ⟨.error (nameError q.color), { g with style := [codeIn graphStyles q.style] }, []⟩) ∧
      (NamedIn graphColors q.color → ∃ g' : GEq, g' = ⟨[codeIn graphStyles q.style], [codeIn graphColors q.color], g.body⟩ ∧
        (q.expr = none → loadEqDict eq q g = ⟨.error .keyError, g', []⟩) ∧
        (∀ t x w, q.expr = some t → eq t () = ⟨.error x, (), w⟩ → loadEqDict eq q g = ⟨.error x, g', w⟩) ∧
        (∀ t s w, q.expr = some t → eq t () = ⟨.ok s, (), w⟩ → q.flags = none →
          loadEqDict eq q g = ⟨.error .keyError, loadEquation g' s, w⟩))) := by
  refine ⟨fun h => name_refused (by decide) h _ g, fun hst => ⟨fun h => ?_, fun hco => ⟨_, rfl, ?_, ?_, ?_⟩⟩⟩
  · obtain ⟨sn, hsn, hs⟩ := hst
    obtain ⟨sv, hsv, hsl, hsn', hslt⟩ := styles_table sn hsn
    unfold loadEqDict
    rw [getKey_some hs, PyM.bind_ok (PyM.ofExcept_run _ _),
      show getAttr styleNames (some sn.toList) = .ok sv by simp only [getAttr, hsl],
      PyM.bind_ok (PyM.ofExcept_run _ _), PyM.bind_ok (putStyle_run hsv hsn' hslt _),
      name_refused (by decide) h _ _]
    simp only [hs, codeIn, List.append_nil]
  all_goals
    obtain ⟨sn, hsn, hs⟩ := hst
    obtain ⟨cn, hcn, hc⟩ := hco
    obtain ⟨sv, hsv, hsl, hsn', hslt⟩ := styles_table sn hsn
    obtain ⟨cv, hcv, hcl, hcn', hclt⟩ := colors_table cn hcn
    have hpre : ∀ f : PyM GEq Unit, (do
        let s ← PyM.ofExcept (getKey q.style)
        let v ← PyM.ofExcept (getAttr styleNames s)
        putStyle v
        let s ← PyM.ofExcept (getKey q.color)
        let v ← PyM.ofExcept (getAttr colorNames s)
        putColor v
        f) g = f ⟨[codeIn graphStyles q.style], [codeIn graphColors q.color], g.body⟩ := by
      intro f
      rw [getKey_some hs, PyM.bind_ok (PyM.ofExcept_run _ _),
        show getAttr styleNames (some sn.toList) = .ok sv by simp only [getAttr, hsl],
        PyM.bind_ok (PyM.ofExcept_run _ _), PyM.bind_ok (putStyle_run hsv hsn' hslt _),
        getKey_some hc, PyM.bind_ok (PyM.ofExcept_run _ _),
        show getAttr colorNames (some cn.toList) = .ok cv by simp only [getAttr, hcl],
        PyM.bind_ok (PyM.ofExcept_run _ _), PyM.bind_ok (putColor_run hcv hcn' hclt _)]
      simp only [hs, hc, codeIn, List.nil_append]
  · intro h
    unfold loadEqDict
    rw [hpre, h]
    exact PyM.bind_error rfl
  · intro t x w h he
    unfold loadEqDict
    rw [hpre, getKey_some h, PyM.bind_ok (PyM.ofExcept_run _ _),
      PyM.bind_error (e := x) (w := w) (by rw [PyM.lift_run, he])]
    rfl
  · intro t s w h he hf
    unfold loadEqDict
    rw [hpre, getKey_some h, PyM.bind_ok (PyM.ofExcept_run _ _),
      PyM.bind_ok (a := s) (w := w) (by rw [PyM.lift_run, he]), PyM.bind_ok (PyM.modify_run _ _), hf,
      PyM.bind_error (show PyM.ofExcept (getKey (none : Option EqFlags)) _ = ⟨.error .keyError, _, []⟩ from rfl)]
    simp

example : loadEqDict (equationOf sampleEnv sampleTrie .max [0x5E, 0x10])
    { sampleEquation with color := some (some "Pink".toList) } freshEquation =
      ⟨.error .attributeError, { freshEquation with style := [4] }, []⟩ := by decide +kernel

/-! ### C100 – the dictionary of a graphed equation -/

/-- C100 is false of the code: the text in the dictionary of an equation starts with an escape for the upper byte of
its length, with a warning about null bytes, … -/
theorem C100_text_false (env : Env V) (st co fl b : UInt8) (hb : b ≠ 0) (rest : Bytes)
    (hn : (b :: rest).length < 256) :
    ∃ d w, GEq.dict env ⟨[st], [co], (PlotEq.mk fl (b :: rest)).bytes⟩ () = ⟨.ok d, (), .nullBytes :: w⟩ ∧
      d.expr = some (escapeOf [0x00] ++ (decode env.initial env.table (b :: rest)).out.flatMap Tok.display) ∧
      w = (decode env.initial env.table (b :: rest)).warns := by
  have hbytes : (PlotEq.mk fl (b :: rest)).bytes =
      fl :: (UInt8.ofNat (b :: rest).length :: 0x00 :: b :: rest) := by
    simp only [PlotEq.bytes, toLE]
    rw [Nat.div_eq_of_lt hn]
    simp
  obtain ⟨h1, h2⟩ := decode_null env.initial env.table hb rest
  rw [hbytes, eqDict_run]
  simp only [List.drop_succ_cons, List.drop_zero, h1, h2]
  exact ⟨_, _, rfl, rfl, rfl⟩

/-- … so that loading it back puts a null byte before the tokens. -/
theorem C100_reload_false :
    let g : GEq := ⟨[4], [8], (PlotEq.mk 0x23 [0xEB, 0x41]).bytes⟩
    ∃ d w w', GEq.dict sampleEnv g () = ⟨.ok d, (), w⟩ ∧
      loadEqDict (equationOf sampleEnv sampleTrie .max [0x5E, 0x10]) d g =
        ⟨.ok (), ⟨[4], [8], (PlotEq.mk 0x23 [0x00, 0xEB, 0x41]).bytes⟩, w'⟩ :=
  ⟨_, _, [.nullBytes, .nullBytes], rfl, by decide +kernel⟩

/-- C100 is also false of the code for equations without a colour: the colour is left out of the dictionary, and
loading it raises an error after the style has been stored. -/
theorem C100_mono_false (env : Env V) (eq : Str → PyM Unit Ent) (st fl : UInt8) (hst : st.toNat < 7) (rest : Bytes)
    (g : GEq) :
    ∃ d w, GEq.dict env ⟨[st], [0x00], fl :: rest⟩ () = ⟨.ok d, (), w⟩ ∧
      loadEqDict eq d g = ⟨.error .keyError, { g with style := [st] }, []⟩ := by
  refine ⟨_, _, eqDict_run env st 0x00 fl rest, ?_⟩
  have hname : ∀ n : Nat, n < 7 → ∃ m ∈ graphStyles, (graphStyles[n]?).map String.toList = some m.toList ∧
      UInt8.ofNat ((graphStyles.map String.toList).idxOf m.toList) = UInt8.ofNat n := by decide +kernel
  obtain ⟨m, hm, h1, h2⟩ := hname _ hst
  have h := ((C99_refused eq ⟨some ((graphStyles[st.toNat]?).map String.toList),
      if (0x00 : UInt8) = 0x00 then none else some ((graphColors[(0x00 : UInt8).toNat]?).map String.toList),
      some ⟨some (fl.toNat.testBit 5), some (fl.toNat.testBit 6), some (fl.toNat.testBit 7)⟩,
      some ((decode env.initial env.table (rest.drop 1)).out.flatMap Tok.display)⟩ g).2
    ⟨m, hm, by simp only [h1]⟩).1 (by rintro ⟨_, _, h⟩; simp at h)
  rw [h]
  simp only [h1, codeIn, h2, UInt8.ofNat_toNat, if_true, nameError]

/-- C100, the part that holds: an equation without tokens, with a style and a colour that are known and with the
low bits of the flags every equation has, is loaded back from its dictionary into any equation. Missing: equations
with tokens and those without a colour, see above. -/
theorem C100_reload_partial (env : Env V) (trie : Trie (Tok V)) (mode : EncMode) (nm : Bytes) (st co fl : UInt8)
    (hst : st.toNat < 7) (hco : 1 ≤ co.toNat ∧ co.toNat < 16) (hfl : fl.toNat % 32 = 3) {g : GEq}
    (hg : g.body ≠ []) :
    ∃ d, GEq.dict env ⟨[st], [co], (PlotEq.mk fl []).bytes⟩ () = ⟨.ok d, (), []⟩ ∧
      loadEqDict (equationOf env trie mode nm) d g = ⟨.ok (), ⟨[st], [co], (PlotEq.mk fl []).bytes⟩, []⟩ := by
  have hstyle : ∀ n : Nat, n < 7 → ∃ m ∈ graphStyles, (graphStyles[n]?).map String.toList = some m.toList ∧
      UInt8.ofNat ((graphStyles.map String.toList).idxOf m.toList) = UInt8.ofNat n := by decide +kernel
  have hcolor : ∀ n : Nat, n < 16 → ∃ m ∈ graphColors, (graphColors[n]?).map String.toList = some m.toList ∧
      UInt8.ofNat ((graphColors.map String.toList).idxOf m.toList) = UInt8.ofNat n := by decide +kernel
  have hflags : ∀ n : Nat, n < 256 → n % 32 = 3 → eqFlagByte ⟨some (n.testBit 5), some (n.testBit 6),
      some (n.testBit 7)⟩ = UInt8.ofNat n := by decide +kernel
  obtain ⟨m, hm, h1, h2⟩ := hstyle _ hst
  obtain ⟨k, hk, h3, h4⟩ := hcolor _ hco.2
  have hne : co ≠ 0x00 := by rintro rfl; simp at hco
  have hdec : (decode env.initial env.table (([0, 0] : Bytes).drop 1)) = ⟨[], env.initial, []⟩ := rfl
  have hbytes : (PlotEq.mk fl []).bytes = fl :: [0, 0] := by
    simp [PlotEq.bytes, toLE]
  refine ⟨_, by rw [hbytes, eqDict_run, hdec], ?_⟩
  rw [C99_load env trie mode nm (acc := ⟨[], env.initial, 0, [mode.start]⟩) ⟨⟨m, hm, by simp only [h1]⟩,
      ⟨k, hk, by simp only [if_neg hne, h3]⟩, by simp, by simp⟩ rfl (by simp) hg]
  simp only [h1, h3, if_neg hne, codeIn, h2, h4, UInt8.ofNat_toNat, Option.getD_some,
    hflags _ (show fl.toNat < 256 from fl.toNat_lt) hfl]
  rfl

example : GEq.dict sampleEnv ⟨[2], [15], [0x63, 0, 0]⟩ () =
    ⟨.ok ⟨some (some "ShadeAbove".toList), some (some "DarkGray".toList), some ⟨some true, some true, some false⟩,
      some []⟩, (), []⟩ := by decide +kernel

/-! ### C101 – loading a dictionary into a database -/

/-- The text has tokens. -/
def Tokenizes (env : Env V) (trie : Trie (Tok V)) (mode : EncMode) (tok : Str → Bytes) (t : Str) : Prop :=
  ∃ acc, encode env.initial trie mode t = some (.ok acc) ∧ acc.data = tok t ∧ (tok t).length < 65536

/-- The warnings due when the text is made an equation. -/
def textWarns (env : Env V) (tok : Str → Bytes) (t : Str) : List Warn :=
  (decode env.initial env.table (tok t)).warns ++ (decode env.initial env.table (tok t)).warns

theorem parses_text (env : Env V) (trie : Trie (Tok V)) (mode : EncMode) (nm : Bytes) {tok : Str → Bytes} {t : Str}
    (h : Tokenizes env trie mode tok t) : Parses (equationOf env trie mode nm) tok (textWarns env tok) t := by
  obtain ⟨acc, henc, hd, hn⟩ := h
  obtain ⟨s, hrun, hb⟩ := equationOf_run env trie mode nm henc (by rw [hd]; exact hn)
  rw [hd] at hrun hb
  exact ⟨s, hrun, hb, hn⟩

/-- C101, the part that holds: a dictionary in which everything is known, whose mode is that of the class of the
database and which has colours only if the database has, makes any database of that class, whatever it was before,
the one it describes: mode, format, settings of expressions and sequences, numbers, equations and colours are what
it says, everything it does not mention is zero, and the class is kept. The warnings are those of storing the
numbers and of decoding the tokens of the equations. Missing: dictionaries of another mode, colours for a database
without, and the dictionaries of sequences the library itself writes, see below; for unknown names see C111. -/
theorem C101_load_partial (env : Env V) (trie : Trie (Tok V)) (mode : EncMode) (nm nmE : Bytes) {J : Type}
    (io : NumIO J) (val : J → Ent) (tok : Str → Bytes) (d : GdbDict J) (e : Ent) (hc : e.cls ∈ plotClasses)
    (hd : KnownGdb e.cls d) (hs : KnownSeq e.cls d) (hnum : ∀ kv ∈ d.window ++ d.settings, Converts io val kv.2)
    (heq : ∀ kv ∈ d.equations, ∀ t, kv.2.expr = some t → Tokenizes env trie mode tok t) :
    ∃ p, loadGdbDict env nm io (equationOf env trie mode nmE) d e = ⟨.ok (), { e with body := ⟨true, p.bytes⟩ },
        (d.window ++ d.settings).flatMap (numberWarns io val) ++
          d.equations.flatMap fun kv => textWarns env tok (kv.2.expr.getD [])⟩ ∧
      Says e.cls d (fun j => (val j).body.bytes) tok p :=
  loadGdbDict_run env nm hc hd hs hnum fun kv hkv t ht => parses_text env trie mode nmE (heq kv hkv t ht)

/-- Numbers of JSON that are the bytes of a number. -/
def sampleIO : NumIO Bytes where
  real b := pure ⟨.real, [0x0D, 0x00], [0x00], List.replicate 8 0x41, [0x00], [0x00], ⟨true, b⟩⟩
  json e := .ok e.body.bytes
  int e := .ok e.body.bytes
  num _ := .ok (1, true)

/-- A dictionary of a polar database with one equation and colours. -/
def sampleDict : GdbDict Bytes where
  mode := some (some "Polar".toList)
  format := ["Dot".toList, "GridLine".toList, "LabelOn".toList, "Connected".toList]
  showExpr := some false
  extSeq := none
  seqSettings := none
  seqMode := none
  window := [("Xmin".toList, [0x80, 0x81, 0x15, 0, 0, 0, 0, 0, 0])]
  settings := [("Thetastep".toList, [0x00, 0x7F, 0x25, 0, 0, 0, 0, 0, 0])]
  equations := [("r2".toList, sampleEquation)]
  color := some ⟨some (some "Red".toList), none, some 3, some (some "Thin".toList), some false⟩

/-- A database of each class with no data. -/
def noData (c : Cls) : Ent := ⟨c, [0x0D, 0x00], [0x08], List.replicate 8 0x41, [0x00], [0x00], ⟨true, []⟩⟩

/-- Everything in it is known. -/
theorem sampleDict_known : KnownGdb .polar sampleDict ∧ KnownSeq .polar sampleDict :=
  ⟨⟨rfl, by decide, by decide, by decide, by
    intro kv hkv
    rw [List.mem_singleton.mp hkv]
    exact ⟨by decide, ⟨"Trace", by decide, rfl⟩, ⟨"Navy", by decide, rfl⟩, by decide, by decide⟩, by
    rintro cd ⟨⟩
    exact ⟨rfl, fun _ => ⟨"Red", by decide, rfl⟩, fun h => absurd rfl h, fun _ => ⟨"Thin", by decide, rfl⟩, by decide⟩⟩,
  fun h => absurd rfl h⟩

/-- Loading into the sample databases. -/
def loadSample (d : GdbDict Bytes) (c : Cls) : Out Ent Unit :=
  loadGdbDict sampleEnv [0x41] sampleIO (equationOf sampleEnv sampleTrie .max [0x5E, 0x10]) d (noData c)

example : let e' := (loadSample sampleDict .polar).st
    loadSample sampleDict .polar = ⟨.ok (), e', []⟩ ∧ e'.cls = .polar ∧
    e'.body.bytes.take 16 = [124, 0, 0, 0x20, 0xC4, 0, 1, 0x80, 0x81, 0x15, 0, 0, 0, 0, 0, 0] ∧
    (getEquations e')[1]? = some ⟨[4], [8], [0x23, 2, 0, 0xEB, 0x41]⟩ ∧
    (getEquations e')[2]? = some ⟨[0], [0], [0, 0, 0]⟩ ∧
    e'.body.bytes.drop (e'.body.bytes.length - 14) = [0x38, 0x34, 0x43, 0, 8, 0, 0, 0, 0, 2, 0, 2, 3, 1] := by
  decide +kernel

/-- C101 is false of the code for dictionaries of sequences: their mode is looked up under a key that the
dictionaries of the library do not have, so that loading one with settings of sequences raises an error. -/
theorem C101_sequence_false (env : Env V) (trie : Trie (Tok V)) (mode : EncMode) (nm nmE : Bytes) {J : Type}
    (io : NumIO J) (val : J → Ent) (tok : Str → Bytes) (d : GdbDict J) (e : Ent) (hc : e.cls = .seq ∨ e.cls = .monoSeq)
    (hd : KnownGdb e.cls d) (hs : d.seqSettings ≠ none) (hs' : d.seqMode = none)
    (hnum : ∀ kv ∈ d.window ++ d.settings, Converts io val kv.2)
    (heq : ∀ kv ∈ d.equations, ∀ t, kv.2.expr = some t → Tokenizes env trie mode tok t) :
    (loadGdbDict env nm io (equationOf env trie mode nmE) d e).res = .error .keyError := by
  have hc' : e.cls ∈ plotClasses := by rcases hc with h | h <;> rw [h] <;> decide
  have hm : (plotMode e.cls).1 = "Sequence" := by rcases hc with h | h <;> rw [h] <;> rfl
  obtain ⟨p, hrun, hp, h6, -⟩ := start_run env nm hc' hd (fun _ => hm) hnum
    fun kv hkv t ht => parses_text env trie mode nmE (heq kv hkv t ht)
  rw [hrun]
  have hseq : ∃ e', loadSequence d (onPlot e p) = ⟨.error .keyError, e', []⟩ := by
    refine ⟨onPlot e { p with head := p.head.set 6 (extByte d.showExpr d.extSeq) }, ?_⟩
    rw [loadSequence_eq d (putForm_run (fun s h => (hd.form s h).2) hc' hp h6), hs']
    obtain ⟨s, hs⟩ := Option.ne_none_iff_exists'.mp hs
    rw [hs]
    exact PyM.bind_error rfl
  obtain ⟨e', he'⟩ := hseq
  unfold loadSpecific
  rw [PyM.bind_ok (PyM.get_run _)]
  rcases hc with h | h
  · simp only [onPlot, h]
    simp only [onPlot, h] at he'
    rw [PyM.bind_error he']
  · simp only [onPlot, h]
    simp only [onPlot, h] at he'
    rw [he']

theorem plotFits_length {p : Plot} {c : Cls} (hp : p.Fits c) :
    fieldStart c (fieldNames c).length + styleCount c + 3 * equationCount c ≤ p.bytes.length := by
  have h : 3 * p.eqs.length ≤ (p.eqs.flatMap PlotEq.bytes).length := by
    generalize p.eqs = l
    induction l with
    | nil => simp
    | cons q l ih =>
      simp only [List.flatMap_cons, List.length_append, List.length_cons, PlotEq.bytes, length_toLE]
      omega
  have h1 := hp.head
  have h2 := hp.styles
  have h3 := hp.eqs
  unfold Plot.bytes
  simp only [List.length_append]
  omega

/-- C101 is false of the code for databases without colours: a dictionary with colours makes it a database with
colours without making room for them, so that they are written over the equations, … -/
theorem C101_colors_false : let e' := (loadSample sampleDict .monoPolar).st
    loadSample sampleDict .monoPolar = ⟨.ok (), e', []⟩ ∧
    e'.cls = .polar ∧ (getEquations e')[1]? = some ⟨[4], [0], [0x23, 2, 0, 0x38, 0x34]⟩ ∧
    (getEquations e')[2]? = some ⟨[0], [0], [0x43, 0, 0]⟩ := by
  decide +kernel

/-- … and a dictionary of another mode changes the class, but leaves the data of the size of the old one. -/
theorem C101_mode_false : let d := { sampleDict with color := none, settings := [], equations := [] }
    let e' := (loadSample d .monoFunc).st
    loadSample d .monoFunc = ⟨.ok (), e', []⟩ ∧ e'.cls = .monoPolar ∧
      ∀ p : Plot, p.Fits .monoPolar → e'.body.bytes ≠ p.bytes := by
  refine ⟨by decide +kernel, by decide +kernel, ?_⟩
  intro p hp h
  have := plotFits_length hp
  rw [← h] at this
  exact absurd this (by decide +kernel)

end Verif
