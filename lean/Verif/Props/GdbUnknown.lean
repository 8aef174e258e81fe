import Verif.Proofs.GdbUnknown
import Verif.Props.GdbDict

/-! Property theorems about what a dictionary of a graph database has too much: C111. -/

namespace Verif
open Spec Ent
variable {V : Type} [LinearOrder V]

/-- C111: names that mean nothing for the kind of database only give warnings. Whatever the dictionary and the
conversions, loading it ends like loading the dictionary without them, with the same result and the same database, and
if it succeeds there is one warning more for each of them. The names of settings that belong to other bytes are left
out here, see below. -/
theorem C111_unknown (env : Env V) (nm : Bytes) {J : Type} (io : NumIO J) (eq : Str → PyM Unit Ent) (d : GdbDict J)
    (e : Ent) (hc : e.cls ∈ plotClasses) (hf : ∀ s ∈ d.format, nameIn otherFlags s = false) :
    (loadGdbDict env nm io eq d e).res = (loadGdbDict env nm io eq (onlyKnown e.cls d) e).res ∧
    (loadGdbDict env nm io eq d e).st = (loadGdbDict env nm io eq (onlyKnown e.cls d) e).st ∧
    (loadGdbDict env nm io eq (onlyKnown e.cls d) e).warns.Sublist (loadGdbDict env nm io eq d e).warns ∧
    ((loadGdbDict env nm io eq d e).res = .ok () → (loadGdbDict env nm io eq d e).warns.Perm
      ((loadGdbDict env nm io eq (onlyKnown e.cls d) e).warns ++ unknownWarns e.cls d)) :=
  let h := loadGdbDict_unknown env nm io eq d e hc hf
  ⟨h.res, h.st, h.sub, h.perm ()⟩

/-- C111, what is loaded: a dictionary that is known apart from names that mean nothing makes any database of its kind
the one that the rest of it describes. -/
theorem C111_load (env : Env V) (trie : Trie (Tok V)) (mode : EncMode) (nm nmE : Bytes) {J : Type}
    (io : NumIO J) (val : J → Ent) (tok : Str → Bytes) (d : GdbDict J) (e : Ent) (hc : e.cls ∈ plotClasses)
    (hf : ∀ s ∈ d.format, nameIn otherFlags s = false)
    (hd : KnownGdb e.cls (onlyKnown e.cls d)) (hs : KnownSeq e.cls d)
    (hnum : ∀ kv ∈ d.window ++ d.settings, nameIn (fieldNames e.cls) kv.1 = true → Converts io val kv.2)
    (heq : ∀ kv ∈ d.equations, nameIn (curveNames e.cls) kv.1 = true → ∀ t, kv.2.expr = some t →
      Tokenizes env trie mode tok t) :
    ∃ p w, loadGdbDict env nm io (equationOf env trie mode nmE) d e = ⟨.ok (), { e with body := ⟨true, p.bytes⟩ }, w⟩ ∧
      w.Perm (((onlyKnown e.cls d).window ++ (onlyKnown e.cls d).settings).flatMap (numberWarns io val) ++
        (onlyKnown e.cls d).equations.flatMap (fun kv => textWarns env tok (kv.2.expr.getD [])) ++
        unknownWarns e.cls d) ∧
      Says e.cls (onlyKnown e.cls d) (fun j => (val j).body.bytes) tok p := by
  obtain ⟨p, hrun, hp⟩ := C101_load_partial env trie mode nm nmE io val tok (onlyKnown e.cls d) e hc hd hs
    (fun kv hkv => by
      rcases List.mem_append.1 hkv with h | h
      · exact hnum kv (List.mem_append_left _ (List.mem_filter.1 h).1) (List.mem_filter.1 h).2
      · exact hnum kv (List.mem_append_right _ (List.mem_filter.1 h).1) (List.mem_filter.1 h).2)
    (fun kv hkv => heq kv (List.mem_filter.1 hkv).1 (List.mem_filter.1 hkv).2)
  obtain ⟨h1, h2, h3, h4⟩ := C111_unknown env nm io (equationOf env trie mode nmE) d e hc hf
  rw [hrun] at h1 h2 h3 h4
  refine ⟨p, _, ?_, h4 h1, hp⟩
  generalize loadGdbDict env nm io (equationOf env trie mode nmE) d e = o at h1 h2
  obtain ⟨r, t, w⟩ := o
  simp only at h1 h2
  rw [h1, h2]

/-- The dictionary of a polar database with five names that mean nothing for it. -/
def strangeDict : GdbDict Bytes :=
  { sampleDict with
    format := ["Dot".toList, "Grid".toList, "LabelOn".toList]
    window := [("Xmin".toList, [0x80, 0x81, 0x15, 0, 0, 0, 0, 0, 0]), ("Xstep".toList, [])]
    settings := [("Tmin".toList, [])]
    equations := [("r2".toList, sampleEquation), ("r7".toList, sampleEquation), ("Y1".toList, sampleEquation)] }

example : let o := loadSample strangeDict .polar
    o.res = .ok () ∧ o.warns = [.gdbFormat, .settingUnknown, .settingUnknown, .gdbEquation, .gdbEquation] ∧
    unknownWarns .polar strangeDict = o.warns ∧ o.st = (loadSample (onlyKnown .polar strangeDict) .polar).st ∧
    (onlyKnown .polar strangeDict).equations.map Prod.fst = ["r2".toList] := by
  decide +kernel

/-- C111, settings of sequences in a dictionary of another mode: they only give one warning. -/
theorem C111_sequence (env : Env V) (trie : Trie (Tok V)) (mode : EncMode) (nm nmE : Bytes) {J : Type}
    (io : NumIO J) (val : J → Ent) (tok : Str → Bytes) (d : GdbDict J) (e : Ent) (hc : e.cls ∈ plotClasses)
    (hm : (plotMode e.cls).1 ≠ "Sequence") (hset : d.extSeq ≠ none ∨ d.seqSettings ≠ none)
    (hd : KnownGdb e.cls { d with extSeq := none, seqSettings := none })
    (hnum : ∀ kv ∈ d.window ++ d.settings, Converts io val kv.2)
    (heq : ∀ kv ∈ d.equations, ∀ t, kv.2.expr = some t → Tokenizes env trie mode tok t) :
    ∃ p, loadGdbDict env nm io (equationOf env trie mode nmE) d e = ⟨.ok (), { e with body := ⟨true, p.bytes⟩ },
        .gdbSequence :: (d.window ++ d.settings).flatMap (numberWarns io val) ++
          d.equations.flatMap fun kv => textWarns env tok (kv.2.expr.getD [])⟩ ∧
      Says e.cls { d with extSeq := none, seqSettings := none } (fun j => (val j).body.bytes) tok p := by
  obtain ⟨hmode, -⟩ := mode_table _ hc
  have hne : ∀ c ∈ plotClasses, (plotMode c).1 ≠ "Sequence" → (plotMode c).2 ≠ 0x80 ∧ c ≠ .seq ∧ c ≠ .monoSeq := by
    decide +kernel
  obtain ⟨h80, h1, h2⟩ := hne _ hc hm
  have hdm : d.mode = some (some (plotMode e.cls).1.toList) := hd.mode
  refine whole_run env nm (x := none) (q := none) hc hd (fun h => absurd rfl h) (wq := [.gdbSequence]) ?_ ?_ hnum
    fun kv hkv t ht => parses_text env trie mode nmE (heq kv hkv t ht)
  · intro e'
    unfold checkSequence
    rw [hdm, hmode, if_pos ⟨h80, hset⟩, if_neg (by simp)]
    rfl
  · intro p
    unfold loadSpecific
    rw [PyM.bind_ok (PyM.get_run _), PyM.bind_ok (PyM.get_run _)]
    generalize hk : (onPlot e p).cls = k
    have : k = e.cls := hk.symm
    cases k <;> first | rfl | exact absurd this.symm h1 | exact absurd this.symm h2

example : let o := loadSample { sampleDict with extSeq := some "SEQ(n+1)".toList, seqSettings := some [] } .polar
    o.res = .ok () ∧ o.warns = [.gdbSequence] ∧ o.st = (loadSample sampleDict .polar).st := by decide +kernel

/-- C111, settings of sequences in a dictionary of another mode that also has names that mean nothing: one warning for the settings of
sequences and one for each of the names. -/
theorem C111_sequence_unknown (env : Env V) (trie : Trie (Tok V)) (mode : EncMode) (nm nmE : Bytes) {J : Type}
    (io : NumIO J) (val : J → Ent) (tok : Str → Bytes) (d : GdbDict J) (e : Ent) (hc : e.cls ∈ plotClasses)
    (hm : (plotMode e.cls).1 ≠ "Sequence") (hset : d.extSeq ≠ none ∨ d.seqSettings ≠ none)
    (hf : ∀ s ∈ d.format, nameIn otherFlags s = false)
    (hd : KnownGdb e.cls (onlyKnown e.cls { d with extSeq := none, seqSettings := none }))
    (hnum : ∀ kv ∈ d.window ++ d.settings, nameIn (fieldNames e.cls) kv.1 = true → Converts io val kv.2)
    (heq : ∀ kv ∈ d.equations, nameIn (curveNames e.cls) kv.1 = true → ∀ t, kv.2.expr = some t →
      Tokenizes env trie mode tok t) :
    ∃ p w, loadGdbDict env nm io (equationOf env trie mode nmE) d e = ⟨.ok (), { e with body := ⟨true, p.bytes⟩ }, w⟩ ∧
      w.Perm (.gdbSequence :: (((onlyKnown e.cls d).window ++ (onlyKnown e.cls d).settings).flatMap (numberWarns io val) ++
        (onlyKnown e.cls d).equations.flatMap (fun kv => textWarns env tok (kv.2.expr.getD [])) ++
        unknownWarns e.cls d)) ∧
      Says e.cls (onlyKnown e.cls { d with extSeq := none, seqSettings := none }) (fun j => (val j).body.bytes) tok p := by
  obtain ⟨p, hrun, hp⟩ := C111_sequence env trie mode nm nmE io val tok (onlyKnown e.cls d) e hc hm hset hd
    (fun kv hkv => by
      rcases List.mem_append.1 hkv with h | h
      · exact hnum kv (List.mem_append_left _ (List.mem_filter.1 h).1) (List.mem_filter.1 h).2
      · exact hnum kv (List.mem_append_right _ (List.mem_filter.1 h).1) (List.mem_filter.1 h).2)
    (fun kv hkv => heq kv (List.mem_filter.1 hkv).1 (List.mem_filter.1 hkv).2)
  obtain ⟨h1, h2, h3, h4⟩ := C111_unknown env nm io (equationOf env trie mode nmE) d e hc hf
  rw [hrun] at h1 h2 h3 h4
  refine ⟨p, _, ?_, h4 h1, hp⟩
  generalize loadGdbDict env nm io (equationOf env trie mode nmE) d e = o at h1 h2
  obtain ⟨r, t, w⟩ := o
  simp only at h1 h2
  rw [h1, h2]

example : let o := loadSample { strangeDict with extSeq := some "SEQ(n+1)".toList, seqSettings := some [] } .polar
    o.res = .ok () ∧ o.warns = [.gdbFormat, .gdbSequence, .settingUnknown, .settingUnknown, .gdbEquation, .gdbEquation] ∧
    o.st = (loadSample (onlyKnown .polar strangeDict) .polar).st := by decide +kernel

/-- C111, settings of sequences in a dictionary whose mode is `null`: the warning itself fails, after the format
settings have been stored. -/
theorem C111_null (env : Env V) (nm : Bytes) {J : Type} (io : NumIO J) (eq : Str → PyM Unit Ent) (d : GdbDict J)
    (e : Ent) (hc : e.cls ∈ plotClasses) (hmode : d.mode = some none) (hset : d.extSeq ≠ none ∨ d.seqSettings ≠ none)
    (hf : ∀ s ∈ d.format, ∃ f ∈ formatBits, s = f.1.toList) :
    ∃ p : Plot, p.Fits e.cls ∧ loadGdbDict env nm io eq d e =
        ⟨.error .attributeError, { e with body := ⟨true, p.bytes⟩ }, []⟩ ∧
      ∀ k < 8, ((p.head.getD 4 0).toNat.testBit k) = formatBit k d.format false := by
  obtain ⟨b0, hb0⟩ : ∃ b0, b0 = blankPlot e.cls 0x00 := ⟨_, rfl⟩
  have hfit0 : b0.Fits e.cls := by rw [hb0]; exact blank_fits hc _
  obtain ⟨bh1, bh2, bh4, bh5, bh6, bh3⟩ := blank_head e.cls 0x00
  rw [← hb0] at bh4 bh6
  have hlen0 := length_plot_head hc hfit0
  obtain ⟨b4, f1, f2⟩ := formats_run hc d.format hf b0 hfit0
  obtain ⟨p1, hp1⟩ : ∃ p1, p1 = ({ b0 with head := b0.head.set 4 b4 } : Plot) := ⟨_, rfl⟩
  rw [← hp1] at f1
  have hfit1 : p1.Fits e.cls := by rw [hp1]; exact head_fits hfit0 (by simp)
  have p1h : p1.head = b0.head.set 4 b4 := by rw [hp1]
  have g1 := putShowExpr_run hc hfit1 (by rw [p1h, getD_set_ne (by omega), bh6]) d.showExpr
  refine ⟨{ p1 with head := p1.head.set 6 (extByte d.showExpr none) }, head_fits hfit1 (by simp), ?_, ?_⟩
  · unfold loadGdbDict
    rw [clear_run hc, hmode, show modeByte (some none) = 0x00 from rfl, ← hb0, PyM.bind_ok f1, PyM.bind_ok g1,
      PyM.bind_error (e := .attributeError) (w := [])]
    · rfl
    · unfold checkSequence
      rw [hmode, if_pos ⟨by decide, hset⟩, if_pos rfl]
      rfl
  · intro k hk
    simp only
    rw [getD_set_ne (by omega), p1h, getD_set_self (by omega), f2 k hk, bh4]
    simp

example : (loadSample { sampleDict with mode := some none, extSeq := some [] } .polar).res = .error .attributeError := by
  decide +kernel

/-- C111 is false of the code for the names of settings that belong to other bytes: among the format settings they are
taken for the format settings that have the same bits, without a warning. Switching off the detection of asymptotes or
the display of expressions there makes the curves dotted, … -/
theorem C111_flags_false (env : Env V) (nm : Bytes) {J : Type} (io : NumIO J) (eq : Str → PyM Unit Ent) (d : GdbDict J)
    (pre post : List Str) (s : Str) (hs : s = "ExprOff".toList ∨ s = "DetectAsymptotesOff".toList) :
    loadGdbDict env nm io eq { d with format := pre ++ s :: post } =
      loadGdbDict env nm io eq { d with format := pre ++ "Dot".toList :: post } := by
  have h : loadFormat s = loadFormat "Dot".toList := by rcases hs with rfl | rfl <;> rfl
  have : ∀ l : List Str, eachM loadFormat (l ++ s :: post) = eachM loadFormat (l ++ "Dot".toList :: post) := by
    intro l
    induction l with
    | nil => simp only [List.nil_append, eachM, h]
    | cons a l ih => simp only [List.cons_append, eachM, ih]
  unfold loadGdbDict
  simp only [this]
  rfl

/-- … and the forms of sequences there switch the simultaneous drawing and the grid. -/
theorem C111_forms_false : ∀ c ∈ plotClasses,
    ∀ sb ∈ [("SEQ_np1".toList, (0x02 : UInt8)), ("SEQ_np2".toList, 0x04)],
    let d : GdbDict Bytes := ⟨some (some (plotMode c).1.toList), [sb.1], none, none, none, none, [], [], [], none⟩
    (loadSample d c).res = .ok () ∧ (loadSample d c).warns = [] ∧ (loadSample d c).st.body.bytes.getD 4 0 = sb.2 := by
  decide +kernel

end Verif
