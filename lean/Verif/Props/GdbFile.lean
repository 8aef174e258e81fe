import Verif.Props.GdbDict
import Verif.Props.Opening
import Verif.Props.ValueFile

/-! Properties of loading a dictionary into a graph database that is then saved: C145. -/

namespace Verif
open Spec Ent
variable {V : Type} [LinearOrder V]

/-- The number of bytes of the equations of a dictionary. -/
def saidTokens {J : Type} (c : Cls) (d : GdbDict J) (tok : Str → Bytes) : Nat :=
  ((curveNames c).map fun n => (((lastFor n.toList d.equations).map fun q => tok (q.expr.getD [])).getD []).length).sum

/-- The equations of a database described by a dictionary. -/
theorem said_eqs {J : Type} {c : Cls} {d : GdbDict J} {val : J → Bytes} {tok : Str → Bytes} {p : Plot} (hc : c ∈ plotClasses)
    (hs : Says c d val tok p) :
    p.eqs = (curveNames c).map fun n => ((lastFor n.toList d.equations).map (saidCurve tok)).getD ⟨0x00, []⟩ := by
  have hl : (curveNames c).length = equationCount c := by revert hc; cases c <;> decide
  apply List.ext_getElem?
  intro i
  rcases h : (curveNames c)[i]? with _ | n
  · rw [List.getElem?_map, h, Option.map_none, List.getElem?_eq_none_iff, hs.fits.eqs, ← hl]
    exact List.getElem?_eq_none_iff.1 h
  · rw [List.getElem?_map, h, hs.curves i n h]
    rfl

/-- Its size. -/
theorem said_length {J : Type} {c : Cls} {d : GdbDict J} {val : J → Bytes} {tok : Str → Bytes} {p : Plot} (hc : c ∈ plotClasses)
    (hs : Says c d val tok p) : p.bytes.length = 2 + emptySize c + saidTokens c d tok := by
  have hl : (curveNames c).length = equationCount c := by revert hc; cases c <;> decide
  have h7 : 2 ≤ fieldStart c (fieldNames c).length := by revert hc; cases c <;> decide
  have heq : (p.eqs.flatMap PlotEq.bytes).length = 3 * equationCount c + saidTokens c d tok := by
    rw [said_eqs hc hs, ← hl]
    unfold saidTokens
    generalize curveNames c = l
    induction l with
    | nil => rfl
    | cons n l ih =>
      simp only [List.map_cons, List.flatMap_cons, List.length_append, ih, List.sum_cons, List.length_cons, PlotEq.bytes,
        length_toLE]
      rcases lastFor n.toList d.equations with _ | q
      · simp
        omega
      · simp [saidCurve]
        omega
  have ht : (tailBytes p.tail).length = if colored c then 8 + styleCount c else 0 := by
    rcases hcol : colored c with _ | _
    · rw [hs.mono hcol]
      rfl
    · obtain ⟨t, ht, -⟩ := hs.colors hcol
      obtain ⟨h1, h2, h3⟩ := hs.fits.tail t ht
      rw [ht]
      simp only [tailBytes, ColorPart.bytes, List.length_append, h1, h2, h3, if_true]
      omega
  unfold Plot.bytes emptySize
  rw [List.length_append, List.length_append, List.length_append, heq, ht, hs.fits.head, hs.fits.styles]
  omega

/-- A database described by a dictionary has the class that its content asks for. -/
theorem said_settled (env : Env V) {J : Type} {e : Ent} {d : GdbDict J} {val : J → Bytes} {tok : Str → Bytes} {p : Plot}
    (hc : e.cls ∈ plotClasses) (ht : e.cls.typeId = some (fromLE e.typeId)) (hb : e.body.bytes = p.bytes)
    (hs : Says e.cls d val tok p) : Settled env e := by
  refine ⟨ht, ?_⟩
  have h7 : 4 ≤ p.head.length := by
    rw [hs.fits.head]
    revert hc; cases e.cls <;> decide
  have hmode : e.body.bytes.getD 3 0 = Spec.modeByte e.cls := by
    have h4 : p.bytes.take 4 = p.head.take 4 := by
      unfold Plot.bytes
      rw [List.append_assoc, List.append_assoc, List.take_append_of_le_length h7]
    have h3 : p.bytes.getD 3 0 = (p.bytes.take 4).getD 3 0 := by
      rw [List.getD_eq_getElem?_getD, List.getD_eq_getElem?_getD, List.getElem?_take_of_lt (by omega)]
    rw [hb, h3, h4, hs.start]
    revert hc
    cases e.cls <;> decide
  rcases hcol : colored e.cls with _ | _
  · have hm : e.cls ∈ [Cls.monoFunc, .monoParam, .monoPolar, .monoSeq] := by revert hc hcol; cases e.cls <;> decide
    refine Or.inr (Or.inr (Or.inr (Or.inr (Or.inr (Or.inr (Or.inr (Or.inr (Or.inr ⟨hm, hmode, ?_⟩))))))))
    rw [colorData_plot hc hs.fits hb, hs.mono hcol]
    rfl
  · have hm : e.cls ∈ [Cls.func, .param, .polar, .seq] := by revert hc hcol; cases e.cls <;> decide
    exact Or.inr (Or.inr (Or.inr (Or.inr (Or.inr (Or.inr (Or.inr (Or.inr (Or.inl ⟨hm, hmode⟩))))))))

/-! ### C145 – a graph database described by a dictionary comes back from its file -/

/-- **C145, the part that holds**: a dictionary in which everything is known is loaded into a graph database of its mode, the
database is saved and opened with its class: what is opened is the database that the dictionary describes, and the only
warnings are those of a version the class does not have and, if there are any equations, of the length field. Missing: the
length field, see below, and databases whose version and archive flag read as their length. -/
theorem C145_file_partial (env : OsEnv V) (ord : Model → Nat) (trie : Trie (Tok V)) (mode : EncMode) (nm nmE nmG : Bytes) {J : Type}
    (io : NumIO J) (val : J → Ent) (tok : Str → Bytes) (d : GdbDict J) (e : Ent) (name filename : Str) (fs : Files)
    (hc : e.cls ∈ plotClasses) (hr : Ready e) (hd : KnownGdb e.cls d) (hs : KnownSeq e.cls d)
    (hnum : ∀ kv ∈ d.window ++ d.settings, Converts io val kv.2)
    (heq : ∀ kv ∈ d.equations, ∀ t, kv.2.expr = some t → Tokenizes env.toEnv trie mode tok t)
    (hlen : emptySize e.cls + saidTokens e.cls d tok + 19 < 65536)
    (hno : fromLE (e.version ++ e.archived) ≠ 2 + emptySize e.cls + saidTokens e.cls d tok) (hdot : '.' ∉ filename) :
    ∃ p e' ws, loadGdbDict env.toEnv nm io (equationOf env.toEnv trie mode nmE) d e = ⟨.ok (), e', ws⟩ ∧
      Says e.cls d (fun j => (val j).body.bytes) tok p ∧ e' = { e with body := ⟨true, p.bytes⟩ } ∧
      ∃ fs' ws₁, e'.save env ord name filename none none fs = ⟨.ok (), fs', ws₁⟩ ∧
        (∀ n, n ≠ pathOf name filename e.cls.extensions.1 → fs' n = fs n) ∧
        openAs env.toEnv e.cls nmG (pathOf name filename e.cls.extensions.1) fs' =
          ⟨.ok e', fs', ((new env.toEnv e.cls { name := nmG } []) ()).warns ++
            (if e.cls.versions = [0x00] ∨ fromLE e.version ∈ e.cls.versions then [] else [.versionUnrec]) ++
            (if saidTokens e.cls d tok = 0 then [] else [.sizedLength])⟩ := by
  obtain ⟨p, hrun, hsays⟩ := C101_load_partial env.toEnv trie mode nm nmE io val tok d e hc hd hs hnum heq
  have hpl := said_length hc hsays
  have hset : Settled env.toEnv { e with body := ⟨true, p.bytes⟩ } :=
    said_settled env.toEnv (e := { e with body := ⟨true, p.bytes⟩ }) hc hr.typed rfl hsays
  generalize he' : ({ e with body := ⟨true, p.bytes⟩ } : Ent) = e' at hset hrun
  have hcls : e'.cls = e.cls := by rw [← he']
  have hb : e'.body = ⟨true, p.bytes⟩ := by rw [← he']
  have hbl : e'.body.bytes.length = 2 + emptySize e.cls + saidTokens e.cls d tok := by rw [hb]; exact hpl
  have hv : e'.version = e.version := by rw [← he']
  have ha : e'.archived = e.archived := by rw [← he']
  have hm : e'.metaLen = [0x0D, 0x00] := by rw [← he']; exact hr.flash
  have hw : WF e' := by
    rw [← he'] at hbl ⊢
    exact ⟨⟨Or.inr hr.flash, hr.wf.typeId, hr.wf.name, hr.wf.version, hr.wf.archived⟩, hr.wf.flag,
      fun h => absurd (hr.flash.symm.trans h) (by decide), by omega⟩
  have hl : e'.len < 65536 := by
    unfold Ent.len Ent.metaLength Ent.calcLength
    rw [hm]
    simp [fromLE]
    omega
  obtain ⟨fs', ws₁, h1, h2, h3, -⟩ := C144_open env ord e' name filename nmG fs hw
    (fun _ h => hno (by rw [← hv, ← ha, ← hbl]; exact h)) hset (fun h => by rw [h] at hbl; simp at hbl; omega) hl hdot
  rw [hcls] at h2 h3
  refine ⟨p, e', _, hrun, hsays, he'.symm, fs', ws₁, h1, h2, ?_⟩
  rw [h3]
  have hself : ({ e' with body := ⟨true, e'.body.bytes⟩ } : Ent) = e' := by rw [← he']
  rw [hcls] at hself
  have htake : fromLE (e'.body.bytes.take 2) = emptySize e.cls := by
    have h4 : p.bytes.take 4 = p.head.take 4 := by
      unfold Plot.bytes
      rw [List.append_assoc, List.append_assoc, List.take_append_of_le_length]
      rw [hsays.fits.head]
      revert hc; cases e.cls <;> decide
    have h2' : p.bytes.take 2 = (p.bytes.take 4).take 2 := by rw [List.take_take]; rfl
    rw [hb, h2', h4, hsays.start, List.take_left' (length_toLE 2 _)]
    exact fromLE_toLE_of_lt (by omega)
  have hwarn : openingWarnings env.toEnv e' =
      (if e.cls.versions = [0x00] ∨ fromLE e.version ∈ e.cls.versions then [] else [.versionUnrec]) ++
            (if saidTokens e.cls d tok = 0 then [] else [.sizedLength]) := by
    have hnot : e.cls ∈ measuredClasses ∧ e.cls ∉ plainTokenClasses ∧ e.cls ≠ .realList ∧ e.cls ≠ .complexList ∧ e.cls ≠ .matrix := by
      revert hc; cases e.cls <;> decide
    obtain ⟨n1, n2, n3, n4, n5⟩ := hnot
    unfold openingWarnings loadWarnings dataWarnings
    rw [hcls, hm, hv, htake, hbl]
    have hf : ¬(([0x0D, 0x00] : Bytes) = [0x0B, 0x00]) := by decide
    simp only [n1, n2, n3, n4, n5, hf, false_and, true_and, if_false, List.append_nil]
    congr 1
    · by_cases hh : e.cls.versions = [0x00] ∨ fromLE e.version ∈ e.cls.versions
      · rw [if_pos hh, if_neg (by tauto)]
      · rw [if_neg hh, if_pos (by tauto)]
    · by_cases hz : saidTokens e.cls d tok = 0
      · rw [if_pos hz, if_neg (by omega)]
      · rw [if_neg hz, if_pos (by omega)]
  rw [hself, hwarn, List.append_assoc]

/-- The sample database, saved and opened: the database, whether it is the same, and the warnings. -/
def plotAgain : Bool × List Warn :=
  match loadGdbDict exOs.toEnv [0x41] sampleIO (equationOf exOs.toEnv sampleTrie .max [0x5E, 0x10]) sampleDict (noData .polar) with
  | ⟨.ok (), e, _⟩ =>
    match e.save exOs (fun _ => 0) "P".toList [] none none (fun _ => none) with
    | ⟨.ok (), fs, _⟩ =>
      match openAs exOs.toEnv .polar [0x61] "P.8xd".toList fs with
      | ⟨.ok o, _, ws⟩ => (o == e, ws)
      | _ => (false, [])
    | _ => (false, [])
  | _ => (false, [])

/-- **C145 is false** of the length field: a dictionary with an equation makes a database whose length field is that of a database
without tokens, so that opening its file reports an unexpected length. -/
theorem C145_length_false : KnownGdb .polar sampleDict ∧ Ready (noData .polar) ∧
    plotAgain.1 = true ∧ .sizedLength ∈ plotAgain.2 := by
  refine ⟨?_, ?_, ?_, ?_⟩
  · exact sampleDict_known.1
  · exact ⟨⟨⟨Or.inr rfl, rfl, rfl, rfl, rfl⟩, Or.inl rfl, fun h => absurd h (by decide), by decide⟩, rfl, rfl, rfl⟩
  · decide +kernel
  · decide +kernel

end Verif
