import Verif.Proofs.Reload
import Verif.Proofs.OpenAny
import Verif.Props.Support
import Verif.Props.OpenFault
/-! Reading, writing and reading again. -/
namespace Verif
open Spec Ent
variable {V : Type} [LinearOrder V]

/-- C149, the part that holds: let any bytes that are all there be loaded into an entry, and let the type they end up with be
steady. Then the entry can be written, and loading what is written into any entry of the class that was loaded into gives the very
same entry; this time there is nothing to complain about in the lengths, the header or the presence of the flash bytes. -/
theorem C149_reload_partial (env : Env V) (data : Bytes) (e₀ e : Ent) (ws : List Warn) (hc : e₀.cls ∉ baseOnly)
    (hall : AllThere data) (hs : Steady e₀.cls (typeIn data) (dataIn data)) (h : load env data e₀ = ⟨.ok (), e, ws⟩) :
    ∃ b, e.bytes = .ok b ∧ ∀ e₀' : Ent, e₀'.cls = e₀.cls → ∃ ws', load env b e₀' = ⟨.ok (), e, ws'⟩ ∧
      ∀ w ∈ ws', w ∉ layoutWarns := by
  obtain ⟨e₁, ws₀, h0, hsec, hfl, hno, ⟨t, ht, htt⟩, hbody, hbase⟩ := loadBase_all env data e₀ hall
  have hmut : e₁.body.mutable = true := by rw [hbody]
  have hbytes : e₁.body.bytes = dataIn data := by rw [hbody]
  have hset : ∀ e' w, coerce env e₁ = ⟨.ok (), e', w⟩ → Settles env e₁ e' := fun e' w h' =>
    settles env ht hmut (by rw [h0]; exact hc) (by rw [h0, htt, hbytes]; exact hs) h'
  obtain ⟨v, hv⟩ := length_one hsec.version
  obtain ⟨w, hco⟩ := load_ok_coerce env hv (fun e' ⟨w, h'⟩ => (hset e' w h').1.2.2.1) hbase h
  obtain ⟨⟨hm, hn, hve, ha, ⟨t', ht'⟩, hmu, hle⟩, w2, hco2⟩ := hset e w hco
  have hsec' : Sections e := ⟨by rw [hm]; exact hsec.metaLen, by rw [ht']; rfl, by rw [hn]; exact hsec.name,
    by rw [hve]; exact hsec.version, by rw [ha]; exact hsec.archived⟩
  have hlen : e.body.bytes.length ≤ 65535 := by rw [hle, hbytes]; exact dataIn_length data
  have hfl' : e.metaLen = [0x0B, 0x00] → e.version = [0x00] ∧ e.archived = [0x00] := by rw [hm, hve, ha]; exact hfl
  have hno' : e.metaLen = [0x0D, 0x00] → ¬FlashIsLength e := by
    unfold FlashIsLength at hno ⊢
    rw [hm, hve, ha, hle]; exact hno
  obtain ⟨b, -, hb, -⟩ := loadBase_written env hsec' hfl' hlen hno' e₀
  refine ⟨b, hb, fun e₀' hc' => ?_⟩
  obtain ⟨b', w3, hb', hl3, hw3⟩ := loadBase_written env hsec' hfl' hlen hno' e₀'
  rw [hb] at hb'
  injection hb' with hb'
  subst hb'
  have he : ({ e with cls := e₀'.cls, body := ⟨true, e.body.bytes⟩ } : Ent) = { e with cls := e₁.cls } := by
    rw [hc', ← h0]
    cases e with | mk c m t n v a b => cases b; cases hmu; rfl
  rw [he, finish_of_coerce env hco2 (hve.trans hv) (metaLen_iff (metaLen_length hsec'))] at hl3
  obtain ⟨w4, hl4, hw4⟩ := load_any env hl3 (hve.trans hv)
  refine ⟨_, hl4, ?_⟩
  have hcalm := coerce_calm env (e := { e with cls := e₁.cls }) ht' hmu
  rw [hco2] at hcalm
  have hsub : ∀ w ∈ layoutWarns, w ∈ corruption := by decide
  intro x hx
  simp only [List.mem_append] at hx
  rcases hx with (hx | hx | hx) | hx
  · rcases hw3 x hx with rfl | hx
    · decide
    · revert hx
      unfold checkType
      repeat' split
      all_goals simp (config := { contextual := true }) [layoutWarns]
  · exact (hcalm x hx).1
  · exact fun h' => loadWarnings_ok _ _ _ x hx (hsub x h')
  · exact fun h' => hw4 x hx (hsub x h')

/-- A program whose second length field is wrong and whose archived flag is odd: read again, only the flag is reported. -/
example :
    let r := load sampleEnv [0x0D, 0, 3, 0, 5, 0x41, 0, 0, 0, 0, 0, 0, 0, 0, 7, 9, 9, 1, 0, 0x41] (fresh sampleEnv)
    let b := [0x0D, 0, 3, 0, 5, 0x41, 0, 0, 0, 0, 0, 0, 0, 0, 7, 3, 0, 1, 0, 0x41]
    r.warns = [.archiveFlag, .dataLengths] ∧ r.st.bytes = .ok b ∧
      load sampleEnv b (fresh sampleEnv) = ⟨.ok (), r.st, [.archiveFlag]⟩ := by decide +kernel

/-- Opening a file loads its first piece. -/
theorem openAs_piece (env : Env V) {c : Cls} (hg : c ≠ .graphedEquation) (nm : Bytes) (path : Str) {fs : Files} {file : Bytes}
    (hp : fs path = some file) {e : Ent} {ws : List Warn} (h : openAs env c nm path fs = ⟨.ok e, fs, ws⟩) :
    ∃ e₀ w, e₀.cls = c ∧ load env (firstPiece file) e₀ = ⟨.ok (), e, w⟩ := by
  obtain ⟨v, w, hn, -⟩ := new_blank env hg { name := nm } rfl
  generalize he : (⟨c, [0x0D, 0x00], [UInt8.ofNat (c.typeId.getD 0xFF)], nm, [v],
        [if (none : Option Bool) = some true then 0x80 else 0x00], ⟨true, blank c⟩⟩ : Ent) = x at hn
  have hcls : x.cls = c := by rw [← he]
  refine ⟨x, ?_⟩
  unfold openAs at h
  simp only [hp, hn] at h
  by_cases h2 : file.length < 2
  · simp only [if_pos h2] at h
    cases congrArg Out.res h
  · simp only [if_neg h2] at h
    have h1 : ((Stream.ofBytes file).read 53).2.seekRel 2 = ⟨file, firstAt file⟩ := by
      simp only [Stream.ofBytes, Stream.read, Stream.peek, Stream.seekRel, firstAt, List.length_take, List.length_drop,
        Stream.mk.injEq, true_and]
      omega
    obtain ⟨wn, h2'⟩ := Var.nextEntryLength_ahead ⟨file, firstAt file⟩
    have h3 : (⟨file, aheadFrom file (firstAt file)⟩ : Stream).read (aheadLength file (firstAt file)) =
      (firstPiece file, ⟨file, aheadFrom file (firstAt file) + (firstPiece file).length⟩) := rfl
    rcases hload : load env (firstPiece file) x with ⟨_ | _, e', w'⟩
    · rename_i y
      have ho : ∃ e'' w'', openFile env (Stream.ofBytes file) x = ⟨.error y, e'', w''⟩ := by
        unfold openFile
        simp only [h1, h2', h3, PyM.bind_run, PyM.warnAll_run, hload]
        exact ⟨_, _, rfl⟩
      obtain ⟨e'', w'', ho⟩ := ho
      rw [ho] at h
      cases congrArg Out.res h
    · have ho : ∃ w'', openFile env (Stream.ofBytes file) x = ⟨.ok (), e', w''⟩ := by
        unfold openFile
        simp only [h1, h2', h3, PyM.bind_run, PyM.warnAll_run, hload]
        repeat' split
        all_goals exact ⟨_, rfl⟩
      obtain ⟨w'', ho⟩ := ho
      rw [ho] at h
      have h4 := congrArg Out.res h
      injection h4 with h4
      exact ⟨w', hcls, by rw [← h4]⟩

/-- C149, the part that holds, files: let an existing file be opened as an entry of some class, let the first entry in it be all there and
steady, and let the entry not be empty. Saved under any name and opened again as that class, it is the very same entry. -/
theorem C149_file_partial (env : OsEnv V) (ord : Model → Nat) {c : Cls} (hc : c ∉ baseOnly) (hg : c ≠ .graphedEquation)
    (nm nm' : Bytes) (path : Str) (fs : Files) (file : Bytes) (hp : fs path = some file) (e : Ent) (ws : List Warn)
    (hall : AllThere (firstPiece file)) (hs : Steady c (typeIn (firstPiece file)) (dataIn (firstPiece file)))
    (h : openAs env.toEnv c nm path fs = ⟨.ok e, fs, ws⟩) (hne : e.body.bytes ≠ []) (hl : e.len < 65536)
    (name filename : Str) :
    ∃ fs' w1 w2, e.save env ord name filename none none fs = ⟨.ok (), fs', w1⟩ ∧
      (∀ n, n ≠ pathOf name filename e.cls.extensions.1 → fs' n = fs n) ∧
      openAs env.toEnv c nm' (pathOf name filename e.cls.extensions.1) fs' = ⟨.ok e, fs', w2⟩ := by
  obtain ⟨e₀, w₀, hc₀, hload⟩ := openAs_piece env.toEnv hg nm path hp h
  subst hc₀
  obtain ⟨b1, hb1, hre⟩ := C149_reload_partial env.toEnv (firstPiece file) e₀ e w₀ hc hall hs hload
  have hsec : Sections e := by
    obtain ⟨e₁, ws₁, h0, hsec, -, -, ⟨t, ht, htt⟩, hbody, hbase⟩ := loadBase_all env.toEnv (firstPiece file) e₀ hall
    have hset : ∀ e' w, coerce env.toEnv e₁ = ⟨.ok (), e', w⟩ → Settles env.toEnv e₁ e' := fun e' w h' =>
      settles env.toEnv ht (by rw [hbody]) (by rw [h0]; exact hc) (by rw [h0, htt, hbody]; exact hs) h'
    obtain ⟨v, hv⟩ := length_one hsec.version
    obtain ⟨w, hco⟩ := load_ok_coerce env.toEnv hv (fun e' ⟨w, h'⟩ => (hset e' w h').1.2.2.1) hbase hload
    obtain ⟨⟨hm, hn, hve, ha, ⟨t', ht'⟩, -, -⟩, -⟩ := hset e w hco
    exact ⟨by rw [hm]; exact hsec.metaLen, by rw [ht']; rfl, by rw [hn]; exact hsec.name,
      by rw [hve]; exact hsec.version, by rw [ha]; exact hsec.archived⟩
  obtain ⟨hd, wx, hexp, hwd, -⟩ := C106_export_partial env.toEnv e none none hne (fun _ h => nomatch h) rfl
  have hext' : Var.extension ord ⟨hd, [e], none⟩ = .ok (e.cls.extensions.1, []) := rfl
  obtain ⟨we, hpn⟩ := fileName_ok (v := ⟨hd, [e], none⟩) (name := name) (filename := filename) fun _ => ⟨_, hext'⟩
  obtain ⟨wk, hck⟩ := saveCheck_ok env ⟨hd, [e], none⟩ fun hm => absurd rfl hm
  have hse : ∀ x ∈ (⟨hd, [e], none⟩ : Var).entries, Sections x := by
    intro x hx; cases List.mem_singleton.1 hx; exact hsec
  have hsum : ((⟨hd, [e], none⟩ : Var).entries.map Ent.len).sum ≤ 65535 := by simp; omega
  obtain ⟨bs, b, -, hb, -⟩ := (C28_framing ⟨hd, [e], none⟩ hwd hse).1 (by simp; omega)
  obtain ⟨v₀, w₀, hnew, hw₀, -⟩ := new_blank env.toEnv hg { name := nm' } rfl
  obtain ⟨w2, hload2, -⟩ := hre ⟨e₀.cls, [0x0D, 0x00], [UInt8.ofNat (e₀.cls.typeId.getD 0xFF)], nm', [v₀],
      [if (none : Option Bool) = some true then 0x80 else 0x00], ⟨true, blank e₀.cls⟩⟩ rfl
  have hopen := openFile_bytes env.toEnv hwd (v := ⟨hd, [e], none⟩) rfl hse hb hsum hb1 hload2
  have hb2 : 2 ≤ b.length := by
    obtain ⟨region, hr⟩ := entryBytes_ok hse hsum
    rw [bytes_framed hse hr (by rw [Var.entryBytes_length hse hr]; omega)] at hb
    injection hb with hb
    rw [← hb]
    simp [length_toLE]
    omega
  refine ⟨fs.write (pathOf name filename e.cls.extensions.1) b, wx ++ (we ++ wk),
    extensionWarns e₀.cls (pathOf name filename e.cls.extensions.1) ++ w₀ ++ (w2 ++ restWarning []), ?_, fun n hn => by simp [Files.write, hn], ?_⟩
  · unfold Ent.save
    simp only [hexp, save_ok hpn hck hb fs]
  · unfold openAs
    have hf : fs.write (pathOf name filename e.cls.extensions.1) b (pathOf name filename e.cls.extensions.1) = some b := by simp [Files.write]
    simp only [hf, hnew, hopen, if_neg (Nat.not_lt.2 hb2)]

/-- The entries that come of loading bytes into a new entry, and of loading what that one writes. -/
def twice (data : Bytes) : Option (Ent × Ent) :=
  match load sampleEnv data (fresh sampleEnv) with
  | ⟨.error _, _, _⟩ => none
  | ⟨.ok (), e, _⟩ =>
    match e.bytes with
    | .error _ => none
    | .ok b =>
      match load sampleEnv b (fresh sampleEnv) with
      | ⟨.error _, _, _⟩ => none
      | ⟨.ok (), e', _⟩ => some (e, e')

/-- C149 is false of the code. An equation of a graph database that is to be selected is an ordinary equation the second time; a
complex number with an imaginary part of unknown type, an entry of no class. An entry of which all data is cut off loses
its flash bytes, and one whose header has the length 12 is taken apart in other places. -/
theorem C149_reload_false :
    (∃ data e e', AllThere data ∧ twice data = some (e, e') ∧ e.cls = .graphedEquation ∧ e'.cls = .equation) ∧
    (∃ data e e', AllThere data ∧ twice data = some (e, e') ∧ e.cls = .complex ∧ e'.cls = .entry) ∧
    (∃ data e e', metaOf data = 13 ∧ (dataIn data).length < fromLE (lengthOf data) ∧ twice data = some (e, e') ∧
      e.metaLength = 13 ∧ e'.metaLength = 11) ∧
    (∃ data e e', metaOf data = 12 ∧ (dataIn data).length = fromLE (lengthOf data) ∧ twice data = some (e, e') ∧
      e.body.bytes ≠ e'.body.bytes) := by
  refine ⟨⟨[0x0D, 0, 4, 0, 0x23, 0x5E, 0x10, 0, 0, 0, 0, 0, 0, 0, 0, 4, 0, 3, 1, 0, 0x58], ?_⟩,
    ⟨[0x0D, 0, 10, 0, 0x0C, 0x41, 0, 0, 0, 0, 0, 0, 0, 0, 0, 10, 0, 0x0C, 0, 0, 0, 0, 0, 0, 0, 0, 0x3F], ?_⟩,
    ⟨[0x0D, 0, 9, 0, 0, 0x41, 0, 0, 0, 0, 0, 0, 0, 0, 0, 9, 0], ?_⟩,
    ⟨[0x0C, 0, 2, 0, 0x15, 0x41, 0, 0, 0, 0, 0, 0, 0, 0, 0, 2, 0, 5, 7], ?_⟩⟩
  · exact ⟨⟨.graphedEquation, [13, 0], [3], [0x5E, 0x10, 0, 0, 0, 0, 0, 0], [0], [0], ⟨true, [35, 1, 0, 88]⟩⟩,
      ⟨.equation, [13, 0], [3], [0x5E, 0x10, 0, 0, 0, 0, 0, 0], [0], [0], ⟨true, [35, 1, 0, 88]⟩⟩,
      by unfold AllThere; decide +kernel, by decide +kernel, rfl, rfl⟩
  · exact ⟨⟨.complex, [13, 0], [63], [0x41, 0, 0, 0, 0, 0, 0, 0], [0], [0], ⟨true, [12, 0, 0, 0, 0, 0, 0, 0, 0, 63]⟩⟩, ⟨.entry, [13, 0], [63], [0x41, 0, 0, 0, 0, 0, 0, 0], [0], [0], ⟨true, [12, 0, 0, 0, 0, 0, 0, 0, 0, 63]⟩⟩,
      by unfold AllThere; decide +kernel, by decide +kernel, rfl, rfl⟩
  · exact ⟨⟨.real, [13, 0], [0], [0x41, 0, 0, 0, 0, 0, 0, 0], [0], [0], ⟨true, []⟩⟩, ⟨.real, [11, 0], [0], [0x41, 0, 0, 0, 0, 0, 0, 0], [0], [0], ⟨true, []⟩⟩,
      by decide +kernel, by decide +kernel, by decide +kernel, rfl, rfl⟩
  · exact ⟨⟨.appVar, [12, 0], [21], [0x41, 0, 0, 0, 0, 0, 0, 0], [0], [0], ⟨true, [5, 7]⟩⟩, ⟨.appVar, [12, 0], [21], [0x41, 0, 0, 0, 0, 0, 0, 0], [0], [2], ⟨true, [7]⟩⟩,
      by decide +kernel, by decide +kernel, by decide +kernel, by decide +kernel⟩

end Verif
