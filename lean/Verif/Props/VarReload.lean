import Verif.Proofs.VarReload
import Verif.Props.Reload
import Verif.Props.Files
/-! Reading a whole var, writing it and reading it again. -/
namespace Verif
open Spec Ent Var
variable {V : Type} [LinearOrder V]

/-- The pieces of a file are determined. -/
theorem cut_unique {data : Bytes} {pos : Nat} {left : Int} {ps qs : List Bytes} (h : Cut data pos left ps) :
    Cut data pos left qs → ps = qs := by
  induction h generalizing qs with
  | done h =>
    intro h'
    cases h' with
    | done => rfl
    | next hp => omega
  | next h hp _ ih =>
    intro h'
    cases h' with
    | done => omega
    | next _ hp' hm' =>
      subst hp hp'
      rw [ih hm']

/-- C151, what loading gives: if any bytes whatsoever load as a var, the header of the var is their first 53 bytes, padded
with zeros if there are fewer, and its entries are, one for one, what the pieces of the file give when loaded into new entries. -/
theorem C151_pieces (env : Env V) (me : Var.ModelEnv) (data : Bytes) (v₀ v : Var) (ws : List Warn)
    (h : Var.load env me data v₀ = ⟨.ok (), v, ws⟩) (pieces : List Bytes)
    (hc : Cut data (min 55 data.length) (fromLE ((data.drop 53).take 2) : Nat) pieces) :
    v.hdr.bytes = data.take 53 ++ List.replicate (53 - data.length) 0 ∧ v.model = v₀.model ∧
      List.Forall₂ (fun p e => ∃ w, Ent.load env p (Ent.fresh env) = ⟨.ok (), e, w⟩) pieces v.entries := by
  obtain ⟨h1, h2, h3⟩ := load_pieces env me hc h
  refine ⟨?_, h2, h3⟩
  rw [h1]
  have hl : ljust 53 (data.take 53) = data.take 53 ++ List.replicate (53 - data.length) 0 := by
    unfold ljust
    rw [List.length_take]
    congr 2
    omega
  have hlen : (ljust 53 (data.take 53)).length = 53 := by
    rw [hl, List.length_append, List.length_take, List.length_replicate]
    omega
  rw [← hl]
  generalize ljust 53 (data.take 53) = d at hlen
  unfold Hdr.bytes
  have e1 : (d.drop 11).take 42 = d.drop 11 := List.take_of_length_le (by rw [List.length_drop]; omega)
  simp only [e1]
  have e2 : (d.drop 10).take 1 ++ d.drop 11 = d.drop 10 := by
    have := List.take_append_drop 1 (d.drop 10)
    rwa [List.drop_drop] at this
  have e3 : (d.drop 8).take 2 ++ d.drop 10 = d.drop 8 := by
    have := List.take_append_drop 2 (d.drop 8)
    rwa [List.drop_drop] at this
  simp only [List.append_assoc, e2, e3, List.take_append_drop]

/-- C151, the part that holds: let any bytes be loaded as a var without a model, let each piece of them that an entry is given be
all there and steady, and let the entries fit one file. Then the var can be written, and loading what is written into any var without a
model gives the very same var; this time there is nothing to complain about in the lengths, the headers, the cuts or the checksum. -/
theorem C151_reload_partial (env : Env V) (me : Var.ModelEnv) (data : Bytes) (v₀ v : Var) (ws : List Warn) (hm : v₀.model = none)
    (h : Var.load env me data v₀ = ⟨.ok (), v, ws⟩) (pieces : List Bytes)
    (hc : Cut data (min 55 data.length) (fromLE ((data.drop 53).take 2) : Nat) pieces)
    (hall : ∀ p ∈ pieces, AllThere p ∧ Steady .entry (typeIn p) (dataIn p)) (hl : (v.entries.map Ent.len).sum < 65536) :
    ∃ b, v.bytes = .ok b ∧ ∀ v₀' : Var, v₀'.model = none → ∃ ws', Var.load env me b v₀' = ⟨.ok (), v, ws'⟩ ∧
      ∀ w ∈ ws', w ∉ layoutWarns ∧ w ∉ frameWarns := by
  obtain ⟨h1, h2, h3⟩ := load_pieces env me hc h
  have hw : v.hdr.Widths := by
    rw [h1]
    refine ⟨?_, ?_, ?_, ?_⟩ <;> simp [ljust] <;> omega
  have hmv : v.model = none := h2.trans hm
  have hre : ∀ e ∈ v.entries, Sections e ∧ ∃ b ws', e.bytes = .ok b ∧ Ent.load env b (fresh env) = ⟨.ok (), e, ws'⟩ ∧
      ∀ w ∈ ws', w ∉ layoutWarns ∧ w ∉ frameWarns := by
    intro e he
    obtain ⟨p, hp, w, hpe⟩ : ∃ p ∈ pieces, FromPiece env p e := by
      clear hl h h1 h2 hc hw hmv
      generalize v.entries = es at h3 he
      induction h3 with
      | nil => cases he
      | cons hx _ ih =>
        rcases List.mem_cons.1 he with rfl | he
        · exact ⟨_, by simp, hx⟩
        · obtain ⟨p, hp, hpe⟩ := ih (fun p hp => hall p (by simp [hp])) he
          exact ⟨p, by simp [hp], hpe⟩
    exact reload_base env (hall p hp).1 (hall p hp).2 hpe
  have hs : ∀ e ∈ v.entries, Sections e := fun e he => (hre e he).1
  obtain ⟨region, hr⟩ := entryBytes_ok hs (by omega)
  have hrl := entryBytes_length hs hr
  have hb := bytes_framed hs hr (by omega)
  have det : ∀ e ∈ v.entries, ∀ e' w, Loads env e e' w → e' = e ∧ ∀ x ∈ w, x ∉ layoutWarns ∧ x ∉ frameWarns := by
    intro e he e' w hlo
    obtain ⟨-, b, ws, h1, h2, h3⟩ := hre e he
    obtain ⟨b', h4, h5⟩ := hlo
    rw [h1] at h4
    injection h4 with h4
    subst h4
    rw [h2] at h5
    injection h5 with _ h6 h7
    subst h6 h7
    exact ⟨rfl, h3⟩
  refine ⟨_, hb, fun v₀' hm' => ?_⟩
  rcases load_framed env me hw hs hr (by omega) (length_toLE 2 ((region.map UInt8.toNat).sum % 65536)) v₀' with
    ⟨es', ws', hf, hws, -, hload⟩ | ⟨e, he, b', x, h4, h5, h6⟩
  · have hes : es' = v.entries := by
      clear hload hws hb hrl hr hl hre hs h3 hall
      generalize v.entries = es at hf det
      induction hf with
      | nil => rfl
      | cons hx _ ih =>
        obtain ⟨w, hx⟩ := hx
        rw [(det _ (by simp) _ w hx).1, ih (fun e he => det e (by simp [he]))]
    subst hes
    have hck := checksum_eq (v := ⟨v.hdr, v.entries, v₀'.model⟩) hr
    refine ⟨ws', ?_, ?_⟩
    · rw [hload]
      rw [hm'] at hck
      rw [hm']
      cases v with | mk hdr es mo =>
      subst hmv
      simp [warned, afterLoop, checkModel, PyM.bind_run, hck]
    · intro w hmem
      rcases hws w hmem with ⟨rfl, -⟩ | ⟨e, e', w', he, hl', hm⟩
      · decide
      · exact (det e he e' w' hl').2 w hm
  · exfalso
    obtain ⟨-, b, ws', h7, h8, -⟩ := hre e he
    rw [h4] at h7
    injection h7 with h7
    subst h7
    rw [h8] at h5
    cases h5

/-- C151, the part that holds, files: let an existing file be opened as a var, let its pieces be all there and steady, and let the entries fit one
file. Saved under any name and opened again, it is the very same var, and no other file is touched. -/
theorem C151_file_partial (env : OsEnv V) (me : Var.ModelEnv) (ord : Model → Nat) (path : Str) (fs : Files) (file : Bytes)
    (hp : fs path = some file) (hf : file ≠ []) (v : Var) (ws : List Warn)
    (h : Var.openVar env.toEnv me path fs = ⟨.ok v, fs, ws⟩) (pieces : List Bytes)
    (hc : Cut file (min 55 file.length) (fromLE ((file.drop 53).take 2) : Nat) pieces)
    (hall : ∀ p ∈ pieces, AllThere p ∧ Steady .entry (typeIn p) (dataIn p)) (hl : (v.entries.map Ent.len).sum < 65536)
    (name filename ext : Str) (hext : '.' ∉ filename → ∃ we, v.extension ord = .ok (ext, we)) :
    ∃ fs' w1 w2, v.save env ord name filename fs = ⟨.ok (), fs', w1⟩ ∧
      (∀ n, n ≠ pathOf name filename ext → fs' n = fs n) ∧
      Var.openVar env.toEnv me (pathOf name filename ext) fs' = ⟨.ok v, fs', w2⟩ ∧ ∀ w ∈ w2, w ∉ layoutWarns ∧ w ∉ frameWarns := by
  have hload : ∃ w, Var.load env.toEnv me file ⟨(Hdr.init none none [0x1a, 0x0a] none Hdr.defaultComment [] Hdr.unset).st, [], none⟩ =
      ⟨.ok (), v, w⟩ := by
    unfold Var.openVar at h
    simp only [hp] at h
    unfold Var.ofData at h
    rw [PyM.bind_ok init_none_run] at h
    have he : file.isEmpty = false := by cases file with | nil => exact absurd rfl hf | cons => rfl
    simp only [he, Bool.false_eq_true, if_false, List.nil_append] at h
    revert h
    rcases Var.load env.toEnv me file ⟨(Hdr.init none none [0x1a, 0x0a] none Hdr.defaultComment [] Hdr.unset).st, [], none⟩ with
      ⟨_ | _, v', w'⟩ <;> intro h
    · cases congrArg Out.res h
    · have h4 := congrArg Out.res h
      injection h4 with h4
      exact ⟨w', by rw [← h4]⟩
  obtain ⟨w, hload⟩ := hload
  obtain ⟨b, hb, hre⟩ := C151_reload_partial env.toEnv me file _ v w rfl hload pieces hc hall hl
  obtain ⟨w2, hload2, hw2⟩ := hre ⟨(Hdr.init none none [0x1a, 0x0a] none Hdr.defaultComment [] Hdr.unset).st, [], none⟩ rfl
  have hmv : v.model = none := (C151_pieces env.toEnv me file _ v w hload pieces hc).2.1
  obtain ⟨we, hpn⟩ := fileName_ok (name := name) hext
  obtain ⟨wk, hck⟩ := saveCheck_ok env v fun hm => absurd hmv hm
  have hfile : (fs.write (pathOf name filename ext) b) (pathOf name filename ext) = some b := by simp [Files.write]
  refine ⟨_, _, w2, save_ok hpn hck hb fs, fun n hn => by simp [Files.write, hn], ?_, hw2⟩
  have hne : b.isEmpty = false := by
    cases b with
    | nil =>
      have : (v.hdr.bytes).length = 53 := by
        rw [(C151_pieces env.toEnv me file _ v w hload pieces hc).1, List.length_append, List.length_take, List.length_replicate]
        omega
      revert hb
      unfold Var.bytes
      repeat' split
      all_goals intro hb
      all_goals try cases hb
      have := congrArg List.length (Except.ok.inj hb)
      simp only [List.length_append, List.length_nil] at this
      omega
    | cons => rfl
  unfold Var.openVar
  simp only [hfile]
  unfold Var.ofData
  rw [PyM.bind_ok init_none_run]
  simp only [hne, Bool.false_eq_true, if_false, hload2, List.nil_append]

/-- A file of a program and an application variable. The header is not one that the library writes, the second length of the program, the
total length and the checksum are wrong, and something follows. -/
def oddFile : Bytes := List.replicate 53 0x41 ++ [38, 0] ++
  [0x0D, 0, 3, 0, 5, 0x41, 0, 0, 0, 0, 0, 0, 0, 0, 0, 9, 9, 1, 0, 0x41] ++
  [0x0B, 0, 4, 0, 0x15, 0x42, 0, 0, 0, 0, 0, 0, 0, 4, 0, 2, 0, 7, 7] ++ [1, 2, 3, 4]

/-- The vars that come of loading bytes into a new var, and of loading what that one writes, with the warnings. -/
def varTwice (data : Bytes) : Option (Var × List Warn × Var × List Warn) :=
  match Var.load sampleEnv ⟨fun _ => 0, id⟩ data ⟨Hdr.unset, [], none⟩ with
  | ⟨.error _, _, _⟩ => none
  | ⟨.ok (), v, w⟩ =>
    match v.bytes with
    | .error _ => none
    | .ok b =>
      match Var.load sampleEnv ⟨fun _ => 0, id⟩ b ⟨Hdr.unset, [], none⟩ with
      | ⟨.error _, _, _⟩ => none
      | ⟨.ok (), v', w'⟩ => some (v, w, v', w')

example : ∃ p q, Cut oddFile (min 55 oddFile.length) (fromLE ((oddFile.drop 53).take 2) : Nat) [p, q] ∧
    (AllThere p ∧ Steady .entry (typeIn p) (dataIn p)) ∧ (AllThere q ∧ Steady .entry (typeIn q) (dataIn q)) := by
  refine ⟨[0x0D, 0, 3, 0, 5, 0x41, 0, 0, 0, 0, 0, 0, 0, 0, 0, 9, 9, 1, 0, 0x41],
    [0x0B, 0, 4, 0, 0x15, 0x42, 0, 0, 0, 0, 0, 0, 0, 4, 0, 2, 0, 7, 7], ?_, ?_, ?_⟩
  · exact .next (by decide +kernel) (by decide +kernel) (.next (by decide +kernel) (by decide +kernel) (.done (by decide +kernel)))
  · unfold AllThere Steady; decide +kernel
  · unfold AllThere Steady; decide +kernel

example : (varTwice oddFile).map (fun r => (r.2.1, r.2.2.2)) = 
    some ([.dataLengths, .flashlessLoad, .totalLength, .checksum], [.flashlessLoad]) := by
  decide +kernel

example : (varTwice oddFile).map (fun r => (r.1.entries.map Ent.cls, r.1.hdr.bytes)) =
    some ([.program, .appVar], List.replicate 53 0x41) := by decide +kernel

/-- C151 is false of the code. An equation of a graph database in a file is an ordinary equation the second time; an entry of which all data is
cut off at the end of the file loses its flash bytes. -/
theorem C151_reload_false :
    (∃ data v w v' w', varTwice data = some (v, w, v', w') ∧ v.entries.map Ent.cls = [.graphedEquation] ∧
      v'.entries.map Ent.cls = [.equation]) ∧
    (∃ data v w v' w', varTwice data = some (v, w, v', w') ∧ v.entries.map Ent.metaLength = [13] ∧
      v'.entries.map Ent.metaLength = [11]) := by
  have h1 : (varTwice (List.replicate 53 0x41 ++ [21, 0] ++
      [0x0D, 0, 4, 0, 0x23, 0x5E, 0x10, 0, 0, 0, 0, 0, 0, 0, 0, 4, 0, 3, 1, 0, 0x58])).map
        (fun r => (r.1.entries.map Ent.cls, r.2.2.1.entries.map Ent.cls)) = some ([.graphedEquation], [.equation]) := by decide +kernel
  have h2 : (varTwice (List.replicate 53 0x41 ++ [26, 0] ++
      [0x0D, 0, 9, 0, 0, 0x41, 0, 0, 0, 0, 0, 0, 0, 0, 0, 9, 0])).map
        (fun r => (r.1.entries.map Ent.metaLength, r.2.2.1.entries.map Ent.metaLength)) = some ([13], [11]) := by decide +kernel
  refine ⟨⟨?_, ?_⟩, ⟨?_, ?_⟩⟩
  · exact List.replicate 53 0x41 ++ [21, 0] ++ [0x0D, 0, 4, 0, 0x23, 0x5E, 0x10, 0, 0, 0, 0, 0, 0, 0, 0, 4, 0, 3, 1, 0, 0x58]
  · obtain ⟨⟨v, w, v', w'⟩, h, h'⟩ := Option.map_eq_some_iff.1 h1
    exact ⟨v, w, v', w', h, (Prod.mk.inj h').1, (Prod.mk.inj h').2⟩
  · exact List.replicate 53 0x41 ++ [26, 0] ++ [0x0D, 0, 9, 0, 0, 0x41, 0, 0, 0, 0, 0, 0, 0, 0, 0, 9, 0]
  · obtain ⟨⟨v, w, v', w'⟩, h, h'⟩ := Option.map_eq_some_iff.1 h2
    exact ⟨v, w, v', w', h, (Prod.mk.inj h').1, (Prod.mk.inj h').2⟩

end Verif
