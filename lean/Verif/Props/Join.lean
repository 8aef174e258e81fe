import Verif.Proofs.Join
import Verif.Spec.Sample

/-! Properties of copies of headers and vars and of vars made from a header and entries: C27 for classes, C123, C124. -/

namespace Verif
open Spec Var
variable {V : Type} [LinearOrder V]

/-- C27, exactly: entries whose type and content lead to their class come back as they were, class included. -/
theorem C27_exact (env : Env V) (me : ModelEnv) (v v₀ : Var) (hw : v.hdr.Widths) (hst : ∀ e ∈ v.entries, Exact env e)
    (hl : (v.entries.map Ent.len).sum < 65536) (hm : v₀.model = none) :
    ∃ b ws, v.bytes = .ok b ∧ load env me b v₀ = ⟨.ok (), ⟨v.hdr, v.entries.map thaw, none⟩, ws⟩ ∧ ∀ w ∈ ws, w ∉ varCorruption := by
  obtain ⟨b, hb, h⟩ := load_exact env me hw hst hl
  obtain ⟨ws, h1, h2⟩ := h v₀ hm
  exact ⟨b, ws, hb, h1, h2⟩

/-- **C27 fails for the class of monochrome databases**: one longer than 61 bytes, as all real ones are, comes back as a database
with colours. -/
theorem C27_mono_false (env : Env V) (e : Ent) (hw : WF e) (hno : e.metaLen = [0x0D, 0x00] → ¬FlashIsLength e)
    (c : Cls) (hc : c ∈ colorClasses) (hcls : e.cls = monoOf c) (ht : e.typeId = [0x08]) (hm : e.body.bytes.getD 3 0 = modeByte c)
    (hl : 61 < e.body.bytes.length) :
    ∃ b ws, e.bytes = .ok b ∧ Ent.load env b (Ent.fresh env) = ⟨.ok (), { thaw e with cls := c }, ws⟩ ∧
      Ent.eqEnt e { thaw e with cls := c } = .ok false := by
  obtain ⟨hsub, hne⟩ : c ∈ [Cls.func, .param, .polar, .seq, .monoFunc, .monoParam, .monoPolar, .monoSeq] ∧ monoOf c ≠ c :=
    (by decide : ∀ c ∈ colorClasses, c ∈ [Cls.func, .param, .polar, .seq, .monoFunc, .monoParam, .monoPolar, .monoSeq] ∧
      monoOf c ≠ c) _ hc
  have hmode := Ent.settled_mode (e := { thaw e with cls := c }) hsub hm
  have hco := Ent.coerce_gdb env (e := thaw e) ht hc hmode
  rw [if_pos (by exact hl)] at hco
  refine ⟨_, _, Ent.bytes_ok hw.length, Ent.load_base env hw hno hco (Ent.bytes_ok hw.length) rfl, ?_⟩
  unfold Ent.eqEnt
  rw [if_neg (by rw [hcls]; exact hne)]

/-! ### C123 – copies and comparisons -/

/-- **C123 for headers** A copy of a header is the same, and headers are equal exactly if all their parts are. -/
theorem C123_header (h h' : Hdr) (hw : h.Widths) (hw' : h'.Widths) :
    h.copyHdr () = ⟨.ok h, (), []⟩ ∧ (h.eqHdr h' = true ↔ h = h') := by
  refine ⟨?_, ?_⟩
  · have hi : Hdr.init none none [0x1a, 0x0a] none Hdr.defaultComment [] Hdr.unset =
        ⟨.ok (), (Hdr.init none none [0x1a, 0x0a] none Hdr.defaultComment [] Hdr.unset).st, []⟩ := by decide +kernel
    unfold Hdr.copyHdr
    simp only
    rw [PyM.bind_ok hi, Hdr.load_bytes hw]
    rfl
  · unfold Hdr.eqHdr
    rw [beq_iff_eq]
    refine ⟨fun h1 => ?_, fun h1 => by rw [h1]⟩
    have a := Hdr.load_bytes hw (h' := Hdr.unset)
    have b := Hdr.load_bytes hw' (h' := Hdr.unset)
    rw [h1, b] at a
    injection a with _ a
    exact a.symm

/-- **C123 for vars, what holds** A copy of a var without a model has the same header and the same entries and is equal to it. -/
theorem C123_copy_partial (env : Env V) (me : ModelEnv) (v : NamedVar) (hw : v.var.hdr.Widths)
    (hst : ∀ e ∈ v.var.entries, Exact env e) (hl : (v.var.entries.map Ent.len).sum < 65536) :
    ∃ v' ws, copyVar env me v () = ⟨.ok v', (), ws⟩ ∧ v'.var.hdr = v.var.hdr ∧ v'.var.entries = v.var.entries.map thaw ∧
      eqVar v v' = .ok true ∧ ∀ w ∈ ws, w ∉ varCorruption := by
  obtain ⟨b, hb, h⟩ := load_exact env me hw hst hl
  obtain ⟨ws, h1, h2⟩ := h ⟨(Hdr.init none none [0x1a, 0x0a] none Hdr.defaultComment [] Hdr.unset).st, [], none⟩ rfl
  refine ⟨⟨"UNNAMED".toList, ⟨v.var.hdr, v.var.entries.map thaw, none⟩⟩, ws, ?_, rfl, rfl, ?_, h2⟩
  · unfold copyVar
    simp only
    rw [PyM.bind_ok init_none_run, PyM.bind_run, hb]
    simp [h1]
  · have hlen : ∀ e ∈ v.var.entries ++ v.var.entries.map thaw, e.body.bytes.length ≤ 65535 := by
      intro e he
      rcases List.mem_append.1 he with h | h
      · exact (hst e h).wf.length
      · obtain ⟨x, hx, rfl⟩ := List.mem_map.1 h
        exact (hst x hx).wf.length
    obtain ⟨r, hr, hi⟩ := eqEntries_iff (es := v.var.entries) (es' := v.var.entries.map thaw) (by simp) hlen
    have : r = true := by
      rw [hi]
      clear hi hr hlen h1 h hb hl hst
      induction v.var.entries with
      | nil => exact .nil
      | cons e es ih => exact .cons ⟨rfl, rfl⟩ ih
    unfold eqVar
    rw [if_pos (by simp), hr, this]

/-- **C123 fails for name and model**: a copy of any var is named `UNNAMED` and has no model. -/
theorem C123_name_false (env : Env V) (me : ModelEnv) (v v' : NamedVar) (h : (copyVar env me v ()).res = .ok v') :
    v'.name = "UNNAMED".toList ∧ v'.var.model = none := by
  unfold copyVar at h
  simp only at h
  rw [PyM.bind_ok init_none_run, PyM.bind_run] at h
  cases hb : v.var.bytes with
  | error x => rw [hb] at h; simp at h
  | ok b =>
    rw [hb] at h
    simp only [PyM.ofExcept_run] at h
    obtain ⟨-, hm⟩ := load_header env me b ⟨(Hdr.init none none [0x1a, 0x0a] none Hdr.defaultComment [] Hdr.unset).st, [], none⟩
    rcases hl : load env me b ⟨(Hdr.init none none [0x1a, 0x0a] none Hdr.defaultComment [] Hdr.unset).st, [], none⟩ with ⟨r, w, ws⟩
    rw [hl] at h hm
    cases r with
    | error x => simp at h
    | ok u =>
      simp only [Except.ok.injEq] at h
      subst h
      exact ⟨rfl, hm⟩

/-- **C123 for comparisons** Two vars are equal exactly if they have the same entries in the same order, class for class and byte for
byte; names, headers and models do not count. -/
theorem C123_eq (a b : NamedVar) (h : ∀ e ∈ a.var.entries ++ b.var.entries, e.body.bytes.length ≤ 65535) :
    ∃ r, eqVar a b = .ok r ∧
      (r = true ↔ List.Forall₂ (fun x y => x.cls = y.cls ∧ x.bytes = y.bytes) a.var.entries b.var.entries) := by
  unfold eqVar
  by_cases hl : a.var.entries.length = b.var.entries.length
  · rw [if_pos hl]
    exact eqEntries_iff hl h
  · rw [if_neg hl]
    refine ⟨false, rfl, ?_⟩
    simp only [Bool.false_eq_true, false_iff]
    intro hf
    exact hl hf.length_eq

/-- A monochrome function database without equations. -/
def plainPlot : Ent := ⟨.monoFunc, [0x0D, 0x00], [0x08], [0x61, 0, 0, 0, 0, 0, 0, 0], [0x00], [0x00],
  ⟨true, [108, 0, 0, 0x10] ++ List.replicate 106 0⟩⟩

/-- **C123 fails for monochrome databases**: the copy of a var with one of more than 61 bytes is not equal to it. -/
theorem C123_mono_false : ∃ v v' : NamedVar, v.var.hdr.Widths ∧ (∀ e ∈ v.var.entries, WF e ∧ ¬FlashIsLength e ∧ Settled sampleEnv e) ∧
    (copyVar sampleEnv ⟨fun _ => 0, id⟩ v ()).res = .ok v' ∧ eqVar v v' = .ok false := by
  refine ⟨⟨"GDB1".toList, ⟨exHdr, [plainPlot], none⟩⟩, ⟨"UNNAMED".toList, ⟨exHdr, [{ plainPlot with cls := .func }], none⟩⟩,
    by unfold Hdr.Widths; decide +kernel, ?_, ?_, by decide +kernel⟩
  · intro e he
    cases List.mem_singleton.1 he
    refine ⟨⟨⟨Or.inr rfl, rfl, rfl, rfl, rfl⟩, Or.inl rfl, by decide +kernel, by decide +kernel⟩, by unfold FlashIsLength; decide +kernel,
      ⟨by decide, ?_⟩⟩
    right; right; right; right; right; right; right; right; right
    decide +kernel
  · decide +kernel

/-! ### C124 – a header and entries -/

omit [LinearOrder V] in
/-- **C124, what holds** `header | entries` for a header with a known magic and entries that are not empty: the var has the header,
the entries in their order, the name of the first one and one of the header's models as its model; if the meta lengths agree there is
no warning. -/
theorem C124_join_partial (env : Env V) (pick : List Model → Model) (hp : ∀ ts, ts ≠ [] → pick ts ∈ ts) (name : Str) (h : Nat)
    (s : Store) (e : Ent) (es : List Ent) (hne : ∀ x ∈ e :: es, x.body.bytes ≠ []) (ts : List Model) (ht : (s h).targets = .ok ts) :
    ∃ ws, VarObj.join env pick name h (e :: es) s = ⟨.ok ⟨name, h, e :: es, some (pick ts)⟩, s, ws⟩ ∧ pick ts ∈ ts ∧
      ((∀ x ∈ es, fromLE x.metaLen = fromLE e.metaLen) → ws = []) := by
  have htne := targets_ne ht
  have hmem := hp ts htne
  have hinit : Var.init (some (s h)) (some (pick ts)) ⟨Hdr.unset, [], none⟩ = ⟨.ok (), ⟨s h, [], some (pick ts)⟩, []⟩ := by
    simp [Var.init, PyM.bind_run, ht, hmem]
  obtain ⟨w1, h1, h1w⟩ := C33_add_entry_partial env ⟨s h, [], some (pick ts)⟩ e (hne e (by simp))
  obtain ⟨w2, h2, h2w⟩ := addAll_run env es ⟨s h, [e], some (pick ts)⟩ e rfl (fun x hx => hne x (by simp [hx]))
  have hrun : (do
      Ent.exportVar env e (some (s h)) (some (pick ts))
      VarObj.addAll env es : PyM Var Unit) ⟨Hdr.unset, [], none⟩ = ⟨.ok (), ⟨s h, e :: es, some (pick ts)⟩, w1 ++ w2⟩ := by
    have he : Ent.exportVar env e (some (s h)) (some (pick ts)) ⟨Hdr.unset, [], none⟩ = ⟨.ok (), ⟨s h, [e], some (pick ts)⟩, w1⟩ := by
      unfold Ent.exportVar
      rw [PyM.bind_ok hinit, h1]
      simp
    rw [PyM.bind_ok he, h2]
    simp
  refine ⟨w1 ++ w2, ?_, hmem, fun hm => ?_⟩
  · unfold VarObj.join
    simp only [ht, hrun]
  · rw [h2w hm]
    have h0 : addEntry env (some e) ⟨s h, [], some (pick ts)⟩ = ⟨.ok (), ⟨s h, [e], some (pick ts)⟩, []⟩ := by
      have : e.isEmpty = false := by simp [Ent.isEmpty, Ent.calcLength, hne e (by simp)]
      simp [addEntry, PyM.bind_run, this]
    rw [h0] at h1
    injection h1 with _ _ h1
    rw [← h1]
    rfl

omit [LinearOrder V] in
/-- **C124 fails without entries**: `header | []` raises `IndexError`. -/
theorem C124_empty_false (env : Env V) (pick : List Model → Model) (name : Str) (h : Nat) (s : Store) :
    VarObj.join env pick name h [] s = ⟨.error .indexError, s, []⟩ := rfl

omit [LinearOrder V] in
/-- **C124 fails for an entry without data**: another entry takes its place. -/
theorem C124_falsy_false (env : Env V) (pick : List Model → Model) (hp : ∀ ts, ts ≠ [] → pick ts ∈ ts) (name : Str) (h : Nat)
    (s : Store) (e : Ent) (he : e.body.bytes = []) (ts : List Model) (ht : (s h).targets = .ok ts) :
    ∃ v, (VarObj.join env pick name h [e] s).res = .ok v ∧ v.entries = [Ent.fresh env] := by
  have hmem := hp ts (targets_ne ht)
  have hinit : Var.init (some (s h)) (some (pick ts)) ⟨Hdr.unset, [], none⟩ = ⟨.ok (), ⟨s h, [], some (pick ts)⟩, []⟩ := by
    simp [Var.init, PyM.bind_run, ht, hmem]
  obtain ⟨w, h1⟩ := C33_add_entry_false env ⟨s h, [], some (pick ts)⟩ e he
  refine ⟨⟨name, h, [Ent.fresh env], some (pick ts)⟩, ?_, rfl⟩
  have he : Ent.exportVar env e (some (s h)) (some (pick ts)) ⟨Hdr.unset, [], none⟩ =
      ⟨.ok (), ⟨s h, [Ent.fresh env], some (pick ts)⟩, w⟩ := by
    unfold Ent.exportVar
    rw [PyM.bind_ok hinit, h1]
    simp
  unfold VarObj.join
  simp only [ht]
  rw [PyM.bind_ok he]
  simp [VarObj.addAll]

/-- **C124 fails for vars with one header**: of two vars made from the same header, loading a file into one gives the other the header
of that file, whether the loading succeeds or not. -/
theorem C124_shared_false (env : Env V) (me : ModelEnv) (pick : List Model → Model) (n₁ n₂ : Str) (h : Nat) (es₁ es₂ : List Ent)
    (s : Store) (v₁ v₂ : VarObj) (h₁ : (VarObj.join env pick n₁ h es₁ s).res = .ok v₁)
    (h₂ : (VarObj.join env pick n₂ h es₂ s).res = .ok v₂) (data : Bytes) (hl : 53 ≤ data.length) :
    (v₂.toVar (VarObj.loadInto env me v₁ data s).st).hdr.bytes = data.take 53 := by
  rw [loadInto_st]
  show (Store.put s v₁.header _ v₂.header).bytes = _
  rw [join_header h₁, join_header h₂]
  unfold Store.put
  rw [if_pos rfl]
  exact header_bytes data _ hl

/-- **C124 for vars with headers of their own**: loading a file into one of them leaves the other as it was. -/
theorem C124_separate (env : Env V) (me : ModelEnv) (v₁ v₂ : VarObj) (hne : v₂.header ≠ v₁.header) (data : Bytes) (s : Store) :
    v₂.toVar (VarObj.loadInto env me v₁ data s).st = v₂.toVar s := by
  rw [loadInto_st]
  unfold VarObj.toVar Store.put
  rw [if_neg hne]

/-! ### Examples -/

-- a copy of a var with a program and an appvar, and the comparison with it
example : (do let v ← copyVar sampleEnv ⟨fun _ => 0, id⟩ ⟨"BOTH".toList, ⟨exHdr, [sampleProgram, sampleAppVar], some .ti84pce⟩⟩
              pure (v.name, v.var.entries, v.var.model) : PyM Unit _) () =
    ⟨.ok ("UNNAMED".toList, [sampleProgram, sampleAppVar], none), (), [.flashlessLoad]⟩ := by decide +kernel

-- two vars with one header; a file with other product ID and comment is loaded into the first
example : ((do
    let a ← VarObj.join sampleEnv (fun ts => ts.headD .ti83p) "A".toList 0 [sampleProgram]
    let b ← VarObj.join sampleEnv (fun ts => ts.headD .ti83p) "B".toList 0 [sampleAppVar, sampleProgram]
    let _ ← VarObj.loadInto sampleEnv ⟨fun _ => 0, id⟩ a (exHdr.bytes ++ [0, 0, 0, 0])
    let s ← PyM.get
    pure (b.toVar s).hdr.comment : PyM Store _).run fun _ => { exHdr with comment := List.replicate 42 0x41 }).res =
    .ok exHdr.comment := by decide +kernel

end Verif
