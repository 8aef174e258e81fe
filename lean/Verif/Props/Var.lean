import Verif.Proofs.Var
import Verif.Props.Header
import Verif.Spec.Sample
import Verif.Spec.Var

/-! Property theorems about var files (C27–C33, C35). -/

namespace Verif
open Spec Var
variable {V : Type} [LinearOrder V]

/-! ### C28 – framing -/

theorem entryBytes_ok {es : List Ent} (hs : ∀ e ∈ es, Sections e)
    (hl : (es.map Ent.len).sum ≤ 65535) : ∃ b, entryBytes es = .ok b := by
  induction es with
  | nil => exact ⟨[], rfl⟩
  | cons e es ih =>
    simp only [List.map_cons, List.sum_cons] at hl
    obtain ⟨b2, h2⟩ := ih (fun x hx => hs x (by simp [hx])) (by omega)
    have : e.calcLength ≤ 65535 := by
      have : e.len = 2 + e.metaLength + 2 + e.calcLength := rfl
      omega
    unfold entryBytes
    rw [Ent.bytes_ok this, h2]
    exact ⟨_, rfl⟩

theorem bytes_framed {v : Var} (hs : ∀ e ∈ v.entries, Sections e) {region : Bytes}
    (hr : entryBytes v.entries = .ok region) (hl : region.length ≤ 65535) :
    v.bytes = .ok (v.hdr.bytes ++ toLE 2 region.length ++ region ++
      toLE 2 ((region.map UInt8.toNat).sum % 65536)) := by
  have he := entryBytes_length hs hr
  unfold Var.bytes
  have : intToBytesLE (v.entryLength : Int) 2 = .ok (toLE 2 region.length) := by
    unfold intToBytesLE
    have e : ((256 ^ 2 : Nat) : Int) = 65536 := rfl
    rw [he] at hl
    have h1 : v.entryLength = (v.entries.map Ent.len).sum := rfl
    rw [if_neg (by rw [e]; omega), he, ← h1]
    simp
  rw [this, hr, checksum_eq hr]

/-- C28. A var whose header and entries have their section widths serialises to the 53-byte header,
the total entry length, the entries back to back and the checksum, 57 bytes plus the
entry lengths; it raises `OverflowError` exactly when the total, and so any length,
does not fit two bytes. -/
theorem C28_framing (v : Var) (hw : v.hdr.Widths) (hs : ∀ e ∈ v.entries, Sections e) :
    ((v.entries.map Ent.len).sum ≤ 65535 → ∃ bs : List Bytes, ∃ b,
      List.Forall₂ (fun e x => e.bytes = .ok x) v.entries bs ∧ v.bytes = .ok b ∧
      b.length = 57 + (v.entries.map Ent.len).sum ∧ b.take 53 = v.hdr.bytes ∧
      fromLE ((b.drop 53).take 2) = (v.entries.map Ent.len).sum ∧
      (b.drop 55).take (b.length - 57) = bs.flatten) ∧
    (v.bytes = .error .overflowError ↔ 65535 < (v.entries.map Ent.len).sum) ∧
    (∀ e ∈ v.entries, 65535 < e.body.bytes.length → v.bytes = .error .overflowError) := by
  have over : 65535 < (v.entries.map Ent.len).sum → v.bytes = .error .overflowError := by
    intro h
    unfold Var.bytes
    have : intToBytesLE (v.entryLength : Int) 2 = .error .overflowError := by
      unfold intToBytesLE
      have e : ((256 ^ 2 : Nat) : Int) = 65536 := rfl
      have h1 : v.entryLength = (v.entries.map Ent.len).sum := rfl
      rw [if_pos (by rw [e]; omega)]
    rw [this]
  have fits : (v.entries.map Ent.len).sum ≤ 65535 → ∃ bs : List Bytes, ∃ b,
      List.Forall₂ (fun e x => e.bytes = .ok x) v.entries bs ∧ v.bytes = .ok b ∧
      b.length = 57 + (v.entries.map Ent.len).sum ∧ b.take 53 = v.hdr.bytes ∧
      fromLE ((b.drop 53).take 2) = (v.entries.map Ent.len).sum ∧
      (b.drop 55).take (b.length - 57) = bs.flatten := by
    intro hl
    obtain ⟨region, hr⟩ := entryBytes_ok hs hl
    have he := entryBytes_length hs hr
    have hb := Hdr.bytes_length hw
    have hbs : ∀ (es : List Ent) (region : Bytes), entryBytes es = .ok region →
        ∃ bs : List Bytes, List.Forall₂ (fun e x => e.bytes = .ok x) es bs ∧ region = bs.flatten := by
      intro es
      induction es with
      | nil => intro r h; injection h with h; subst h; exact ⟨[], List.Forall₂.nil, rfl⟩
      | cons e es ih =>
        intro r h
        obtain ⟨b1, b2, h1, h2, rfl⟩ := entryBytes_cons h
        obtain ⟨bs, h3, h4⟩ := ih b2 h2
        exact ⟨b1 :: bs, List.Forall₂.cons h1 h3, by simp [h4]⟩
    obtain ⟨bs, hbs1, hbs2⟩ := hbs _ _ hr
    refine ⟨bs, _, hbs1, bytes_framed hs hr (by omega), ?_, ?_, ?_, ?_⟩
    · simp only [List.length_append, length_toLE, hb, he]; omega
    · rw [List.append_assoc, List.append_assoc, List.take_left' hb]
    · rw [List.append_assoc, List.append_assoc, List.drop_left' hb,
        List.take_left' (length_toLE 2 _),
        fromLE_toLE_of_lt (by have : 256 ^ 2 = 65536 := rfl; omega), he]
    · have h57 : (v.hdr.bytes ++ toLE 2 region.length ++ region ++
          toLE 2 ((region.map UInt8.toNat).sum % 65536)).length - 57 = region.length := by
        simp only [List.length_append, length_toLE, hb]; omega
      rw [h57, List.append_assoc (v.hdr.bytes ++ toLE 2 region.length),
        List.drop_left' (by simp [hb]), List.take_left' rfl, hbs2]
  refine ⟨fits, ⟨?_, over⟩, ?_⟩
  · intro h
    by_contra hcon
    obtain ⟨_, b, _, hb, _⟩ := fits (by omega)
    rw [hb] at h
    cases h
  · intro e he hlen
    apply over
    have h1 : e.len ≤ (v.entries.map Ent.len).sum := by
      generalize v.entries = es at he
      induction es with
      | nil => simp at he
      | cons x xs ih =>
        rw [List.map_cons, List.sum_cons]
        rcases List.mem_cons.1 he with rfl | h
        · omega
        · have := ih h
          omega
    have : e.len = 2 + e.metaLength + 2 + e.body.bytes.length := rfl
    omega

/-- A header for the TI-84 Plus CE. -/
def exHdr : Hdr :=
  ⟨[42, 42, 84, 73, 56, 51, 70, 42], [0x1A, 0x0A], [0x13], List.replicate 42 0x20⟩

example : (Var.bytes ⟨exHdr, [sampleProgram, sampleAppVar], none⟩).toOption.map List.length =
    some (57 + 22 + 19) := by decide +kernel

/-! ### C29 – `len(var)` -/

/-- C29 is false: `len(var)` is always two less than the number of bytes. -/
theorem C29_len_false (v : Var) (hw : v.hdr.Widths) (hs : ∀ e ∈ v.entries, Sections e) (b : Bytes)
    (hb : v.bytes = .ok b) : v.len + 2 = b.length := by
  have hl : (v.entries.map Ent.len).sum ≤ 65535 := by
    by_contra hcon
    rw [(C28_framing v hw hs).2.1.2 (by omega)] at hb
    cases hb
  obtain ⟨bs, b', _, hb', hlen, _⟩ := (C28_framing v hw hs).1 hl
  rw [hb] at hb'
  injection hb' with hb'
  subst hb'
  have h1 : v.len = 53 + (v.entries.map Ent.len).sum + 2 := rfl
  omega

/-- C29, what holds: the length grows by the length of each entry, and is that of the file less the
checksum. -/
theorem C29_len_partial (v : Var) (e : Ent) (hw : v.hdr.Widths) (hs : ∀ x ∈ v.entries, Sections x)
    (he : Sections e) (b : Bytes) (hb : Var.bytes { v with entries := v.entries ++ [e] } = .ok b) :
    Var.len { v with entries := v.entries ++ [e] } = v.len + e.len ∧
      Var.len { v with entries := v.entries ++ [e] } = (b.take (b.length - 2)).length := by
  have h2 := C29_len_false { v with entries := v.entries ++ [e] } hw (by
    intro x hx
    rcases List.mem_append.1 hx with h | h
    · exact hs x h
    · simp only [List.mem_singleton] at h; subst h; exact he) b hb
  refine ⟨?_, ?_⟩
  · simp [Var.len, Var.entryLength, Hdr.len]; omega
  · rw [List.length_take]; omega

example : Var.len ⟨exHdr, [sampleProgram], none⟩ = 77 ∧
    (Var.bytes ⟨exHdr, [sampleProgram], none⟩).toOption.map List.length = some 79 := by
  decide +kernel

/-! ### C27 – round trip -/

theorem storable_loads (env : Env V) {e : Ent} (h : Storable e) :
    ∃ e' ws, Loads env e e' ws ∧ SameEntry e e' ∧ (∀ w ∈ ws, w ∉ varCorruption) ∧
      ws = loadWarnings e'.cls e.metaLen e.version ∧ e'.cls.typeId = some (fromLE e.typeId) ∧
      e'.bytes = e.bytes := by
  obtain ⟨c, hc, hl⟩ := Ent.load_bytes_base env h.wf h.flash h.content (Ent.bytes_ok h.wf.length)
    (e₀ := Ent.fresh env) rfl
  refine ⟨_, _, ⟨_, Ent.bytes_ok h.wf.length, hl⟩, ⟨rfl, rfl, rfl, rfl, rfl, rfl⟩, ?_, rfl, hc, rfl⟩
  intro w hw
  unfold loadWarnings at hw
  rcases List.mem_append.1 hw with h | h <;> split at h <;> simp at h
  all_goals (subst h; decide)

/-- Loading a framed file of storable entries. -/
theorem load_storable (env : Env V) (me : ModelEnv) {h : Hdr} (hw : h.Widths) {es : List Ent}
    (hst : ∀ e ∈ es, Storable e) {region c : Bytes} (hr : entryBytes es = .ok region)
    (hlen : region.length ≤ 65535) (hc : c.length = 2) (v₀ : Var) :
    ∃ es' ws, List.Forall₂ (fun e e' => SameEntry e e' ∧ e'.cls.typeId = some (fromLE e.typeId))
        es es' ∧ (∀ w ∈ ws, w ∉ varCorruption) ∧ entryBytes es' = .ok region ∧
      ((∀ f, es.head? = some f → f.metaLength = 13) → .metaConflict ∉ ws) ∧
      (∀ f, es.head? = some f → f.metaLength ≠ 13 → 2 ≤ es.length → .metaConflict ∈ ws) ∧
      load env me (h.bytes ++ toLE 2 region.length ++ region ++ c) v₀ =
        warned ws (afterLoop me c ⟨h, es', v₀.model⟩) := by
  rcases load_framed env me hw (fun e he => (hst e he).wf.toSections) hr hlen hc v₀ with
    ⟨es', ws, hf, hws, hws2, hl⟩ | ⟨e, he, b', x, h1, h2, h3⟩
  · have det : ∀ e e' w, Storable e → Loads env e e' w →
        (SameEntry e e' ∧ e'.cls.typeId = some (fromLE e.typeId)) ∧ (∀ x ∈ w, x ∉ varCorruption) ∧
          e'.bytes = e.bytes ∧ .metaConflict ∉ w := by
      intro e e' w hse hl
      obtain ⟨e'', ws, ⟨b, hb, hl2⟩, hsame, hno, hlw, hty, hby⟩ := storable_loads env hse
      obtain ⟨b', hb', hl1⟩ := hl
      rw [hb] at hb'
      injection hb' with hb'
      subst hb'
      rw [hl1] at hl2
      injection hl2 with _ h1 h2
      subst h1 h2
      refine ⟨⟨hsame, hty⟩, hno, hby, ?_⟩
      intro hm
      rw [hlw] at hm
      unfold loadWarnings at hm
      rcases List.mem_append.1 hm with h | h <;> split at h <;> simp at h
    have hhead : (∀ f, es.head? = some f → ∃ f', es'.head? = some f' ∧ f'.metaLength = f.metaLength) ∧
        (∀ f', es'.head? = some f' → ∃ f, es.head? = some f ∧ f'.metaLength = f.metaLength) := by
      cases hf with
      | nil => simp
      | cons hx _ =>
        obtain ⟨w, hx⟩ := hx
        have := (det _ _ w (hst _ (by simp)) hx).1.1.1
        simp [Ent.metaLength, this]
    refine ⟨es', ws, ?_, ?_, ?_, ?_, ?_, hl⟩
    · clear hl hws hr hhead hws2
      induction hf with
      | nil => exact List.Forall₂.nil
      | cons hx _ ih =>
        obtain ⟨w, hx⟩ := hx
        exact List.Forall₂.cons (det _ _ w (hst _ (by simp)) hx).1
          (ih fun e he => hst e (by simp [he]))
    · intro w hw'
      rcases hws w hw' with ⟨rfl, -⟩ | ⟨e, e', w', he, hl', hm⟩
      · decide
      · exact (det e e' w' (hst e he) hl').2.1 w hm
    · rw [← hr]
      clear hl hws hr hhead hws2
      induction hf with
      | nil => rfl
      | cons hx _ ih =>
        obtain ⟨w, hx⟩ := hx
        unfold entryBytes
        rw [(det _ _ w (hst _ (by simp)) hx).2.2.1, ih fun e he => hst e (by simp [he])]
    · intro h13 hmem
      rcases hws _ hmem with ⟨-, g, hg, hgm⟩ | ⟨e, e', w', he, hl', hm⟩
      · obtain ⟨f, hf1, hfm⟩ := hhead.2 g hg
        exact hgm (hfm.trans (h13 f hf1))
      · exact (det e e' w' (hst e he) hl').2.2.2 hm
    · intro f hf1 h h2
      obtain ⟨f', hf1', hfm⟩ := hhead.1 f hf1
      exact hws2 f' hf1' (by rw [hfm]; exact h) h2
  · exfalso
    obtain ⟨e', ws, ⟨b, hb, hl⟩, _⟩ := storable_loads env (hst e he)
    rw [hb] at h1
    injection h1 with h1
    subst h1
    rw [hl] at h2
    cases h2

/-- C27, the part that holds: for any header and any list of storable entries of total length below
65536, serialising and loading into a var without a target model gives the same header and the
same entries in order, and no warning reports damage. Missing: entries that are not storable
(C23 is false of them) and vars with a target model (C35). -/
theorem C27_var_roundtrip_partial (env : Env V) (me : ModelEnv) (v v₀ : Var) (hw : v.hdr.Widths)
    (hst : ∀ e ∈ v.entries, Storable e) (hl : (v.entries.map Ent.len).sum < 65536)
    (hm : v₀.model = none) :
    ∃ b v' ws, v.bytes = .ok b ∧ load env me b v₀ = ⟨.ok (), v', ws⟩ ∧ v'.hdr = v.hdr ∧
      List.Forall₂ (fun e e' => SameEntry e e' ∧ e'.cls.typeId = some (fromLE e.typeId))
        v.entries v'.entries ∧ ∀ w ∈ ws, w ∉ varCorruption := by
  have hs : ∀ e ∈ v.entries, Sections e := fun e he => (hst e he).wf.toSections
  obtain ⟨region, hr⟩ := entryBytes_ok hs (by omega)
  have hrl := entryBytes_length hs hr
  have hb := bytes_framed hs hr (by omega)
  obtain ⟨es', ws, hf, hws, hre, hcf, hcf2, hload⟩ := load_storable env me hw hst hr (by omega)
    (length_toLE 2 ((region.map UInt8.toNat).sum % 65536)) v₀
  have hck := checksum_eq (v := ⟨v.hdr, es', v₀.model⟩) hre
  refine ⟨_, ⟨v.hdr, es', v₀.model⟩, ws, hb, ?_, rfl, hf, hws⟩
  rw [hload]
  rw [hm] at hck
  simp [warned, afterLoop, checkModel, PyM.bind_run, hm, hck]

example : Storable sampleProgram := ⟨⟨⟨Or.inr rfl, rfl, rfl, rfl, rfl⟩, Or.inr rfl, by decide,
  by decide⟩, fun _ => by unfold FlashIsLength; decide, by unfold ContentOK; decide⟩

example : (match Var.bytes ⟨exHdr, [sampleProgram, sampleAppVar], none⟩ with
    | .ok b => (load sampleEnv ⟨fun _ => 0, id⟩ b ⟨Hdr.unset, [], none⟩) ==
      (⟨.ok (), ⟨exHdr, [sampleProgram, sampleAppVar], none⟩, [.flashlessLoad]⟩ : Out Var Unit)
    | .error _ => false) = true := by decide +kernel

/-- C27 is false: one entry, well formed, whose flash bytes repeat its data length comes back with
its data shifted. -/
theorem C27_var_roundtrip_false : ∃ e : Ent, WF e ∧ ∃ b v' ws,
    Var.bytes ⟨exHdr, [e], none⟩ = .ok b ∧
    load sampleEnv ⟨fun _ => 0, id⟩ b ⟨Hdr.unset, [], none⟩ = ⟨.ok (), v', ws⟩ ∧
    ∃ e', v'.entries = [e'] ∧ ¬SameEntry e e' ∧ e'.body.bytes ≠ e.body.bytes := by
  refine ⟨⟨.program, [0x0D, 0], [0x05], [0x41, 0, 0, 0, 0, 0, 0, 0], [0x06], [0x00],
    ⟨true, [0x04, 0x00, 0x31, 0x32, 0x33, 0x34]⟩⟩, ⟨⟨Or.inr rfl, rfl, rfl, rfl, rfl⟩, Or.inl rfl,
    by decide, by decide⟩, _, _, _, rfl, rfl, _, rfl, ?_, ?_⟩
  · unfold SameEntry
    decide +kernel
  · decide +kernel

/-! ### C68 – the meta-length warning -/

/-- C68, the part that holds: loading the bytes of a var of storable entries whose first entry has a
flash meta section never warns of conflicting meta lengths. -/
theorem C68_meta_conflict_partial (env : Env V) (me : ModelEnv) (v v₀ : Var) (hw : v.hdr.Widths)
    (hst : ∀ e ∈ v.entries, Storable e) (hm : v₀.model = none) (b : Bytes) (hb : v.bytes = .ok b)
    (h13 : ∀ e ∈ v.entries, e.metaLen = [0x0D, 0x00]) :
    ∃ v' ws, load env me b v₀ = ⟨.ok (), v', ws⟩ ∧ .metaConflict ∉ ws := by
  have hs : ∀ e ∈ v.entries, Sections e := fun e he => (hst e he).wf.toSections
  have hl : (v.entries.map Ent.len).sum ≤ 65535 := by
    by_contra hcon
    rw [(C28_framing v hw hs).2.1.2 (by omega)] at hb
    cases hb
  obtain ⟨region, hr⟩ := entryBytes_ok hs (by omega)
  have hrl := entryBytes_length hs hr
  rw [bytes_framed hs hr (by omega)] at hb
  injection hb with hb
  obtain ⟨es', ws, hf, hws, hre, hcf, hcf2, hload⟩ := load_storable env me hw hst hr (by omega)
    (length_toLE 2 ((region.map UInt8.toNat).sum % 65536)) v₀
  have hck := checksum_eq (v := ⟨v.hdr, es', v₀.model⟩) hre
  refine ⟨⟨v.hdr, es', v₀.model⟩, ws, ?_, ?_⟩
  · rw [← hb, hload]
    rw [hm] at hck
    simp [warned, afterLoop, checkModel, PyM.bind_run, hm, hck]
  · apply hcf
    intro f hf1
    have := h13 f (List.mem_of_mem_head? hf1)
    unfold Ent.metaLength
    rw [this]
    rfl

/-- C68 is false: two or more flashless entries, all of meta length 11, always give the warning. -/
theorem C68_meta_conflict_false (env : Env V) (me : ModelEnv) (v v₀ : Var) (hw : v.hdr.Widths)
    (hst : ∀ e ∈ v.entries, Storable e) (hm : v₀.model = none) (b : Bytes) (hb : v.bytes = .ok b)
    (h11 : ∀ e ∈ v.entries, e.metaLen = [0x0B, 0x00]) (h2 : 2 ≤ v.entries.length) :
    (load env me b v₀).res = .ok () ∧ .metaConflict ∈ (load env me b v₀).warns := by
  have hs : ∀ e ∈ v.entries, Sections e := fun e he => (hst e he).wf.toSections
  have hl : (v.entries.map Ent.len).sum ≤ 65535 := by
    by_contra hcon
    rw [(C28_framing v hw hs).2.1.2 (by omega)] at hb
    cases hb
  obtain ⟨region, hr⟩ := entryBytes_ok hs (by omega)
  have hrl := entryBytes_length hs hr
  rw [bytes_framed hs hr (by omega)] at hb
  injection hb with hb
  obtain ⟨es', ws, hf, hws, hre, hcf, hcf2, hload⟩ := load_storable env me hw hst hr (by omega)
    (length_toLE 2 ((region.map UInt8.toNat).sum % 65536)) v₀
  have hck := checksum_eq (v := ⟨v.hdr, es', v₀.model⟩) hre
  have hmem : .metaConflict ∈ ws := by
    cases he : v.entries with
    | nil => rw [he] at h2; simp at h2
    | cons e es =>
      refine hcf2 e (by rw [he]; rfl) ?_ h2
      have := h11 e (by rw [he]; simp)
      unfold Ent.metaLength
      rw [this]
      decide
  rw [← hb, hload]
  rw [hm] at hck
  simp [warned, afterLoop, checkModel, PyM.bind_run, hm, hck, hmem]

example : (match Var.bytes ⟨exHdr, [sampleAppVar, sampleAppVar], none⟩ with
    | .ok b => (load sampleEnv ⟨fun _ => 0, id⟩ b ⟨Hdr.unset, [], none⟩).warns
    | .error _ => []) = [.flashlessLoad, .metaConflict, .flashlessLoad] := by decide +kernel

/-! ### C30 – checksum -/

theorem sum_set (l : Bytes) (i : Nat) (x : UInt8) (h : i < l.length) :
    ((l.set i x).map UInt8.toNat).sum + l[i].toNat = (l.map UInt8.toNat).sum + x.toNat := by
  induction l generalizing i with
  | nil => simp at h
  | cons a l ih =>
    cases i with
    | zero => simp; omega
    | succ i =>
      have := ih i (by simpa using h)
      simp only [List.set_cons_succ, List.map_cons, List.sum_cons, List.getElem_cons_succ]
      omega

/-- C30. The last two bytes of a saved var are the sum of the bytes of its entry region modulo 65536;
changing any one byte of the region changes that sum. -/
theorem C30_checksum (v : Var) (hw : v.hdr.Widths) (hs : ∀ e ∈ v.entries, Sections e) (b : Bytes)
    (hb : v.bytes = .ok b) :
    let region := (b.drop 55).take (b.length - 57)
    fromLE (b.drop (b.length - 2)) = (region.map UInt8.toNat).sum % 65536 ∧
    ∀ (i : Nat) (x : UInt8) (h : i < region.length), x ≠ region[i] →
      ((region.set i x).map UInt8.toNat).sum % 65536 ≠ (region.map UInt8.toNat).sum % 65536 := by
  intro region
  have hl : (v.entries.map Ent.len).sum ≤ 65535 := by
    by_contra hcon
    rw [(C28_framing v hw hs).2.1.2 (by omega)] at hb
    cases hb
  refine ⟨?_, ?_⟩
  · obtain ⟨r, hr⟩ := entryBytes_ok hs hl
    have he := entryBytes_length hs hr
    have hbl := Hdr.bytes_length hw
    have hf := bytes_framed hs hr (by omega)
    rw [hf] at hb
    injection hb with hb
    have hlen : b.length = 57 + r.length := by
      rw [← hb]; simp only [List.length_append, length_toLE, hbl]; omega
    have hregion : region = r := by
      show (b.drop 55).take (b.length - 57) = r
      rw [hlen, ← hb, List.append_assoc (v.hdr.bytes ++ toLE 2 r.length),
        List.drop_left' (by simp [hbl]), List.take_left' (by omega)]
    rw [hregion, hlen, ← hb, List.drop_left' (by
      simp only [List.length_append, length_toLE, hbl]; omega)]
    exact fromLE_toLE_of_lt (by
      have : 256 ^ 2 = 65536 := rfl
      have := Nat.mod_lt (r.map UInt8.toNat).sum (show 0 < 65536 by decide)
      omega)
  · intro i x h hx hcon
    have hsum := sum_set region i x h
    have h1 := x.toNat_lt
    have h2 := region[i].toNat_lt
    apply hx
    apply UInt8.toNat_inj.1
    omega

/-- C30, the warning: a file of storable entries whose stored checksum is any other than the sum
gives the checksum warning when loaded. -/
theorem C30_mismatch_partial (env : Env V) (me : ModelEnv) (v v₀ : Var) (hw : v.hdr.Widths)
    (hst : ∀ e ∈ v.entries, Storable e) (hm : v₀.model = none) (b c : Bytes) (hb : v.bytes = .ok b)
    (hc : c.length = 2) (hne : c ≠ b.drop (b.length - 2)) :
    ∃ v' ws, load env me (b.take (b.length - 2) ++ c) v₀ = ⟨.ok (), v', ws⟩ ∧ .checksum ∈ ws := by
  have hs : ∀ e ∈ v.entries, Sections e := fun e he => (hst e he).wf.toSections
  have hl : (v.entries.map Ent.len).sum ≤ 65535 := by
    by_contra hcon
    rw [(C28_framing v hw hs).2.1.2 (by omega)] at hb
    cases hb
  obtain ⟨region, hr⟩ := entryBytes_ok hs (by omega)
  have hrl := entryBytes_length hs hr
  have hf := bytes_framed hs hr (by omega)
  rw [hf] at hb
  injection hb with hb
  have hlen : b.length - 2 = (v.hdr.bytes ++ toLE 2 region.length ++ region).length := by
    rw [← hb]; simp only [List.length_append, length_toLE]; omega
  have h1 : b.take (b.length - 2) = v.hdr.bytes ++ toLE 2 region.length ++ region := by
    rw [hlen, ← hb, List.take_left' rfl]
  have h2 : b.drop (b.length - 2) = toLE 2 ((region.map UInt8.toNat).sum % 65536) := by
    rw [hlen, ← hb, List.drop_left' rfl]
  obtain ⟨es', ws, -, -, hre, -, -, hload⟩ := load_storable env me hw hst hr (by omega) hc v₀
  have hck := checksum_eq (v := ⟨v.hdr, es', v₀.model⟩) hre
  rw [h2] at hne
  rw [h1, hload]
  rw [hm] at hck
  refine ⟨⟨v.hdr, es', none⟩, ws ++ [.checksum], ?_, by simp⟩
  simp [warned, afterLoop, checkModel, PyM.bind_run, hm, hck, hne]

/-- C30 is false as to detecting corruption: the checksum compared is that of the entries as
loaded, not of the bytes of the file, so that a corrupted second length field of an entry
passes without the checksum warning. -/
theorem C30_corruption_false : ∃ (v : Var) (b : Bytes) (i : Nat) (x : UInt8), v.hdr.Widths ∧
    (∀ e ∈ v.entries, Sections e) ∧ v.bytes = .ok b ∧ 55 ≤ i ∧ i < b.length - 2 ∧
    some x ≠ b[i]? ∧
    (load sampleEnv ⟨fun _ => 0, id⟩ (b.set i x) ⟨Hdr.unset, [], none⟩).res = .ok () ∧
    .checksum ∉ (load sampleEnv ⟨fun _ => 0, id⟩ (b.set i x) ⟨Hdr.unset, [], none⟩).warns := by
  refine ⟨⟨exHdr, [sampleProgram], none⟩, _, 70, 0x63, ⟨rfl, rfl, rfl, rfl⟩, ?_, rfl, by decide,
    ?_, ?_, ?_, ?_⟩
  · intro e he
    simp only [List.mem_singleton] at he
    subst he
    exact ⟨Or.inr rfl, rfl, rfl, rfl, rfl⟩
  all_goals decide +kernel

/-! ### C31 – termination -/

/-- C31. Loading any byte string as a var terminates: the entry-reading loop makes the same
computation for every bound on its iterations above the entry length, and at most a quarter
of the entry length, rounded up, of entries result. -/
theorem C31_load_terminates (env : Env V) (me : ModelEnv) (data : Bytes) (v₀ : Var) :
    (∀ (s : Stream) (v : Var) (k : Nat),
      loadLoop env (fromLE ((data.drop 53).take 2) + 1 + k) (fromLE ((data.drop 53).take 2) : Nat) s v =
      loadLoop env (fromLE ((data.drop 53).take 2) + 1) (fromLE ((data.drop 53).take 2) : Nat) s v) ∧
    (load env me data v₀).st.entries.length ≤ (fromLE ((data.drop 53).take 2) + 3) / 4 := by
  refine ⟨fun s v k => loadLoop_fuel env _ _ _ _ s v (Int.le_refl _) (by omega) (by omega), ?_⟩
  have hst : ∀ {α β : Type} {x : PyM Var α} {f : α → PyM Var β} {s : Var} {n : Nat},
      (∀ a s, (f a s).st.entries = s.entries) → (x s).st.entries.length ≤ n →
      ((x >>= f) s).st.entries.length ≤ n := by
    intro α β x f s n hf hx
    rw [PyM.bind_run]
    rcases hr : x s with ⟨r, s', w⟩
    rw [hr] at hx
    cases r with
    | error e => exact hx
    | ok a => simp only; rw [hf]; exact hx
  have hck : ∀ s : Var, (checkModel me s).st = s := by
    intro s
    unfold checkModel
    rw [PyM.bind_run]
    simp only [PyM.get_run]
    cases s.model with
    | none => rfl
    | some m =>
      simp only [PyM.bind_run, PyM.ofExcept_run]
      cases s.hdr.targets with
      | error e => rfl
      | ok ts =>
        simp only
        cases minModels me.ord (me.iter ts) with
        | error e => rfl
        | ok l => simp only [PyM.ite_run]; split <;> rfl
  unfold load
  rcases hr1 : (Stream.ofBytes data).read 53 with ⟨h, s1⟩
  rcases hr2 : s1.read 2 with ⟨l, s2⟩
  have hl : l = (data.drop 53).take 2 := by
    simp only [Stream.read, Stream.peek, Stream.ofBytes, Prod.mk.injEq] at hr1 hr2
    obtain ⟨-, rfl⟩ := hr1
    obtain ⟨rfl, -⟩ := hr2
    simp only [List.drop_zero, List.length_take]
    by_cases hd : 53 ≤ data.length
    · rw [show 0 + min 53 data.length = 53 by omega]
    · rw [List.drop_eq_nil_of_le (by omega), List.drop_eq_nil_of_le (by omega)]
  simp only [hr1, hr2]
  have hoh : onHeader (Hdr.load h) v₀ = ⟨.ok (), { v₀ with hdr := (Hdr.load h v₀.hdr).st }, []⟩ := by
    simp [onHeader, Hdr.load_run]
  rw [PyM.bind_ok hoh, PyM.bind_ok (PyM.modify_run _ _)]
  simp only
  refine hst ?_ ?_
  · intro a s
    rcases a with ⟨left, s3⟩
    simp only
    by_cases hneg : left < 0 <;> simp only [hneg, if_true, if_false] <;>
      rcases s3.read 2 with ⟨sum, s4⟩ <;>
      simp only [PyM.bind_run, PyM.warn_run]
    all_goals
      rcases hcm : checkModel me s with ⟨r, s', w⟩
      have hs' : s' = s := by have := hck s; rw [hcm] at this; exact this
      subst hs'
      cases r with
      | error e => rfl
      | ok u =>
        simp only [PyM.get_run, PyM.ofExcept_run]
        cases s'.checksum with
        | error e => rfl
        | ok c => simp only [PyM.ite_run]; split <;> rfl
  · have := loadLoop_count env (fromLE l + 1) (fromLE l : Nat) s2
      { v₀ with hdr := (Hdr.load h v₀.hdr).st, entries := [] }
    rw [hl] at this ⊢
    simpa using this

/-- A truncated file: the look-ahead at the end reads nothing and seeks back. -/
example : (load sampleEnv ⟨fun _ => 0, id⟩ (List.replicate 53 0 ++ [9, 0, 0x0B]) ⟨Hdr.unset, [], none⟩).st.entries.length
    = 1 := by decide +kernel

/-! ### C32 – loading by offset -/

theorem skipEntries_bytes {es : List Ent} (hs : ∀ e ∈ es, Sections e) {b pre post : Bytes}
    (hb : entryBytes es = .ok b) : skipEntries es.length ⟨pre ++ (b ++ post), pre.length⟩ =
      ([], ⟨pre ++ (b ++ post), (pre ++ b).length⟩) := by
  induction es generalizing b pre with
  | nil => injection hb with hb; subst hb; simp [skipEntries]
  | cons e es ih =>
    obtain ⟨b1, b2, h1, h2, rfl⟩ := entryBytes_cons hb
    have hse := hs e (by simp)
    have hn := nextEntryLength_bytes hse (pre := pre) (post := b2 ++ post) h1
    have hbl := (Ent.bytes_layout hse h1).2.1
    have ih' := ih (fun x hx => hs x (by simp [hx])) (pre := pre ++ b1) h2
    have hassoc : pre ++ (b1 ++ b2 ++ post) = pre ++ (b1 ++ (b2 ++ post)) := by simp
    have hassoc2 : pre ++ b1 ++ (b2 ++ post) = pre ++ (b1 ++ (b2 ++ post)) := by simp
    have hseek : Stream.seekRel ⟨pre ++ (b1 ++ (b2 ++ post)), pre.length⟩ (e.len : Int) =
        ⟨pre ++ (b1 ++ (b2 ++ post)), (pre ++ b1).length⟩ := by
      simp only [Stream.seekRel, List.length_append, hbl, Stream.mk.injEq, true_and]
      omega
    rw [hassoc2] at ih'
    rw [List.length_cons, skipEntries, hassoc, hn]
    simp only [hseek, ih']
    simp

/-- C32. For every saved var that loads – whatever its entries – and every index below its number of
entries, loading the single entry at that offset succeeds and gives the entry of the
loaded var. -/
theorem C32_offset (env : Env V) (me : ModelEnv) (v v₀ : Var) (hw : v.hdr.Widths)
    (hs : ∀ e ∈ v.entries, Sections e) (b : Bytes) (hb : v.bytes = .ok b)
    (hload : (load env me b v₀).res = .ok ()) (k : Nat) (hk : k < v.entries.length) :
    ∃ e' s ws, (load env me b v₀).st.entries[k]? = some e' ∧
      Ent.loadFromFile env (Stream.ofBytes b) k (Ent.fresh env) = ⟨.ok s, e', ws⟩ := by
  have hl : (v.entries.map Ent.len).sum ≤ 65535 := by
    by_contra hcon
    rw [(C28_framing v hw hs).2.1.2 (by omega)] at hb
    cases hb
  obtain ⟨region, hr⟩ := entryBytes_ok hs (by omega)
  have hrl := entryBytes_length hs hr
  have hf := bytes_framed hs hr (by omega)
  rw [hf] at hb
  injection hb with hb
  rw [← hb] at hload ⊢
  rcases load_framed env me hw hs hr (by omega)
    (length_toLE 2 ((region.map UInt8.toNat).sum % 65536)) v₀ with
    ⟨es', ws, hf2, hws, -, hl2⟩ | ⟨e, he, b', x, h1, h2, h3⟩
  · have hst : (load env me (v.hdr.bytes ++ toLE 2 region.length ++ region ++
        toLE 2 ((region.map UInt8.toNat).sum % 65536)) v₀).st.entries = es' := by
      rw [hl2]
      simp only [warned, afterLoop, PyM.bind_run]
      have hck : (checkModel me ⟨v.hdr, es', v₀.model⟩).st = ⟨v.hdr, es', v₀.model⟩ := by
        unfold checkModel
        rw [PyM.bind_run]
        simp only [PyM.get_run]
        cases v₀.model with
        | none => rfl
        | some m =>
          simp only [PyM.bind_run, PyM.ofExcept_run]
          cases v.hdr.targets with
          | error e => rfl
          | ok ts =>
            simp only
            cases minModels me.ord (me.iter ts) with
            | error e => rfl
            | ok l => simp only [PyM.ite_run]; split <;> rfl
      rcases hcm : checkModel me ⟨v.hdr, es', v₀.model⟩ with ⟨r, s', w⟩
      rw [hcm] at hck
      simp only at hck
      subst hck
      cases r with
      | error e => rfl
      | ok u =>
        simp only [PyM.get_run, PyM.ofExcept_run]
        cases Var.checksum ⟨v.hdr, es', v₀.model⟩ with
        | error e => rfl
        | ok c => simp only [PyM.ite_run]; split <;> rfl
    rw [hst]
    -- the k-th entry
    have hsplit : v.entries = v.entries.take k ++ (v.entries[k] :: v.entries.drop (k + 1)) := by
      rw [← List.drop_eq_getElem_cons hk, List.take_append_drop]
    have hpieces : ∃ r1 b1 r2, entryBytes (v.entries.take k) = .ok r1 ∧
        v.entries[k].bytes = .ok b1 ∧ region = r1 ++ (b1 ++ r2) := by
      have app : ∀ (xs ys : List Ent) (r : Bytes), entryBytes (xs ++ ys) = .ok r →
          ∃ r1 r2, entryBytes xs = .ok r1 ∧ entryBytes ys = .ok r2 ∧ r = r1 ++ r2 := by
        intro xs
        induction xs with
        | nil => intro ys r h; exact ⟨[], r, rfl, h, rfl⟩
        | cons x xs ih =>
          intro ys r h
          obtain ⟨a, c, h1, h2, rfl⟩ := entryBytes_cons h
          obtain ⟨r1, r2, h3, h4, rfl⟩ := ih ys c h2
          refine ⟨a ++ r1, r2, ?_, h4, by simp⟩
          unfold entryBytes
          rw [h1, h3]
      rw [hsplit] at hr
      obtain ⟨r1, r2, h1, h2, h3⟩ := app _ _ _ hr
      obtain ⟨b1, r3, h4, h5, h6⟩ := entryBytes_cons h2
      exact ⟨r1, b1, r3, h1, h4, by rw [h3, h6]⟩
    obtain ⟨r1, b1, r2, hr1, hb1, hreg⟩ := hpieces
    have hk' : k < es'.length := by rw [← hf2.length_eq]; exact hk
    obtain ⟨w, b2, hb2, hl3⟩ := hf2.get (i := k) hk hk'
    simp only [List.get_eq_getElem] at hb2 hl3
    rw [hb1] at hb2
    injection hb2 with hb2
    subst hb2
    have hsk := hs v.entries[k] (List.getElem_mem hk)
    refine ⟨es'[k], ?_⟩
    have hbl := Hdr.bytes_length hw
    generalize hc : toLE 2 ((region.map UInt8.toNat).sum % 65536) = c
    have hdata : v.hdr.bytes ++ toLE 2 region.length ++ region ++ c =
        (v.hdr.bytes ++ toLE 2 region.length) ++ (r1 ++ (b1 ++ r2 ++ c)) := by
      rw [hreg]; simp
    have hdata2 : v.hdr.bytes ++ toLE 2 region.length ++ region ++ c =
        (v.hdr.bytes ++ toLE 2 region.length ++ r1) ++ (b1 ++ (r2 ++ c)) := by
      rw [hreg]; simp
    have hread1 := Stream.read_app' (data := v.hdr.bytes ++ toLE 2 region.length ++ region ++ c)
      (p := 0) (pre := []) (mid := v.hdr.bytes) (post := toLE 2 region.length ++ region ++ c)
      (n := 53) (by simp) rfl hbl
    have hseek : Stream.seekRel ⟨v.hdr.bytes ++ toLE 2 region.length ++ region ++ c, 0 + 53⟩ 2 =
        ⟨(v.hdr.bytes ++ toLE 2 region.length) ++ (r1 ++ (b1 ++ r2 ++ c)),
          (v.hdr.bytes ++ toLE 2 region.length).length⟩ := by
      rw [hdata]
      simp [Stream.seekRel, hbl]
    have hskip := skipEntries_bytes (fun e he => hs e (List.mem_of_mem_take he))
      (pre := v.hdr.bytes ++ toLE 2 region.length) (post := b1 ++ r2 ++ c) hr1
    rw [List.length_take, Nat.min_eq_left (Nat.le_of_lt hk)] at hskip
    rw [← hdata, hdata2] at hskip
    have hnext := nextEntryLength_bytes hsk
      (pre := v.hdr.bytes ++ toLE 2 region.length ++ r1) (post := r2 ++ c) hb1
    have hread2 := Stream.read_app (v.hdr.bytes ++ toLE 2 region.length ++ r1) b1 (r2 ++ c)
      (Ent.bytes_layout hsk hb1).2.1
    refine ⟨Stream.seekRel ⟨v.hdr.bytes ++ toLE 2 region.length ++ r1 ++ (b1 ++ (r2 ++ c)),
      (v.hdr.bytes ++ toLE 2 region.length ++ r1).length + v.entries[k].len⟩ 2, w,
      by rw [List.getElem?_eq_getElem hk'], ?_⟩
    unfold Ent.loadFromFile
    simp only [Stream.ofBytes, hread1, hseek]
    rw [← hdata, hdata2, hskip]
    simp only [hnext, hread2]
    simp only [PyM.bind_run, PyM.warnAll_run, hl3, List.nil_append, PyM.pure_run,
      List.append_nil]
  · rw [h3] at hload
    cases hload

example : (match Var.bytes ⟨exHdr, [sampleProgram, sampleAppVar], none⟩ with
    | .ok b => (Ent.loadFromFile sampleEnv (Stream.ofBytes b) 1 (Ent.fresh sampleEnv)).st == sampleAppVar
    | .error _ => false) = true := by decide +kernel

/-! ### C33 – adding entries -/

omit [LinearOrder V] in
/-- C33, the part that holds: an entry with data is appended as it is, the others being unchanged;
the only warning is for a meta length different from that of the first entry. -/
theorem C33_add_entry_partial (env : Env V) (v : Var) (e : Ent) (he : e.body.bytes ≠ []) :
    ∃ ws, addEntry env (some e) v = ⟨.ok (), { v with entries := v.entries ++ [e] }, ws⟩ ∧
      (∀ f, v.entries.head? = some f → fromLE f.metaLen = fromLE e.metaLen → ws = []) := by
  have hne : e.isEmpty = false := by
    simp [Ent.isEmpty, Ent.calcLength, he]
  cases h : v.entries with
  | nil => exact ⟨[], by simp [addEntry, PyM.bind_run, h, hne], by simp⟩
  | cons x xs =>
    by_cases hm : e.metaLength = x.metaLength
    · exact ⟨[], by simp [addEntry, PyM.bind_run, h, hne, hm], fun _ _ _ => rfl⟩
    · refine ⟨[.metaConflict], by simp [addEntry, PyM.bind_run, h, hne, hm], ?_⟩
      intro f hf hfm
      simp only [List.head?_cons, Option.some.injEq] at hf
      subst hf
      exact absurd hfm.symm hm

omit [LinearOrder V] in
/-- C33 is false: an entry without data is replaced by a new unnamed base entry. -/
theorem C33_add_entry_false (env : Env V) (v : Var) (e : Ent) (he : e.body.bytes = []) :
    ∃ ws, addEntry env (some e) v =
      ⟨.ok (), { v with entries := v.entries ++ [Ent.fresh env] }, ws⟩ := by
  have hne : e.isEmpty = true := by
    simp [Ent.isEmpty, Ent.calcLength, he]
  have h := addEntry_none env v
  refine ⟨conflictOf v.entries, ?_⟩
  rw [← h]
  simp [addEntry, hne]

example : ((addEntry sampleEnv (some { sampleProgram with body := ⟨true, []⟩ })
      ⟨exHdr, [], none⟩).st.entries.map Ent.name) = [sampleEnv.unnamed] ∧
    (addEntry sampleEnv (some sampleAppVar) ⟨exHdr, [sampleProgram], none⟩) =
      ⟨.ok (), ⟨exHdr, [sampleProgram, sampleAppVar], none⟩, [.metaConflict]⟩ := by decide +kernel

/-! ### C35 – loading for a model -/

/-- The order and the set iteration make sense: iterating gives each element of the set once. -/
def SetIter (iter : List Model → List Model) : Prop := ∀ l, (iter l).Perm l

/-- What loading the bytes of a var of storable entries into a var for a model does depends on
the check of the model alone. -/
theorem load_for_model (env : Env V) (me : ModelEnv) {v v₀ : Var} (hw : v.hdr.Widths)
    (hst : ∀ e ∈ v.entries, Storable e) {b : Bytes} (hb : v.bytes = .ok b) :
    ∃ es' ws, (∀ w ∈ ws, w ∉ varCorruption) ∧
      List.Forall₂ (fun e e' => SameEntry e e' ∧ e'.cls.typeId = some (fromLE e.typeId))
        v.entries es' ∧
      load env me b v₀ = warned ws (checkModel me ⟨v.hdr, es', v₀.model⟩) := by
  have hs : ∀ e ∈ v.entries, Sections e := fun e he => (hst e he).wf.toSections
  have hl : (v.entries.map Ent.len).sum ≤ 65535 := by
    by_contra hcon
    rw [(C28_framing v hw hs).2.1.2 (by omega)] at hb
    cases hb
  obtain ⟨region, hr⟩ := entryBytes_ok hs (by omega)
  have hrl := entryBytes_length hs hr
  rw [bytes_framed hs hr (by omega)] at hb
  injection hb with hb
  obtain ⟨es', ws, hf, hws, hre, hcf, hcf2, hload⟩ := load_storable env me hw hst hr (by omega)
    (length_toLE 2 ((region.map UInt8.toNat).sum % 65536)) v₀
  have hck := checksum_eq (v := ⟨v.hdr, es', v₀.model⟩) hre
  refine ⟨es', ws, hws, hf, ?_⟩
  rw [← hb, hload]
  congr 1
  unfold afterLoop
  have hst : ∀ s : Var, (checkModel me s).st = s := by
    intro s
    unfold checkModel
    rw [PyM.bind_run]
    simp only [PyM.get_run]
    cases s.model with
    | none => rfl
    | some m =>
      simp only [PyM.bind_run, PyM.ofExcept_run]
      cases s.hdr.targets with
      | error e => rfl
      | ok ts =>
        simp only
        cases minModels me.ord (me.iter ts) with
        | error e => rfl
        | ok l => simp only [PyM.ite_run]; split <;> rfl
  rw [PyM.bind_run]
  have := hst ⟨v.hdr, es', v₀.model⟩
  rcases hcm : checkModel me ⟨v.hdr, es', v₀.model⟩ with ⟨r, s', w⟩
  rw [hcm] at this
  simp only at this
  subst this
  cases r with
  | error e => rfl
  | ok u => simp [PyM.bind_run, hck]

/-- C35, second half, the part that holds: if the header of a var targets at least two models of
which the var's own is strictly the oldest, its bytes load into a var for that model
without a warning about the model. -/
theorem C35_load_partial (env : Env V) (me : ModelEnv) (hi : SetIter me.iter) (v v₀ : Var)
    (hw : v.hdr.Widths) (hst : ∀ e ∈ v.entries, Storable e) (b : Bytes) (hb : v.bytes = .ok b)
    (m : Model) (hm : v₀.model = some m) (ts : List Model) (hts : v.hdr.targets = .ok ts)
    (h2 : 2 ≤ ts.length) (hmem : m ∈ ts) (hleast : ∀ t ∈ ts, t ≠ m → me.ord m < me.ord t) :
    ∃ v' ws, load env me b v₀ = ⟨.ok (), v', ws⟩ ∧ v'.hdr = v.hdr ∧ ∀ w ∈ ws, w ∉ varCorruption := by
  obtain ⟨es', ws, hws, -, hl⟩ := load_for_model env me (v₀ := v₀) hw hst hb
  obtain ⟨r, hr, hr1, hr2⟩ := minModels_spec me.ord (l := me.iter ts) (by rw [(hi ts).length_eq]; exact h2)
  have hrm : r = m := by
    by_contra hne
    have h1 := hleast r ((hi ts).mem_iff.1 hr1) hne
    have h2 := hr2 m ((hi ts).mem_iff.2 hmem)
    omega
  subst hrm
  refine ⟨⟨v.hdr, es', v₀.model⟩, ws, ?_, rfl, hws⟩
  rw [hl]
  simp [checkModel, PyM.bind_run, hm, hts, hr, Model.le, warned]

/-- C35 is false, the crash: for the four models that are the only target of their own header, a
var made for the model – with whatever storable entries – cannot be loaded again for it:
`min(*targets)` raises `TypeError`. -/
theorem C35_load_crash_false (env : Env V) (me : ModelEnv) (hi : SetIter me.iter) (m : Model)
    (hm : m ∈ [Model.ti82, .ti82a, .ti84pt, .ti84pcse]) (extra : Bytes) (comment : Str) (h₀ : Hdr)
    (hok : (Hdr.init (some m) none extra none comment [] h₀).res = .ok ()) (es : List Ent)
    (hst : ∀ e ∈ es, Storable e) (b : Bytes)
    (hb : Var.bytes ⟨(Hdr.init (some m) none extra none comment [] h₀).st, es, some m⟩ = .ok b)
    (v₀ : Var) (hm₀ : v₀.model = some m) : (load env me b v₀).res = .error .typeError := by
  have hw : (Hdr.init (some m) none extra none comment [] h₀).st.Widths := by
    have := C06_header_history m extra none comment h₀ hok []
    exact ⟨this.1, this.2.1, this.2.2.1, this.2.2.2.1⟩
  have hts : (Hdr.init (some m) none extra none comment [] h₀).st.targets = .ok [m] := by
    rw [Hdr.init_run] at hok ⊢
    rcases e : setRaw strConv (some 42) [] comment () with ⟨r, u, w⟩
    rw [e] at hok
    cases r with
    | error x => cases hok
    | ok c =>
      have key : ∀ m : Model, ∀ a b : Bytes,
          Hdr.targets ⟨(latin1Encode m.magic).toOption.getD [], a,
            [UInt8.ofNat (((none : Option Int).getD m.productId) % 256).toNat], b⟩ =
          Hdr.targets ⟨(latin1Encode m.magic).toOption.getD [], [],
            [UInt8.ofNat (((none : Option Int).getD m.productId) % 256).toNat], []⟩ :=
        fun _ _ _ => rfl
      simp only [key]
      have all : ∀ m ∈ [Model.ti82, .ti82a, .ti84pt, .ti84pcse],
          Hdr.targets ⟨(latin1Encode m.magic).toOption.getD [], [],
            [UInt8.ofNat (((none : Option Int).getD m.productId) % 256).toNat], []⟩ = .ok [m] := by
        decide +kernel
      exact all m hm
  obtain ⟨es', ws, hws, -, hl⟩ := load_for_model env me (v₀ := v₀) hw hst hb
  have hone : me.iter [m] = [m] := List.perm_singleton.1 (hi [m])
  rw [hl]
  simp [checkModel, PyM.bind_run, hm₀, hts, hone, minModels, warned]

/-- C35 is false, the spurious warning: if the header of a var targets any model older than the var's
own, loading its bytes for its own model warns that it is incompatible. -/
theorem C35_load_warning_false (env : Env V) (me : ModelEnv) (hi : SetIter me.iter) (v v₀ : Var)
    (hw : v.hdr.Widths) (hst : ∀ e ∈ v.entries, Storable e) (b : Bytes) (hb : v.bytes = .ok b)
    (m : Model) (hm : v₀.model = some m) (ts : List Model) (hts : v.hdr.targets = .ok ts)
    (hmem : m ∈ ts) (x : Model) (hx : x ∈ ts) (hlt : me.ord x < me.ord m) :
    (load env me b v₀).res = .ok () ∧ .modelIncompat ∈ (load env me b v₀).warns := by
  obtain ⟨es', ws, hws, -, hl⟩ := load_for_model env me (v₀ := v₀) hw hst hb
  have hne : x ≠ m := by rintro rfl; omega
  have h2 : 2 ≤ ts.length := by
    match ts, hx, hmem with
    | [a], hx, hmem => simp at hx hmem; exact absurd (hx.trans hmem.symm) hne
    | _ :: _ :: _, _, _ => simp
  obtain ⟨r, hr, hr1, hr2⟩ := minModels_spec me.ord (l := me.iter ts) (by rw [(hi ts).length_eq]; exact h2)
  have h3 := hr2 x ((hi ts).mem_iff.2 hx)
  have hnr : m ≠ r := by rintro rfl; omega
  have hle : me.ord r ≤ me.ord m := by omega
  rw [hl]
  simp [checkModel, PyM.bind_run, hm, hts, hr, Model.le, Model.ge, warned, Nat.not_lt.2 hle, hnr]

/-- The models in the order listed, a set iterated in that order. -/
def exModels : ModelEnv := ⟨fun m => Model.all.idxOf m, id⟩

example : SetIter exModels.iter := fun _ => List.Perm.refl _

/-- The TI-84 Plus CE is the oldest of the targets of its header; the TI-83 Premium CE is not;
the TI-84 Plus CSE is alone. -/
example :
    ((match Var.bytes ⟨exHdr, [sampleProgram], none⟩ with
    | .ok b => [Model.ti84pce, .ti83pce].map fun m => (load sampleEnv exModels b ⟨Hdr.unset, [], some m⟩).warns
    | .error _ => []) = [[], [.modelIncompat]]) ∧
    ((match Var.bytes ⟨{ exHdr with productId := [0x0F] }, [sampleProgram], none⟩ with
    | .ok b => (load sampleEnv exModels b ⟨Hdr.unset, [], some .ti84pcse⟩).res
    | .error _ => .ok ()) = .error .typeError) := by decide +kernel

end Verif
