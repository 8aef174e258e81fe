import Verif.Proofs.Sized
import Verif.Spec.Sample

/-! Property theorems about `TIEntry` and `SizedEntry` (C06, C22–C26). -/

namespace Verif
open Spec Ent
variable {V : Type} [LinearOrder V]

/-! ### C06 – sections of entries -/

/-- C06, entries: whatever is assigned to the sections of an entry, and whether or not the
assignment raises, meta length, type, name, version and archived flag keep 2, 1, 8, 1 and 1
bytes, and the data does not change. -/
theorem C06_entry_history (e : Ent) (h1 : e.metaLen.length = 2) (h2 : e.typeId.length = 1)
    (h3 : e.name.length = 8) (h4 : e.version.length = 1) (h5 : e.archived.length = 1)
    (ops : List EntOp) :
    let e' := ops.foldl (fun e op => runOp op e) e
    e'.metaLen.length = 2 ∧ e'.typeId.length = 1 ∧ e'.name.length = 8 ∧ e'.version.length = 1 ∧
      e'.archived.length = 1 ∧ e'.body = e.body := by
  have key : ∀ (ops : List EntOp) (e : Ent), e.Widths →
      (ops.foldl (fun e op => runOp op e) e).Widths ∧
      (ops.foldl (fun e op => runOp op e) e).body = e.body := by
    intro ops
    induction ops with
    | nil => intro e h; exact ⟨h, rfl⟩
    | cons op ops ih =>
      intro e h
      obtain ⟨ha, hb⟩ := runOp_widths op h
      obtain ⟨hc, hd⟩ := ih _ ha
      exact ⟨hc, hd.trans hb⟩
  obtain ⟨⟨a, b, c, d, f⟩, g⟩ := key ops e ⟨h1, h2, h3, h4, h5⟩
  exact ⟨a, b, c, d, f, g⟩

example : [EntOp.metaLength 70000, .typeId 300, .version (-1), .archive, .metaLength 11, .archive,
      .name strConv "ABCDEFGHIJ".toList].foldl (fun e op => runOp op e) sampleProgram =
    ⟨.program, [0x0B, 0x00], [44], [0x41, 0x42, 0x43, 0x44, 0x45, 0x46, 0x47, 0x48], [0xFF], [0x80],
      sampleProgram.body⟩ := by
  decide +kernel

/-! ### C22 – entry length -/

/-- C22. For every entry with an 11- or 13-byte meta section, either the data fits two bytes and
the entry serialises to exactly `len(entry)` bytes, both length fields holding the data length and
the data following the second, or it does not and serialising raises `OverflowError`. -/
theorem C22_entry_length (e : Ent) (h : Sections e) :
    (e.body.bytes.length ≤ 65535 → ∃ b, e.bytes = .ok b ∧ b.length = e.len ∧
      fromLE ((b.drop 2).take 2) = e.body.bytes.length ∧
      fromLE ((b.drop (2 + e.metaLength)).take 2) = e.body.bytes.length ∧
      b.drop (4 + e.metaLength) = e.body.bytes) ∧
    (65535 < e.body.bytes.length → e.bytes = .error .overflowError) := by
  refine ⟨fun hl => ?_, fun hl => bytes_error hl⟩
  obtain ⟨l0, l1, hl1, hl2⟩ := toLE_two e.calcLength hl
  have hf := flashBytes_length h
  have hm := metaLen_length h
  have ht := h.typeId
  have hn := h.name
  refine ⟨_, bytes_ok hl, ?_, ?_, ?_, ?_⟩
  · simp only [List.length_append, length_toLE, hm, ht, hn, Ent.len, calcLength]
    omega
  · rw [hl1]
    obtain ⟨m0, m1, hmm⟩ : ∃ a b, e.metaLen = [a, b] := by
      rcases h.metaLen with h | h <;> exact ⟨_, _, h⟩
    rw [hmm]
    exact hl2
  · have : e.metaLen ++ toLE 2 e.calcLength ++ e.typeId ++ e.name ++ e.flashBytes ++
        toLE 2 e.calcLength ++ e.body.bytes =
        (e.metaLen ++ toLE 2 e.calcLength ++ e.typeId ++ e.name ++ e.flashBytes) ++
          (toLE 2 e.calcLength ++ e.body.bytes) := by simp
    rw [this, List.drop_left' (by simp only [List.length_append, length_toLE, hm, ht, hn]; omega),
      List.take_left' (length_toLE 2 _)]
    rw [hl1]; exact hl2
  · rw [List.drop_left' (by simp only [List.length_append, length_toLE, hm, ht, hn]; omega)]

example : sampleProgram.bytes = .ok [0x0D, 0, 5, 0, 0x05, 0x41, 0, 0, 0, 0, 0, 0, 0, 0x01, 0x80,
    5, 0, 3, 0, 0x41, 0x3F, 0x42] ∧ sampleProgram.len = 22 ∧ sampleAppVar.len = 19 := by
  decide +kernel

/-! ### C23 – entry round trip -/

/-- C23, the part that holds: loading the bytes of a well-formed entry into a fresh entry
succeeds and restores meta length, type, name, version, archived flag and data, under a
class of that type; the only warnings are those for a version unknown to the class and for a
flash-only class without flash bytes. Missing: entries whose flash bytes repeat the data length,
and entries whose content does not determine the class (both false, below). -/
theorem C23_entry_roundtrip_partial (env : Env V) (e : Ent) (hw : WF e)
    (hno : e.metaLen = [0x0D, 0x00] → ¬FlashIsLength e)
    (hreg : ContentOK (fromLE e.typeId) e.body.bytes) :
    ∃ b c, e.bytes = .ok b ∧ c.typeId = some (fromLE e.typeId) ∧
      load env b (fresh env) =
        ⟨.ok (), ⟨c, e.metaLen, e.typeId, e.name, e.version, e.archived, ⟨true, e.body.bytes⟩⟩,
          loadWarnings c e.metaLen e.version⟩ := by
  obtain ⟨c, hc, hl⟩ := load_bytes_base env hw hno hreg (bytes_ok hw.length)
    (e₀ := fresh env) rfl
  exact ⟨_, c, bytes_ok hw.length, hc, hl⟩

/-- C23, into an entry of the same class when the class does not depend on the content: none of the
warnings reports damage. -/
theorem C23_entry_typed_partial (env : Env V) (e e₀ : Ent) (hw : WF e)
    (hno : e.metaLen = [0x0D, 0x00] → ¬FlashIsLength e) (hp : Plain e₀.cls = true)
    (ht : e₀.cls.typeId = some (fromLE e.typeId)) :
    ∃ b ws, e.bytes = .ok b ∧
      load env b e₀ =
        ⟨.ok (), ⟨e₀.cls, e.metaLen, e.typeId, e.name, e.version, e.archived,
          ⟨true, e.body.bytes⟩⟩, ws⟩ ∧ ∀ w ∈ ws, w ∉ corruption := by
  have hb := bytes_ok (e := e) hw.length
  obtain ⟨v, hv⟩ := length_one hw.version
  have hl := loadBase_bytes env hw hno hb e₀
  rw [finish_of_coerce env (coerce_plain env (e := { e with
    cls := e₀.cls
    body := ⟨true, e.body.bytes⟩ }) hp) hv
    (metaLen_iff (show e.metaLen.length = 2 from metaLen_length hw.toSections))] at hl
  obtain ⟨ws', hl', hc⟩ := load_plain env hp hl hv
  refine ⟨_, _, hb, hl', ?_⟩
  intro w hw
  simp only [List.mem_append, checkType, ht, if_true, List.not_mem_nil, false_or] at hw
  rcases hw with hw | hw
  · exact loadWarnings_ok _ _ _ w hw
  · exact hc w hw

example : WF sampleProgram ∧ ¬FlashIsLength sampleProgram ∧
    ContentOK (fromLE sampleProgram.typeId) sampleProgram.body.bytes ∧
    (sampleProgram.bytes.toOption.map fun b => load sampleEnv b (fresh sampleEnv)) =
      some ⟨.ok (), sampleProgram, []⟩ :=
  ⟨⟨⟨Or.inr rfl, rfl, rfl, rfl, rfl⟩, Or.inr rfl, by decide, by decide⟩,
    by unfold FlashIsLength; decide, by unfold ContentOK; decide, by decide +kernel⟩

/-- C23 is false: for every well-formed flash entry of a class without content-dependent
classification whose two flash bytes, read as a number, equal the length of its data, the load
takes the flash bytes to be missing. Meta length, version and archived flag are lost and the
data is shifted by two bytes, the length field becoming part of it. -/
theorem C23_misfire_false (env : Env V) (e e₀ : Ent) (hw : WF e) (hm : e.metaLen = [0x0D, 0x00])
    (hmis : FlashIsLength e) (hp : Plain e₀.cls = true) :
    ∃ b e' ws, e.bytes = .ok b ∧ load env b e₀ = ⟨.ok (), e', ws⟩ ∧ .flashMissing ∈ ws ∧
      e'.metaLen = [0x0B, 0x00] ∧ e'.version = [0x00] ∧ e'.archived = [0x00] ∧
      e'.body.bytes = (e.version ++ e.archived ++ e.body.bytes).take e.body.bytes.length ∧
      e'.cls = e₀.cls ∧ e'.typeId = e.typeId ∧ e'.name = e.name := by
  have hb := bytes_ok (e := e) hw.length
  obtain ⟨t, ht⟩ := length_one hw.typeId
  obtain ⟨n0, n1, n2, n3, n4, n5, n6, n7, hn⟩ := length_eight hw.name
  obtain ⟨v, hv⟩ := length_one hw.version
  obtain ⟨a, ha⟩ := length_one hw.archived
  obtain ⟨l0, l1, hl, hl2⟩ := toLE_two e.calcLength hw.length
  have hva : [v, a] = [l0, l1] := by
    refine fromLE_inj (a := [v, a]) (b := [l0, l1]) rfl ?_
    have : fromLE [v, a] = e.body.bytes.length := by
      have h := hmis
      unfold FlashIsLength at h
      rwa [hv, ha] at h
    rw [this, hl2]; rfl
  injection hva with h1 h2
  injection h2 with h2 _
  subst h1 h2
  have hd : ljust 17 (e.metaLen ++ toLE 2 e.calcLength ++ e.typeId ++ e.name ++ e.flashBytes ++
      toLE 2 e.calcLength ++ e.body.bytes) = 0x0D :: 0x00 :: v :: a :: t :: n0 :: n1 :: n2 :: n3 ::
      n4 :: n5 :: n6 :: n7 :: v :: a :: (v :: a :: e.body.bytes) := by
    rw [flashBytes_thirteen hm hw.version hw.archived, hm, ht, hn, hl, hv, ha]
    simp [ljust]
  have hlb := loadBase_misfire env _ e₀ _ _ _ _ _ _ _ _ _ _ _ _ _ _ hd rfl
  rw [finish_of_coerce env (coerce_plain env (e := ⟨e₀.cls, [0x0B, 0x00], [t],
    [n0, n1, n2, n3, n4, n5, n6, n7], [0], [0],
    ⟨true, (v :: a :: e.body.bytes).take (fromLE [v, a])⟩⟩) hp) rfl (metaLen_iff rfl)] at hlb
  obtain ⟨ws', hl', -⟩ := load_plain env hp hlb rfl
  refine ⟨_, _, _, hb, hl', ?_, rfl, rfl, rfl, ?_, rfl, ht.symm, hn.symm⟩
  · simp
  · show List.take (fromLE [v, a]) (v :: a :: e.body.bytes) = _
    rw [hl2, hv, ha]
    rfl

/-- A program for OS 2.30 with three bytes of data is such an entry. -/
example : (load sampleEnv [0x0D, 0, 5, 0, 0x05, 0x41, 0, 0, 0, 0, 0, 0, 0, 0x05, 0x00,
      5, 0, 3, 0, 0x41, 0x3F, 0x42] (fresh sampleEnv)).st =
    ⟨.program, [0x0B, 0x00], [0x05], [0x41, 0, 0, 0, 0, 0, 0, 0], [0x00], [0x00],
      ⟨true, [5, 0, 3, 0, 0x41]⟩⟩ := by decide +kernel

/-- C23 is false also for the type 0x23: an equation stored under that type is loaded as type 0x03
with a bit set in its first byte, which is part of its length. -/
theorem C23_graphed_false : ∃ e : Ent, WF e ∧ ¬FlashIsLength e ∧
    ∃ b, e.bytes = .ok b ∧ (load sampleEnv b (fresh sampleEnv)).res = .ok () ∧
      (load sampleEnv b (fresh sampleEnv)).st.typeId ≠ e.typeId ∧
      (load sampleEnv b (fresh sampleEnv)).st.body.bytes ≠ e.body.bytes := by
  refine ⟨⟨.entry, [0x0D, 0x00], [0x23], [0x5E, 0x10, 0, 0, 0, 0, 0, 0], [0x00], [0x00],
      ⟨true, [0x01, 0x00, 0x41]⟩⟩, ⟨⟨Or.inr rfl, rfl, rfl, rfl, rfl⟩, Or.inl rfl, by decide,
      by decide⟩, by unfold FlashIsLength; decide, _, rfl, ?_, ?_, ?_⟩
  · decide +kernel
  · decide +kernel
  · decide +kernel

/-! ### C24 – loading arbitrary bytes -/

/-- C24. Loading any byte string into an entry of a class without content-dependent classification
raises nothing. The stored data is what stands after the sections, as much as the length field
claims and is available; missing data, missing flash bytes and a second length field that
differs each give their warning. -/
theorem C24_load_total (env : Env V) (data : Bytes) (e₀ : Ent) (hp : Plain e₀.cls = true) :
    let d := ljust 17 data
    ∃ e' ws, load env data e₀ = ⟨.ok (), e', ws⟩ ∧ e'.cls = e₀.cls ∧
      e'.body.bytes = (d.drop (dataFrom d)).take (fromLE (lengthOf d)) ∧
      e'.body.bytes.length ≤ fromLE (lengthOf d) ∧
      (e'.body.bytes.length ≠ fromLE (lengthOf d) → .dataLength ∈ ws) ∧
      (FlashMisread d → .flashMissing ∈ ws) ∧
      (¬FlashMisread d → (d.drop (dataFrom d - 2)).take 2 ≠ lengthOf d → .dataLengths ∈ ws) := by
  intro d
  obtain ⟨e₁, ws, v, a, hc, hv, -, hm, -, -, hbody, hw1, hw2, hw3, hl⟩ := loadBase_shape env data e₀
  rw [finish_of_coerce env (coerce_plain env (by rw [hc]; exact hp)) hv (metaLen_iff hm)] at hl
  obtain ⟨ws', hl', -⟩ := load_plain env hp hl hv
  refine ⟨_, _, hl', hc, ?_, ?_, ?_, ?_, ?_⟩
  · rw [hbody]
  · rw [hbody]; exact List.length_take_le _ _
  · intro h; simp only [List.mem_append]; exact Or.inl (Or.inl (hw1 h))
  · intro h; simp only [List.mem_append]; exact Or.inl (Or.inl (hw2 h))
  · intro h h'; simp only [List.mem_append]; exact Or.inl (Or.inl (hw3 h h'))

example : (load sampleEnv [0x0D, 0, 9, 0, 0x15, 0x41, 0, 0, 0, 0, 0, 0, 0, 0x00, 0x00, 8, 0, 1, 2]
      { fresh sampleEnv with cls := .appVar }) =
    ⟨.ok (), ⟨.appVar, [0x0D, 0], [0x15], [0x41, 0, 0, 0, 0, 0, 0, 0], [0], [0], ⟨true, [1, 2]⟩⟩,
      [.dataLengths, .dataLength, .sizedLength]⟩ := by decide +kernel

/-- C24, entries of the base class: loading any byte string whose type byte is unknown, or that of a class
without content-dependent classification, raises nothing either. The entry gets the class of its
type, or stays in the base class with a warning. -/
theorem C24_load_base (env : Env V) (data : Bytes) (e₀ : Ent) (h₀ : e₀.cls = .entry) :
    let d := ljust 17 data
    let t := ((d.drop 4).headD 0).toNat
    (Cls.getType t = none ∨ ∃ c, Cls.getType t = some c ∧ Plain c = true) →
    ∃ e' ws, load env data e₀ = ⟨.ok (), e', ws⟩ ∧ e'.cls = (Cls.getType t).getD .entry ∧
      (Cls.getType t = none → (if t = 0xFF then .coerceNone else .coerceUnrec) ∈ ws) ∧
      e'.body.bytes = (d.drop (dataFrom d)).take (fromLE (lengthOf d)) ∧
      (e'.body.bytes.length ≠ fromLE (lengthOf d) → .dataLength ∈ ws) ∧
      (FlashMisread d → .flashMissing ∈ ws) ∧
      (¬FlashMisread d → (d.drop (dataFrom d - 2)).take 2 ≠ lengthOf d → .dataLengths ∈ ws) := by
  intro d t hcase
  obtain ⟨e₁, ws, v, a, hc, hv, -, hm, -, htid, hbody, hw1, hw2, hw3, hl⟩ := loadBase_shape env data e₀
  have hload : load env data e₀ = loadBase env data e₀ := by simp [load, PyM.bind_run, h₀]
  rw [h₀] at hc
  obtain ⟨b, hb⟩ : ∃ b, e₁.typeId = [b] ∧ b.toNat = t := by
    rw [htid]
    show ∃ b, (d.drop 4).take 1 = [b] ∧ b.toNat = ((d.drop 4).headD 0).toNat
    have hlen : 17 ≤ d.length := by simp [d]; omega
    rcases hd : d.drop 4 with _ | ⟨b, l⟩
    · have := congrArg List.length hd
      rw [List.length_drop, List.length_nil] at this
      omega
    · exact ⟨b, rfl, rfl⟩
  obtain ⟨hb1, hb2⟩ := hb
  have hco : ∃ w', coerce env e₁ = ⟨.ok (), { e₁ with cls := (Cls.getType t).getD .entry }, w'⟩ ∧
      (Cls.getType t = none → (if t = 0xFF then .coerceNone else .coerceUnrec) ∈ w') := by
    rcases hcase with hn | ⟨c, hs, hp⟩
    · have he : e₁ = { e₁ with cls := .entry } := by rw [← hc]
      refine ⟨[if t = 0xFF then .coerceNone else .coerceUnrec], ?_, fun _ => by simp⟩
      simp only [coerce, PyM.bind_run, PyM.get_run, hc, coerceById, getTypeId_one hb1, hb2,
        PyM.ofExcept_run, hn, Option.getD_none]
      by_cases h : t = 255
      · simp [h]; exact he
      · simp [h]; exact he
    · refine ⟨[], ?_, fun h => by rw [hs] at h; cases h⟩
      rw [coerce_base env hc hb1 (by rw [hb2]; exact hs),
        coerceTyped_plain env (e := { e₁ with cls := c }) hp, hs]
      rfl
  obtain ⟨w', hco, hco2⟩ := hco
  rw [finish_of_coerce env hco hv (metaLen_iff hm)] at hl
  rw [hload, hl]
  refine ⟨_, _, rfl, rfl, ?_, ?_, ?_, ?_, ?_⟩
  · intro h; simp only [List.mem_append]; exact Or.inr (Or.inl (hco2 h))
  · exact congrArg Buf.bytes hbody
  · intro h; simp only [List.mem_append]; exact Or.inl (hw1 h)
  · intro h; simp only [List.mem_append]; exact Or.inl (hw2 h)
  · intro h h'; simp only [List.mem_append]; exact Or.inl (hw3 h h')

example : (load sampleEnv [0x0D, 0, 1, 0, 0x77] (fresh sampleEnv)) =
    ⟨.ok (), ⟨.entry, [0x0D, 0], [0x77], List.replicate 8 0, [0], [0], ⟨true, []⟩⟩,
      [.dataLengths, .dataLength, .coerceUnrec]⟩ := by decide +kernel

/-! ### C25 – archiving -/

/-- Archiving (`true`) or unarchiving. -/
def archiveStep (b : Bool) : PyM Ent Unit := if b then archive else unarchive

/-- C25. On a flash entry every call succeeds silently and sets the archived flag and nothing else;
on a flash-less one it raises `TypeError` and nothing changes. After any sequence of calls only
the archived flag may differ, and it is that of the last call. -/
theorem C25_archive (e : Ent) (h : Sections e) :
    (e.metaLen = [0x0D, 0x00] → ∀ b, ∃ e', archiveStep b e = ⟨.ok (), e', []⟩ ∧
      e' = { e with archived := e'.archived } ∧ e'.getArchived = b) ∧
    (e.metaLen = [0x0B, 0x00] → ∀ b, archiveStep b e = ⟨.error .typeError, e, []⟩) ∧
    (∀ ops : List Bool, ∃ e', ops.foldl (fun e b => (archiveStep b e).st) e = e' ∧
      e' = { e with archived := e'.archived } ∧
      (e.metaLen = [0x0D, 0x00] → ∀ b, ops.getLast? = some b → e'.getArchived = b)) := by
  have step : ∀ e : Ent, Sections e → e.metaLen = [0x0D, 0x00] → ∀ b, archiveStep b e =
      ⟨.ok (), { e with archived := if b then [0x80] else [0x00] }, []⟩ := by
    intro e h hm b
    have hf : e.flashBytes ≠ [] := by
      intro h0
      have := flashBytes_length h
      rw [h0] at this
      have h13 : e.metaLength = 13 := by rw [metaLength, hm]; rfl
      simp [h13] at this
    have h11 : e.metaLength ≠ 11 := by rw [metaLength, hm]; decide
    cases b <;> simp [archiveStep, archive, unarchive, PyM.bind_run, hf, setArchived_run, h11]
  have stay : ∀ e : Ent, e.metaLen = [0x0B, 0x00] → ∀ b,
      archiveStep b e = ⟨.error .typeError, e, []⟩ := by
    intro e hm b
    have hf := flashBytes_eleven hm
    cases b <;> simp [archiveStep, archive, unarchive, PyM.bind_run, hf]
  refine ⟨?_, stay e, ?_⟩
  · intro hm b
    exact ⟨_, step e h hm b, rfl, by cases b <;> rfl⟩
  · intro ops
    rcases h.metaLen with hm | hm
    · refine ⟨e, ?_, rfl, fun h' => by rw [hm] at h'; exact absurd h' (by decide)⟩
      induction ops with
      | nil => rfl
      | cons b ops ih => rw [List.foldl_cons, stay e hm b]; exact ih
    · refine ⟨_, rfl, ?_⟩
      have key : ∀ (ops : List Bool) (a : Bytes), a.length = 1 → ∃ a' : Bytes, a'.length = 1 ∧
          ops.foldl (fun e b => (archiveStep b e).st) { e with archived := a } =
            { e with archived := a' } ∧
          ∀ b, ops.getLast? = some b → a' = if b then [0x80] else [0x00] := by
        intro ops
        induction ops with
        | nil => intro a ha; exact ⟨a, ha, rfl, by simp⟩
        | cons b ops ih =>
          intro a ha
          have hs : Sections { e with archived := a } :=
            ⟨h.metaLen, h.typeId, h.name, h.version, ha⟩
          rw [List.foldl_cons, step _ hs hm b]
          obtain ⟨a', h1, h2, h3⟩ := ih (if b then [0x80] else [0x00]) (by cases b <;> rfl)
          refine ⟨a', h1, h2, ?_⟩
          intro b' hb'
          cases ops with
          | nil =>
            have : b = b' := by simpa using hb'
            subst this
            have h4 := congrArg Ent.archived h2
            exact h4.symm
          | cons x xs => exact h3 b' (by simpa [List.getLast?_cons_cons] using hb')
      obtain ⟨a', -, h2, h3⟩ := key ops e.archived h.archived
      have h2' : ops.foldl (fun e b => (archiveStep b e).st) e = { e with archived := a' } := h2
      rw [h2']
      refine ⟨rfl, ?_⟩
      intro _ b hb
      rw [h3 b hb]
      cases b <;> rfl

example : (archive sampleAppVar) = ⟨.error .typeError, sampleAppVar, []⟩ ∧
    (unarchive sampleProgram).st = { sampleProgram with archived := [0x00] } := by decide +kernel

/-- C25, saving and loading, the part that holds: the flag set by the last call survives, unless
the flash bytes then repeat the data length. -/
theorem C25_saveload_partial (env : Env V) (e e' : Ent) (b : Bool) (hw : WF e)
    (hm : e.metaLen = [0x0D, 0x00]) (hs : archiveStep b e = ⟨.ok (), e', []⟩)
    (hno : ¬FlashIsLength e') (hreg : ContentOK (fromLE e.typeId) e.body.bytes) :
    ∃ bs e'' ws, e'.bytes = .ok bs ∧ load env bs (fresh env) = ⟨.ok (), e'', ws⟩ ∧
      e''.getArchived = b := by
  obtain ⟨e1, h1, h2, h3⟩ := (C25_archive e hw.toSections).1 hm b
  rw [hs] at h1
  injection h1 with _ h1 _
  subst h1
  have hlen : e'.archived = [0x00] ∨ e'.archived = [0x80] := by
    have hw' := runOp_widths (.archived b) (e := e)
      ⟨metaLen_length hw.toSections, hw.typeId, hw.name, hw.version, hw.archived⟩
    have : archiveStep b e = setArchived b e := by
      have hf : e.flashBytes ≠ [] := by
        intro h0
        have := flashBytes_length hw.toSections
        rw [h0] at this
        have h13 : e.metaLength = 13 := by rw [metaLength, hm]; rfl
        simp [h13] at this
      cases b <;> simp [archiveStep, archive, unarchive, PyM.bind_run, hf, setArchived_run]
    rw [this, setArchived_run] at hs
    injection hs with _ hs _
    rw [← hs]
    cases b
    · exact Or.inl rfl
    · exact Or.inr rfl
  have hw' : WF e' := by
    rw [h2]
    exact ⟨⟨hw.metaLen, hw.typeId, hw.name, hw.version, by rcases hlen with h | h <;> rw [h] <;> rfl⟩,
      hlen, fun h => by rw [hm] at h; exact absurd h (by decide), hw.length⟩
  obtain ⟨bs, c, hb, -, hl⟩ := C23_entry_roundtrip_partial env e' hw' (fun _ => hno)
    (by rw [h2]; exact hreg)
  exact ⟨bs, _, _, hb, hl, h3⟩

/-- C25 is false for saving and loading: an archived entry whose data has 0x8000 plus the version
many bytes comes back unarchived. -/
theorem C25_saveload_false (env : Env V) (e e₀ : Ent) (hw : WF e) (hm : e.metaLen = [0x0D, 0x00])
    (ha : e.archived = [0x80]) (hlen : e.body.bytes.length = 0x8000 + fromLE e.version)
    (hp : Plain e₀.cls = true) :
    ∃ b e' ws, e.bytes = .ok b ∧ load env b e₀ = ⟨.ok (), e', ws⟩ ∧ e'.getArchived = false := by
  obtain ⟨v, hv⟩ := length_one hw.version
  have hf : FlashIsLength e := by
    unfold FlashIsLength
    rw [hlen, ha, hv]
    simp [fromLE]
    omega
  obtain ⟨b, e', ws, hb, hl, -, -, -, h1, -⟩ := C23_misfire_false env e e₀ hw hm hf hp
  exact ⟨b, e', ws, hb, hl, by rw [getArchived, h1]; rfl⟩

/-- Such an entry: an archived appvar holding 32766 zeros. -/
example : ∃ e : Ent, WF e ∧ e.metaLen = [0x0D, 0x00] ∧ e.archived = [0x80] ∧
    e.body.bytes.length = 0x8000 + fromLE e.version ∧ Plain e.cls = true :=
  ⟨⟨.appVar, [0x0D, 0], [0x15], List.replicate 8 0x41, [0], [0x80],
    ⟨true, toLE 2 32766 ++ List.replicate 32766 0⟩⟩,
    ⟨⟨Or.inr rfl, rfl, rfl, rfl, rfl⟩, Or.inr rfl, fun h => absurd h (by decide),
      by rw [List.length_append, length_toLE, List.length_replicate]; decide⟩,
    rfl, rfl, by rw [List.length_append, length_toLE, List.length_replicate]; decide, rfl⟩

/-! ### C26 – sized entries -/

/-- A history of a sized entry: assignments of data whose version can be computed (`OverflowError`
included) while it is no image, clears, and loads of the entry's own bytes that do not mistake its flash bytes for a
length. -/
inductive SizedHist (env : Env V) : Ent → Ent → Prop
  | refl (e : Ent) : SizedHist env e e
  | assign {e e' : Ent} (gv : GetVersion) (value : Bytes) (hv : ∀ x, ∃ v, (gv x value).2 = .ok v)
      (hi : e'.cls ≠ .image) : SizedHist env e e' → SizedHist env e (setData gv value e').st
  | clear {e e' : Ent} : SizedHist env e e' → SizedHist env e (clear e').st
  | reload {e e' : Ent} {b : Bytes} (hb : e'.bytes = .ok b)
      (hno : e'.metaLen = [0x0D, 0x00] → ¬FlashIsLength e') :
      SizedHist env e e' → SizedHist env e (load env b e').st

/-- C26, the part that holds: from a cleared entry – which is how every constructor starts – any
such history leaves the two-byte length equal to the number of bytes that follow it, for
programs, strings, equations, appvars, groups, settings, graph databases, pictures and images. Missing: assignments
to images (which pictures of their length become on loading), loads that misread the flash bytes, assignments
whose version computation raises and graphed equations (all false, below and `C76_graphed_false`). -/
theorem C26_sized_in_step_partial (env : Env V) (e e' : Ent) (hs : Sections e)
    (ha : e.archived = [0x00] ∨ e.archived = [0x80]) (hc : StepCls e.cls = true)
    (h : SizedHist env (clear e).st e') : InStep e' := by
  suffices ∀ e₀ e', SizedHist env e₀ e' →
      (InStep e₀ ∧ e₀.body.mutable = true ∧ Sections e₀ ∧
        (e₀.archived = [0x00] ∨ e₀.archived = [0x80]) ∧ StepCls e₀.cls = true) →
      (InStep e' ∧ e'.body.mutable = true ∧ Sections e' ∧
        (e'.archived = [0x00] ∨ e'.archived = [0x80]) ∧ StepCls e'.cls = true) from
    (this _ _ h ⟨clear_step hc, rfl,
      ⟨hs.metaLen, hs.typeId, hs.name, hs.version, hs.archived⟩, ha, hc⟩).1
  intro e₀ e' h h0
  induction h with
  | refl => exact h0
  | assign gv value hv him _ ih =>
    rename_i e' _
    obtain ⟨hi, hm, hs, ha, hc⟩ := ih
    obtain ⟨hz, h1, h2⟩ := stepCls_starts hc him
    by_cases hn : value.length < 65536
    · have hb : e'.body = ⟨true, e'.body.bytes⟩ := by rw [← hm]
      obtain ⟨v, hg⟩ := hv { e' with body := ⟨true, toLE 2 value.length ++ e'.body.bytes.drop 2⟩ }
      have hg' : gv { e' with body := ⟨true, toLE 2 value.length ++ e'.body.bytes.drop 2⟩ } value =
          ((gv { e' with body := ⟨true, toLE 2 value.length ++ e'.body.bytes.drop 2⟩ } value).1,
            .ok v) := by rw [← hg]
      rw [setData_ok hz h1 h2 hb hi.1 hn hg']
      refine ⟨⟨by simp, ?_⟩, rfl, ⟨hs.metaLen, hs.typeId, hs.name, rfl, hs.archived⟩, ha, hc⟩
      show fromLE ((toLE 2 value.length ++ value).take 2) = ((toLE 2 value.length ++ value).drop 2).length
      rw [List.take_left' (length_toLE 2 _), List.drop_left' (length_toLE 2 _),
        fromLE_toLE_of_lt (by have : 256 ^ 2 = 65536 := rfl; omega)]
    · have ho : setData gv value e' = ⟨.error .overflowError, e', []⟩ := by
        simp only [setData, PyM.bind_run, PyM.get_run, hz, if_true,
          setLength_overflow h1 (Nat.le_of_not_lt hn), List.nil_append]
      rw [ho]
      exact ⟨hi, hm, hs, ha, hc⟩
  | clear _ ih =>
    obtain ⟨hi, hm, hs, ha, hc⟩ := ih
    exact ⟨clear_step hc, rfl, ⟨hs.metaLen, hs.typeId, hs.name, hs.version, hs.archived⟩, ha, hc⟩
  | reload hb hno _ ih =>
    rename_i e' b _
    obtain ⟨hi, hm, hs, ha, hc⟩ := ih
    have hlen : e'.body.bytes.length ≤ 65535 := by
      by_contra hcon
      rw [bytes_error (by unfold calcLength; omega)] at hb
      cases hb
    have key : ∃ x : Ent, WF x ∧ (x.metaLen = [0x0D, 0x00] → ¬FlashIsLength x) ∧ x.bytes = .ok b ∧
        x.body = e'.body := by
      rcases hs.metaLen with hmm | hmm
      · refine ⟨{ e' with version := [0x00], archived := [0x00] },
          ⟨⟨Or.inl hmm, hs.typeId, hs.name, rfl, rfl⟩, Or.inl rfl, fun _ => ⟨rfl, rfl⟩, hlen⟩,
          fun h => ?_, ?_, rfl⟩
        · have h' : e'.metaLen = [0x0D, 0x00] := h
          rw [hmm] at h'; exact absurd h' (by decide)
        · have h1 := bytes_ok (e := e') hlen
          rw [hb, flashBytes_eleven hmm] at h1
          have h2 := bytes_ok (e := { e' with version := [0x00], archived := [0x00] }) hlen
          rw [flashBytes_eleven (e := { e' with version := [0x00], archived := [0x00] }) hmm] at h2
          exact h2.trans h1.symm
      · exact ⟨e', ⟨hs, ha, fun h => by rw [hmm] at h; exact absurd h (by decide), hlen⟩, hno, hb, rfl⟩
    obtain ⟨x, hw, hno', hb', hxb⟩ := key
    rw [load_step env b hc, loadBase_bytes env hw hno' hb' e']
    show (InStep (finish env _).st ∧ _)
    have hst : (after (checkType e' (fromLE x.typeId))
      (finish env { x with cls := e'.cls, body := ⟨true, x.body.bytes⟩ })).st =
        (finish env { x with cls := e'.cls, body := ⟨true, x.body.bytes⟩ }).st := rfl
    obtain ⟨c, hcc, hco⟩ := coerce_step env
      (e := { x with cls := e'.cls, body := ⟨true, x.body.bytes⟩ }) hc
    rw [hst, finish_st, hco]
    refine ⟨?_, rfl, ⟨hw.metaLen, hw.typeId, hw.name, hw.version, hw.archived⟩, hw.flag, hcc⟩
    unfold InStep
    simp only [hxb]
    exact hi

example : (setData (fun _ _ => ([], .ok 1)) [0x41, 0x42, 0x43, 0x44] sampleProgram).st.body.bytes =
    [4, 0, 0x41, 0x42, 0x43, 0x44] ∧ InStep sampleProgram := by decide +kernel

/-- A cleared picture to which 21945 bytes are assigned is reloaded as a coloured one. -/
example :
    let e : Ent := (setData (fun _ _ => ([], .ok 10)) (List.replicate 21945 0)
      (clear { sampleProgram with cls := .monoPicture, typeId := [0x07], version := [0x0A] }).st).st
    InStep e ∧ (coerce sampleEnv e).st.cls = .picture := by decide +kernel

/-- C26 is false for images: assigning any data sets the length to the number of data bytes, while
the byte before the data is part of what follows the length. -/
theorem C26_image_false (gv : GetVersion) (value : Bytes) (e : Ent) (d : Bytes) (hc : e.cls = .image)
    (hb : e.body = ⟨true, d⟩) (hd : 3 ≤ d.length) (hn : value.length < 65536)
    (hg : ∀ x, ∃ v, (gv x value).2 = .ok v) :
    (setData gv value e).res = .ok () ∧ ¬InStep (setData gv value e).st := by
  have h1 : lengthStart e.cls = 0 := by rw [hc]; rfl
  have h2 : dataStart e.cls = 3 := by rw [hc]; rfl
  have hz : e.cls.isSized = true := by rw [hc]; rfl
  obtain ⟨v, hv⟩ := hg { e with body := ⟨true, toLE 2 value.length ++ d.drop 2⟩ }
  have hv' : gv { e with body := ⟨true, toLE 2 value.length ++ d.drop 2⟩ } value =
      ((gv { e with body := ⟨true, toLE 2 value.length ++ d.drop 2⟩ } value).1, .ok v) := by
    rw [← hv]
  have hp := dataPut_ok (value := value)
    (e := { e with version := [UInt8.ofNat v], body := ⟨true, toLE 2 value.length ++ d.drop 2⟩ }) rfl
    (by simp [h2]; omega) e.cls rfl
  rw [h2] at hp
  have key : ∃ ws, setData gv value e = ⟨.ok (), { e with
      version := [UInt8.ofNat v]
      body := ⟨true, (toLE 2 value.length ++ d.drop 2).take 3 ++ value⟩ }, ws⟩ := by
    simp only [setData, PyM.bind_run, PyM.get_run, hz, if_true,
      setLength_ok h1 hb (Nat.le_of_succ_le hd) hn, updateVersion_ok hv']
    rw [hp]
    exact ⟨_, rfl⟩
  obtain ⟨ws, key⟩ := key
  rw [key]
  refine ⟨rfl, ?_⟩
  rintro ⟨-, h⟩
  obtain ⟨a, b, c, r, rfl⟩ : ∃ a b c r, d = a :: b :: c :: r := by
    rcases d with _ | ⟨a, _ | ⟨b, _ | ⟨c, r⟩⟩⟩
    all_goals first
      | exact ⟨_, _, _, _, rfl⟩
      | (simp at hd)
  obtain ⟨l0, l1, hl, hl2⟩ := toLE_two value.length (by omega)
  simp only [hl] at h
  change fromLE [l0, l1] = (c :: value).length at h
  rw [hl2] at h
  simp at h

/-- C26 is false through loading: a program in step, with version 5 and three bytes of data, loads
its own bytes and is out of step. -/
theorem C26_reload_false : ∃ e : Ent, WF e ∧ InStep e ∧ SizedCls e.cls = true ∧ ∃ b, e.bytes = .ok b ∧
    (load sampleEnv b e).res = .ok () ∧ ¬InStep (load sampleEnv b e).st := by
  refine ⟨⟨.program, [0x0D, 0x00], [0x05], [0x41, 0, 0, 0, 0, 0, 0, 0], [0x05], [0x00],
    ⟨true, [0x03, 0x00, 0x41, 0x3F, 0x42]⟩⟩,
    ⟨⟨Or.inr rfl, rfl, rfl, rfl, rfl⟩, Or.inl rfl, by decide, by decide⟩, by decide, rfl, _, rfl,
    ?_, ?_⟩
  · decide +kernel
  · decide +kernel

/-- C26 is false when the version cannot be computed: the length has been written and the data has
not. -/
theorem C26_raise_false (gv : GetVersion) (value : Bytes) (e : Ent) (x : PyErr)
    (hc : SizedCls e.cls = true) (hi : InStep e) (hm : e.body.mutable = true)
    (hn : value.length < 65536) (hne : value.length ≠ (e.body.bytes.drop 2).length)
    (hg : ∀ y, (gv y value).2 = .error x) :
    (setData gv value e).res = .error x ∧ ¬InStep (setData gv value e).st := by
  obtain ⟨h1, h2⟩ := SizedCls.starts hc
  have hb : e.body = ⟨true, e.body.bytes⟩ := by rw [← hm]
  have hg' : gv { e with body := ⟨true, toLE 2 value.length ++ e.body.bytes.drop 2⟩ } value =
      ((gv { e with body := ⟨true, toLE 2 value.length ++ e.body.bytes.drop 2⟩ } value).1,
        .error x) := by rw [← hg]
  have key : ∃ ws, setData gv value e = ⟨.error x, { e with
      body := ⟨true, toLE 2 value.length ++ e.body.bytes.drop 2⟩ }, ws⟩ := by
    simp only [setData, PyM.bind_run, PyM.get_run, SizedCls.isSized hc, if_true,
      setLength_ok h1 hb hi.1 hn, updateVersion_error hg']
    exact ⟨_, rfl⟩
  obtain ⟨ws, key⟩ := key
  rw [key]
  refine ⟨rfl, ?_⟩
  rintro ⟨-, h⟩
  simp only [List.take_left' (length_toLE 2 _), List.drop_left' (length_toLE 2 _)] at h
  rw [fromLE_toLE_of_lt (by have : 256 ^ 2 = 65536 := rfl; omega)] at h
  exact hne h

end Verif
