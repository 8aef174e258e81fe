import Verif.Proofs.EntryBytes

/-! Loading the bytes of an entry. -/

namespace Verif
open Spec

theorem length_one {α : Type} {l : List α} (h : l.length = 1) : ∃ a, l = [a] :=
  List.length_eq_one_iff.1 h

theorem length_eight {α : Type} {l : List α} (h : l.length = 8) :
    ∃ a b c d e f g i, l = [a, b, c, d, e, f, g, i] := by
  rcases l with _ | ⟨a, _ | ⟨b, _ | ⟨c, _ | ⟨d, _ | ⟨e, _ | ⟨f, _ | ⟨g, _ | ⟨i, _ | ⟨j, l⟩⟩⟩⟩⟩⟩⟩⟩⟩ <;>
    simp at h
  exact ⟨_, _, _, _, _, _, _, _, rfl⟩

namespace Ent
variable {V : Type} [LinearOrder V]

/-- Loading the bytes of a well-formed entry restores its sections, up to coercion. -/
theorem loadBase_bytes (env : Env V) {e : Ent} (hw : WF e)
    (hno : e.metaLen = [0x0D, 0x00] → ¬FlashIsLength e) {b : Bytes} (hb : e.bytes = .ok b)
    (e₀ : Ent) :
    loadBase env b e₀ = after (checkType e₀ (fromLE e.typeId))
      (finish env { e with cls := e₀.cls, body := ⟨true, e.body.bytes⟩ }) := by
  have hlen : e.calcLength ≤ 65535 := hw.length
  rw [bytes_ok hlen] at hb
  injection hb with hb
  obtain ⟨t, ht⟩ := length_one hw.typeId
  obtain ⟨n0, n1, n2, n3, n4, n5, n6, n7, hn⟩ := length_eight hw.name
  obtain ⟨v, hv⟩ := length_one hw.version
  obtain ⟨a, ha⟩ := length_one hw.archived
  obtain ⟨l0, l1, hl, hl2⟩ := toLE_two e.calcLength hlen
  have htn : fromLE e.typeId = t.toNat := by rw [ht]; simp [fromLE]
  have htake : e.body.bytes.take (fromLE [l0, l1]) = e.body.bytes := by
    rw [hl2]; exact List.take_length
  have hlenb : e.body.bytes.length = fromLE [l0, l1] := hl2.symm
  rcases hw.metaLen with hm | hm
  · obtain ⟨h1, h2⟩ := hw.flashless hm
    rw [flashBytes_eleven hm, hm, ht, hn, hl] at hb
    simp only [List.cons_append, List.nil_append] at hb
    have hb' : ljust 17 b = 0x0B :: 0x00 :: l0 :: l1 :: t :: n0 :: n1 :: n2 :: n3 :: n4 :: n5 ::
        n6 :: n7 :: l0 :: l1 :: (e.body.bytes ++ List.replicate (2 - e.body.bytes.length) 0) := by
      rw [← hb]; simp [ljust]
    rw [loadBase_flashless env b e₀ _ _ _ _ _ _ _ _ _ _ _ _ _ _ _ _ hb' rfl]
    have htake' : (e.body.bytes ++ List.replicate (2 - e.body.bytes.length) (0 : UInt8)).take
        (fromLE [l0, l1]) = e.body.bytes := by
      rw [← hlenb]; exact List.take_left'  rfl
    rw [htake', htn, hm, ht, hn, h1, h2]
    simp [hlenb]
  · rw [flashBytes_thirteen hm hw.version hw.archived, hm, ht, hn, hl, hv, ha] at hb
    simp only [List.cons_append, List.nil_append] at hb
    have hb' : ljust 17 b = 0x0D :: 0x00 :: l0 :: l1 :: t :: n0 :: n1 :: n2 :: n3 :: n4 :: n5 ::
        n6 :: n7 :: v :: a :: l0 :: l1 :: e.body.bytes := by
      rw [← hb]; simp [ljust]
    have hmis : ¬(fromLE [(0x0D : UInt8), 0x00] = 13 ∧ [v, a] = [l0, l1]) := by
      rintro ⟨-, h⟩
      apply hno hm
      unfold FlashIsLength
      rw [hv, ha]
      show fromLE [v, a] = _
      rw [h, hl2]; rfl
    rw [loadBase_flash env b e₀ _ _ _ _ _ _ _ _ _ _ _ _ _ _ _ _ _ _ hb' (by decide) hmis]
    have hflag : ¬(a ≠ 0 ∧ a ≠ 0x80) := by
      rcases hw.flag with h | h <;> rw [ha] at h <;> injection h with h <;> simp [h]
    rw [htake, htn, hm, ht, hn, hv, ha, if_neg hflag]
    have : fromLE [(0x0D : UInt8), 0x00] = 13 := rfl
    simp [hlenb, this]

/-- Loading the bytes of a well-formed entry with determined content into an entry of the base
class. -/
theorem load_bytes_base (env : Env V) {e : Ent} (hw : WF e)
    (hno : e.metaLen = [0x0D, 0x00] → ¬FlashIsLength e)
    (hreg : ContentOK (fromLE e.typeId) e.body.bytes) {b : Bytes} (hb : e.bytes = .ok b)
    {e₀ : Ent} (h₀ : e₀.cls = .entry) :
    ∃ c, c.typeId = some (fromLE e.typeId) ∧
      load env b e₀ = ⟨.ok (), { e with cls := c, body := ⟨true, e.body.bytes⟩ },
        loadWarnings c e.metaLen e.version⟩ := by
  obtain ⟨t, ht⟩ := length_one hw.typeId
  obtain ⟨v, hv⟩ := length_one hw.version
  have htn : fromLE e.typeId = t.toNat := by rw [ht]; simp [fromLE]
  rw [htn] at hreg ⊢
  have hgt : ∃ c, Cls.getType t.toNat = some c := by
    unfold ContentOK at hreg
    generalize t.toNat = n at hreg
    split at hreg
    · rename_i h; rcases h with rfl | rfl | rfl | rfl | rfl <;> exact ⟨_, rfl⟩
    · repeat' split at hreg
      all_goals try (rename_i h; subst h; exact ⟨_, rfl⟩)
      simp only [List.mem_cons, List.not_mem_nil, or_false] at hreg
      rcases hreg with rfl | rfl | rfl | rfl | rfl | rfl | rfl | rfl | rfl | rfl | rfl | rfl |
        rfl | rfl | rfl | rfl | rfl <;> exact ⟨_, rfl⟩
  obtain ⟨c, hc⟩ := hgt
  have hload : load env b e₀ = loadBase env b e₀ := by
    simp [load, PyM.bind_run, h₀]
  rw [hload, loadBase_bytes env hw hno hb, htn, h₀]
  obtain ⟨c', hc', hct⟩ := coerceTyped_content env
    (e := { e with cls := c, body := ⟨true, e.body.bytes⟩ }) ht hc rfl hreg
  have hco : coerce env { e with cls := .entry, body := ⟨true, e.body.bytes⟩ } =
      ⟨.ok (), { e with cls := c', body := ⟨true, e.body.bytes⟩ }, []⟩ := by
    exact (coerce_base env (e := { e with cls := .entry, body := ⟨true, e.body.bytes⟩ })
      rfl ht hc).trans hc'
  refine ⟨c', hct, ?_⟩
  rw [finish_of_coerce env hco hv (metaLen_iff (show e.metaLen.length = 2 from metaLen_length hw.toSections))]
  simp [after, checkType, h₀, Cls.typeId]

/-! ### Arbitrary bytes -/

theorem length_17 {l : Bytes} (h : 17 ≤ l.length) :
    ∃ a0 a1 a2 a3 a4 a5 a6 a7 a8 a9 a10 a11 a12 a13 a14 a15 a16 r, l =
      a0 :: a1 :: a2 :: a3 :: a4 :: a5 :: a6 :: a7 :: a8 :: a9 :: a10 :: a11 :: a12 :: a13 :: a14 ::
      a15 :: a16 :: r := by
  rcases l with _ | ⟨a0, _ | ⟨a1, _ | ⟨a2, _ | ⟨a3, _ | ⟨a4, _ | ⟨a5, _ | ⟨a6, _ | ⟨a7, _ | ⟨a8, _ |
    ⟨a9, _ | ⟨a10, _ | ⟨a11, _ | ⟨a12, _ | ⟨a13, _ | ⟨a14, _ | ⟨a15, _ |
    ⟨a16, r⟩⟩⟩⟩⟩⟩⟩⟩⟩⟩⟩⟩⟩⟩⟩⟩⟩
  all_goals first
    | exact ⟨_, _, _, _, _, _, _, _, _, _, _, _, _, _, _, _, _, _, rfl⟩
    | (simp only [List.length_cons, List.length_nil] at h; omega)

/-- The shape of every load: the sections before coercion, and warnings for every
disagreement. -/
theorem loadBase_shape (env : Env V) (data : Bytes) (e₀ : Ent) :
    ∃ (e₁ : Ent) (ws : List Warn) (v a : UInt8), e₁.cls = e₀.cls ∧ e₁.version = [v] ∧
      e₁.archived = [a] ∧ e₁.metaLen.length = 2 ∧ e₁.name.length = 8 ∧
      e₁.typeId = ((ljust 17 data).drop 4).take 1 ∧
      e₁.body = ⟨true, ((ljust 17 data).drop (dataFrom (ljust 17 data))).take
        (fromLE (lengthOf (ljust 17 data)))⟩ ∧
      (e₁.body.bytes.length ≠ fromLE (lengthOf (ljust 17 data)) → .dataLength ∈ ws) ∧
      (FlashMisread (ljust 17 data) → .flashMissing ∈ ws) ∧
      (¬FlashMisread (ljust 17 data) →
        ((ljust 17 data).drop (dataFrom (ljust 17 data) - 2)).take 2 ≠ lengthOf (ljust 17 data) →
        .dataLengths ∈ ws) ∧
      loadBase env data e₀ = after ws (finish env e₁) := by
  have hl : 17 ≤ (ljust 17 data).length := by simp; omega
  obtain ⟨m0, m1, l0, l1, t, n0, n1, n2, n3, n4, n5, n6, n7, v, a, x0, x1, rest, hd⟩ := length_17 hl
  have hmeta : metaOf (ljust 17 data) = fromLE [m0, m1] := by rw [hd]; rfl
  have hlen : lengthOf (ljust 17 data) = [l0, l1] := by rw [hd]; rfl
  have hmis : FlashMisread (ljust 17 data) ↔ (fromLE [m0, m1] = 13 ∧ [v, a] = [l0, l1]) := by
    unfold FlashMisread; rw [hmeta, hlen, hd]; rfl
  by_cases h11 : fromLE [m0, m1] = 11
  · have hf : dataFrom (ljust 17 data) = 15 := by
      unfold dataFrom; rw [if_pos (Or.inl (by rw [hmeta, h11]))]
    have hno : ¬FlashMisread (ljust 17 data) := by rw [hmis]; omega
    refine ⟨_, _, 0, 0, ?_, ?_, ?_, ?_, ?_, ?_, ?_, ?_, ?_, ?_,
      loadBase_flashless env data e₀ _ _ _ _ _ _ _ _ _ _ _ _ _ v a _ hd h11⟩
    · rfl
    · rfl
    · rfl
    · rfl
    · rfl
    · rw [hd]; rfl
    · rw [hf, hlen, hd]; rfl
    · rw [hlen]; intro h; simp only [if_pos h]; simp
    · intro h; exact absurd h hno
    · rw [hf, hlen, hd]
      intro _ h
      have : [l0, l1] ≠ [v, a] := fun h' => h h'.symm
      simp only [if_pos this]; simp
  · by_cases hm : fromLE [m0, m1] = 13 ∧ [v, a] = [l0, l1]
    · obtain ⟨h13, hva⟩ := hm
      have hmm : FlashMisread (ljust 17 data) := hmis.2 ⟨h13, hva⟩
      have hf : dataFrom (ljust 17 data) = 15 := by
        unfold dataFrom; rw [if_pos (Or.inr hmm)]
      injection hva with h1 h2
      injection h2 with h2 _
      subst h1 h2
      refine ⟨_, _, 0, 0, ?_, ?_, ?_, ?_, ?_, ?_, ?_, ?_, ?_, ?_,
        loadBase_misfire env data e₀ _ _ _ _ _ _ _ _ _ _ _ _ _ _ hd h13⟩
      · rfl
      · rfl
      · rfl
      · rfl
      · rfl
      · rw [hd]; rfl
      · rw [hf, hlen, hd]; rfl
      · rw [hlen]; intro h; simp only [if_pos h]; simp
      · intro _; simp
      · intro h; exact absurd hmm h
    · have hno : ¬FlashMisread (ljust 17 data) := by rw [hmis]; exact hm
      have hf : dataFrom (ljust 17 data) = 17 := by
        unfold dataFrom; rw [if_neg (by rw [hmeta]; rintro (h | h); exacts [h11 h, hno h])]
      refine ⟨_, _, v, a, ?_, ?_, ?_, ?_, ?_, ?_, ?_, ?_, ?_, ?_,
        loadBase_flash env data e₀ _ _ _ _ _ _ _ _ _ _ _ _ _ _ _ _ _ _ hd h11 hm⟩
      · rfl
      · rfl
      · rfl
      · rfl
      · rfl
      · rw [hd]; rfl
      · rw [hf, hlen, hd]; rfl
      · rw [hlen]; intro h; simp only [if_pos h]; simp
      · intro h; exact absurd h hno
      · rw [hf, hlen, hd]
        intro _ h
        have : [l0, l1] ≠ [x0, x1] := fun h' => h h'.symm
        simp only [if_pos this]; simp

theorem decodeLoop_warns (initial : V) (tbl : TokTable V) (data curr : Bytes) (acc : DecAcc V)
    (h : ∀ w ∈ acc.warns, w ∉ corruption) :
    ∀ w ∈ (decodeLoop initial tbl data curr acc).warns, w ∉ corruption := by
  induction data generalizing curr acc with
  | nil => exact h
  | cons b rest ih =>
    unfold decodeLoop
    split
    · apply ih
      unfold decodeStep
      split
      · exact h
      · split
        · simp only [List.mem_append, List.mem_singleton]
          rintro w (hw | rfl)
          · exact h w hw
          · decide
        · exact h
    · split
      · apply ih
        unfold decodeStep
        have h' : ∀ w ∈ acc.warns ++ [Warn.nullBytes], w ∉ corruption := by
          simp only [List.mem_append, List.mem_singleton]
          rintro w (hw | rfl)
          · exact h w hw
          · decide
        split
        · exact h'
        · split
          · simp only [List.mem_append, List.mem_singleton]
            rintro w ((hw | rfl) | rfl)
            · exact h w hw
            · decide
            · decide
          · exact h'
      · exact ih _ _ h

theorem decode_warns (initial : V) (tbl : TokTable V) (data : Bytes) :
    ∀ w ∈ (decode initial tbl data).warns, w ∉ corruption :=
  decodeLoop_warns initial tbl data [] _ (by simp)

/-- The checks of `SizedEntry.load_bytes`, `TIMatrix.load_bytes` and `TokenizedEntry.load_bytes`
neither raise nor change the entry. -/
theorem checkSized_run (e : Ent) :
    ∃ ws, checkSized e = ⟨.ok (), e, ws⟩ ∧ ∀ w ∈ ws, w ∉ corruption := by
  simp only [checkSized, PyM.bind_run, PyM.get_run, PyM.ite_run]
  split
  · exact ⟨_, rfl, by simp [corruption]⟩
  · exact ⟨_, rfl, by simp⟩

theorem checkMatrix_run (e : Ent) :
    ∃ ws, checkMatrix e = ⟨.ok (), e, ws⟩ ∧ ∀ w ∈ ws, w ∉ corruption := by
  simp only [checkMatrix, PyM.bind_run, PyM.get_run, PyM.ite_run]
  split
  · exact ⟨_, rfl, by simp [corruption]⟩
  · exact ⟨_, rfl, by simp⟩

theorem checkTokens_run (env : Env V) {e : Ent} {v : UInt8} (hv : e.version = [v]) :
    ∃ ws, checkTokens env e = ⟨.ok (), e, ws⟩ ∧ ∀ w ∈ ws, w ∉ corruption := by
  have hd : ∀ w ∈ (tokenizedVersion env e none).1, w ∉ corruption := by
    unfold tokenizedVersion
    simp only
    split
    · simp
    · exact decode_warns _ _ _
  simp only [checkTokens, PyM.bind_run, PyM.get_run, PyM.ofExcept_run, getVersionByte_one hv,
    PyM.warnAll_run, PyM.ite_run, List.nil_append]
  split
  · refine ⟨_, rfl, ?_⟩
    simp only [PyM.warn_run, List.mem_append, List.mem_singleton]
    rintro w (h | rfl)
    · exact hd w h
    · decide
  · refine ⟨_, rfl, ?_⟩
    simpa using hd

set_option linter.unusedSimpArgs false in
/-- Loading into a plain class is the base method followed by harmless checks. -/
theorem load_plain (env : Env V) {data : Bytes} {e₀ e' : Ent} {ws : List Warn} {v : UInt8}
    (h : Plain e₀.cls = true) (hb : loadBase env data e₀ = ⟨.ok (), e', ws⟩) (hv : e'.version = [v]) :
    ∃ ws', load env data e₀ = ⟨.ok (), e', ws ++ ws'⟩ ∧ ∀ w ∈ ws', w ∉ corruption := by
  obtain ⟨w1, h1, c1⟩ := checkSized_run e'
  obtain ⟨w2, h2, c2⟩ := checkMatrix_run e'
  obtain ⟨w3, h3, c3⟩ := checkTokens_run env hv
  have c13 : ∀ w ∈ w1 ++ w3, w ∉ corruption := by
    intro w hw
    rcases List.mem_append.1 hw with h | h
    exacts [c1 w h, c3 w h]
  rcases hc : e₀.cls <;> rw [hc] at h <;>
    first
    | exact absurd h (by decide)
    | (simp only [load, PyM.bind_run, PyM.get_run, hc, hb, h1, h2, h3, List.nil_append];
       first
       | exact ⟨_, rfl, c1⟩
       | exact ⟨_, rfl, c2⟩
       | exact ⟨_, rfl, c13⟩)
    | (simp only [load, PyM.bind_run, PyM.get_run, hc, hb, h1, h2, h3, List.nil_append];
       exact ⟨[], by simp⟩)

end Ent
end Verif
