import Verif.Proofs.Flags

/-! Property theorems about flag sets (C09, C10). -/

namespace Verif

/-- C09. Updating a flag set of `w` bits with an assignment `s` to some of its bits
(flags.py:75-109). -/
theorem C09_flags_update (d s : FlagItems) (w : Nat) (hd : d.map Prod.fst = List.range w)
    (hs : ∀ kv ∈ s, kv.1 < w) (hnd : (s.map Prod.fst).Nodup) :
    flagsContains (flagsUpdate d s) s = .ok true ∧
    (∀ k, k ∉ s.map Prod.fst → dictGet (flagsUpdate d s) k = dictGet d k) ∧
    (flagsUpdate d s).map Prod.fst = List.range w ∧
    (∀ k, k < w → dictGet (flagsUpdate d s) k = .ok ((flagsInt (flagsUpdate d s)).testBit k)) ∧
    flagsInt (flagsUpdate d s) < 2 ^ w := by
  obtain ⟨f, rfl⟩ := eq_mkFlags hd
  rw [flagsUpdate_mkFlags hs]
  refine ⟨?_, ?_, ?_, ?_, ?_⟩
  · have : ∀ t : FlagItems, (∀ kv ∈ t, kv ∈ s) → flagsContains (mkFlags w (updFun f s)) t = .ok true := by
      intro t ht
      induction t with
      | nil => rfl
      | cons kv t ih =>
        obtain ⟨k, v⟩ := kv
        have hm := ht (k, v) (by simp)
        simp only [flagsContains, dictGet_mkFlags, if_pos (hs _ hm), updFun_mem hnd hm, if_true]
        exact ih fun kv h => ht kv (by simp [h])
    exact this s fun _ h => h
  · intro k hk
    rw [dictGet_mkFlags, dictGet_mkFlags, updFun_not_mem hk]
  · simp [mkFlags, Function.comp_def]
  · intro k hk
    rw [dictGet_mkFlags, if_pos hk, flagsInt_mkFlags, testBit_ofBits]
    simp [hk]
  · rw [flagsInt_mkFlags]
    simpa using ofBits_lt ((List.range w).map (updFun f s))

example : flagsInt (flagsUpdate (zeroFlags 8) [(3, true), (0, true)]) = 9 ∧
    flagsContains (flagsUpdate (zeroFlags 8) [(3, true), (0, true)]) [(3, true)] = .ok true := by
  decide +kernel

/-- C10. Reading flag bytes and writing them back through the section reproduces them; flag `i`
is bit `i` of the little-endian integer. -/
theorem C10_flags_roundtrip (d : Bytes) (hd : d ≠ []) (b : Buf) :
    ∃ f, sectionGet flagsConv ⟨b.mutable, d⟩ = .ok f ∧
      sectionSet flagsConv (some d.length) f b = ⟨.ok (), ⟨false, d⟩, []⟩ ∧
      (d.length = 1 → flagsSet f = .ok d) ∧
      f.map Prod.fst = List.range f.length ∧
      (∀ i, i < f.length → dictGet f i = .ok ((fromLE d).testBit i)) ∧
      (∀ i, f.length ≤ i → (fromLE d).testBit i = false) := by
  have hlen : 0 < d.length := List.length_pos_iff.mpr hd
  have h256 : ∀ w, (2 : Nat) ^ (w * 8) = 256 ^ w := fun w => by rw [Nat.mul_comm, Nat.pow_mul]
  have hlt : fromLE d < 2 ^ (d.length * 8) := by rw [h256]; exact fromLE_lt d
  have hbl := binLen_le hlt (by omega)
  have hpos : 0 < binLen (fromLE d) := by unfold binLen; split <;> omega
  obtain ⟨w, hw⟩ : ∃ w, w = (binLen (fromLE d) + 7) / 8 := ⟨_, rfl⟩
  have hn2 : fromLE d < 256 ^ w := by
    rw [← h256]
    exact Nat.lt_of_lt_of_le (lt_two_pow_binLen _) (Nat.pow_le_pow_right (by omega) (by omega))
  have hset : flagsSet (mkFlags (w * 8) (fromLE d).testBit) = .ok (toLE w (fromLE d)) :=
    flagsSet_mkFlags_testBit hn2
  have hl : (mkFlags (w * 8) (fromLE d).testBit).length = w * 8 := by simp [mkFlags]
  refine ⟨mkFlags (w * 8) (fromLE d).testBit, ?_, ?_, ?_, ?_, ?_, ?_⟩
  · simp only [sectionGet, flagsConv, wrapIndexError, flagsGet_eq, ← hw]
  · have hs : flagsConv.set (mkFlags (w * 8) (fromLE d).testBit) (some d.length) b.bytes ()
        = ⟨.ok (toLE w (fromLE d)), (), []⟩ := by
      simp only [flagsConv, PyM.ofExcept_run, hset]
    rw [sectionSet_run, setRaw_ok hs, fitWidth_some, List.take_of_length_le (by simp; omega),
      if_neg (by simp; omega), toLE_prefix d w (by omega) hn2]
    rfl
  · intro h1
    have : w = d.length := by omega
    rw [hset, this, toLE_fromLE]
  · rw [hl]; simp [mkFlags, Function.comp_def]
  · intro i hi
    rw [dictGet_mkFlags, if_pos (by omega)]
  · intro i hi
    rw [hl] at hi
    apply Nat.testBit_lt_two_pow
    exact Nat.lt_of_lt_of_le hn2 (by rw [← h256]; exact Nat.pow_le_pow_right (by omega) hi)

example : flagsGet [0x85] = [(0, true), (1, false), (2, true), (3, false), (4, false), (5, false), (6, false),
    (7, true)] := by decide +kernel

end Verif
