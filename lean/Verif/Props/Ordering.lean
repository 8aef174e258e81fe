import Verif.Proofs.Ordering

/-
C117: the numbers that flags stand for, and the comparisons of flags and models.
-/

namespace Verif
open Spec

/-- C117, construction: flags made from any assignment of numbers to bits have the fewest whole bytes that hold these
bits, and are the number with the bits given an odd value. -/
theorem C117_new (bs : RawFlags) (hnd : (bs.map Prod.fst).Nodup) :
    ∃ w n, FlagsOf w n (rawInit bs) ∧ 8 ∣ w ∧ 0 < w ∧ (∀ kv ∈ bs, kv.1 < w) ∧ (8 < w → ∃ kv ∈ bs, w - 8 ≤ kv.1) ∧
      ∀ i, n.testBit i = true ↔ ∃ v, (i, v) ∈ bs ∧ v % 2 = 1 := by
  obtain ⟨m, hm⟩ : ∃ m, m = (bs.map Prod.fst).foldl max 0 := ⟨_, rfl⟩
  obtain ⟨w, hw⟩ : ∃ w, w = (m + 1 + 7) / 8 * 8 := ⟨_, rfl⟩
  obtain ⟨g, hg⟩ : ∃ g : Nat → Int, g = rawFun (fun _ => 0) bs := ⟨_, rfl⟩
  have hlt : ∀ kv ∈ bs, kv.1 < w := by
    intro kv hkv
    have := (le_foldl_max (bs.map Prod.fst) 0).2 kv.1 (List.mem_map_of_mem hkv)
    rw [← hm] at this
    omega
  have hrun : rawInit bs = mkRaw w fun i => g i % 2 := by
    unfold rawInit
    rw [← hm]
    simp only
    rw [← hw]
    have := rawUpdate_mkRaw (f := fun _ => 0) hlt
    unfold mkRaw at this ⊢
    rw [this, List.map_map, hg]
    rfl
  have hbit : ∀ i : Nat, (g i % 2 = 1) ↔ ∃ v, (i, v) ∈ bs ∧ v % 2 = 1 := by
    intro i
    rw [hg]
    by_cases hi : i ∈ bs.map Prod.fst
    · obtain ⟨⟨k, v⟩, hkv, rfl⟩ := List.mem_map.1 hi
      rw [rawFun_mem hnd hkv]
      refine ⟨fun h => ⟨v, hkv, h⟩, ?_⟩
      rintro ⟨v', hv', h⟩
      rw [← rawFun_mem (f := fun _ => 0) hnd hkv, rawFun_mem hnd hv']
      exact h
    · rw [rawFun_not_mem hi]
      refine ⟨fun h => by simp at h, ?_⟩
      rintro ⟨v, hv, -⟩
      exact absurd (List.mem_map_of_mem (f := Prod.fst) hv) hi
  have htest : ∀ i, (ofBits ((List.range w).map fun i => decide (g i % 2 = 1))).testBit i = true ↔
      ∃ v, (i, v) ∈ bs ∧ v % 2 = 1 := by
    intro i
    rw [testBit_ofBits, ← hbit]
    by_cases hi : i < w
    · simp [hi]
    · rw [List.getElem?_eq_none (by simp; omega)]
      refine ⟨fun h => by simp at h, fun h => ?_⟩
      obtain ⟨v, hv, -⟩ := (hbit i).1 h
      exact absurd (hlt _ hv) hi
  refine ⟨w, ofBits ((List.range w).map fun i => decide (g i % 2 = 1)), ⟨?_, ?_, ?_⟩, ⟨_, by rw [hw, Nat.mul_comm]⟩, by omega,
    hlt, ?_, htest⟩
  · rw [hrun]; simp [mkRaw, Function.comp_def]
  · simpa using ofBits_lt ((List.range w).map fun i => decide (g i % 2 = 1))
  · intro i hi
    rw [hrun, rawGet_mkRaw, if_pos hi]
    congr 1
    by_cases h : g i % 2 = 1
    · rw [if_pos ((htest i).2 ((hbit i).1 h)), h]
    · rw [if_neg (fun h' => h ((hbit i).2 ((htest i).1 h')))]
      omega
  · intro h8
    rcases foldl_max_mem (bs.map Prod.fst) 0 with h | h
    · rw [← hm] at h; omega
    · rw [← hm] at h
      obtain ⟨kv, hkv, h⟩ := List.mem_map.1 h
      exact ⟨kv, hkv, by omega⟩

/-- C117, text and number: the text of flags has a digit for each bit, the highest first, and their number is the one with
these bits. -/
theorem C117_number (d : RawFlags) (w n : Nat) (hw : 0 < w) (h : FlagsOf w n d) :
    rawInt d = .ok (n : Int) ∧ (rawText d).length = w ∧
      ∀ i, i < w → (rawText d)[w - 1 - i]? = some (if n.testBit i then '1' else '0') := by
  refine ⟨rawInt_flagsOf hw h, ?_, ?_⟩
  · rw [flagsOf_eq h, rawText_mkRaw]; simp
  · intro i hi
    rw [flagsOf_eq h, rawText_mkRaw, List.getElem?_map, List.getElem?_reverse (by simp; omega)]
    simp only [List.length_map, List.length_range]
    rw [show w - 1 - (w - 1 - i) = i by omega]
    simp [hi, bitChar]

/-- C117, comparisons of flags: `<` and `>` are those of the numbers, and flags of the same width are equal if the numbers
are; `<=` and `>=` are missing. -/
theorem C117_flags_partial (d d' : RawFlags) (w w' n n' : Nat) (hw : 0 < w) (hw' : 0 < w') (h : FlagsOf w n d)
    (h' : FlagsOf w' n' d') :
    flagsCompare .lt d d' = .ok (cmpNat .lt n n') ∧ flagsCompare .gt d d' = .ok (cmpNat .gt n n') ∧
      (rawEq d d' = true ↔ n = n' ∧ w = w') := by
  have h1 := rawInt_flagsOf hw h
  have h2 := rawInt_flagsOf hw' h'
  refine ⟨?_, ?_, ?_⟩
  · simp [flagsCompare, richCompare, cmpCall, totalOrdering, flagsMethods, flagsGt, h1, h2, Cmp.reflect, cmpNat]
  · simp [flagsCompare, richCompare, cmpCall, totalOrdering, flagsMethods, flagsGt, h1, h2, cmpNat]
  · have hl : d.length = w := by rw [flagsOf_eq h]; simp [mkRaw]
    have hl' : d'.length = w' := by rw [flagsOf_eq h']; simp [mkRaw]
    unfold rawEq
    simp only [hl, hl', Bool.and_eq_true, beq_iff_eq, List.all_eq_true]
    constructor
    · rintro ⟨rfl, hall⟩
      refine ⟨Nat.eq_of_testBit_eq fun i => ?_, rfl⟩
      by_cases hi : i < w
      · have := hall (i, if n.testBit i then 1 else 0) (by
          rw [flagsOf_eq h]; exact List.mem_map.2 ⟨i, List.mem_range.2 hi, rfl⟩)
        simp only [h'.bits i hi, beq_iff_eq] at this
        revert this
        cases n.testBit i <;> cases n'.testBit i <;> simp
      · have hp : (2 : Nat) ^ w ≤ 2 ^ i := Nat.pow_le_pow_right (by omega) (by omega)
        rw [Nat.testBit_lt_two_pow (Nat.lt_of_lt_of_le h.fits hp), Nat.testBit_lt_two_pow (Nat.lt_of_lt_of_le h'.fits hp)]
    · rintro ⟨rfl, rfl⟩
      refine ⟨rfl, ?_⟩
      intro kv hkv
      have hi : kv.1 < w := by
        have := List.mem_map_of_mem (f := Prod.fst) hkv
        rw [h.keys] at this
        exact List.mem_range.1 this
      rw [flagsOf_eq h] at hkv
      obtain ⟨i, -, rfl⟩ := List.mem_map.1 hkv
      simp only at hi
      simp [h'.bits i hi]

/-- C117 is false of `<=` and `>=` for flags: both raise, whatever is compared, also flags with themselves. -/
theorem C117_flags_false (d d' : RawFlags) :
    flagsCompare .le d d' = .error .typeError ∧ flagsCompare .ge d d' = .error .typeError := by
  simp [flagsCompare, richCompare, cmpCall, totalOrdering, flagsMethods, Cmp.reflect]

/-- C117 is false of updates with other numbers than 0 and 1: they are not reduced to bits, and flags updated with a 2,
which the constructor takes as 0, have no number and cannot be compared or stored. -/
theorem C117_update_false (d : RawFlags) (w n k : Nat) (h : FlagsOf w n d) (hk : k < w) :
    rawInt (rawUpdate d [(k, 2)]) = .error .valueError ∧
      ∃ n', FlagsOf w n' (rawUpdate d [(k, 2 % 2)]) ∧ rawInt (rawUpdate d [(k, 2 % 2)]) = .ok (n' : Int) := by
  have hw : 0 < w := by omega
  have hd := flagsOf_eq h
  constructor
  · have hmem : (k, 2) ∈ rawUpdate d [(k, 2)] := by
      rw [hd, rawUpdate_mkRaw (by simpa using hk)]
      exact List.mem_map.2 ⟨k, List.mem_range.2 hk, by simp [rawFun]⟩
    refine intBase2_bad (c := '2') ?_ (by decide) (by decide) (by decide)
    unfold rawText
    refine List.mem_flatten.2 ⟨intRepr 2, List.mem_reverse.2 (List.mem_map.2 ⟨_, hmem, rfl⟩), by decide⟩
  · obtain ⟨f, hf⟩ : ∃ f : Nat → Bool, f = fun i => if i = k then false else n.testBit i := ⟨_, rfl⟩
    have hup : rawUpdate d [(k, 2 % 2)] = mkRaw w fun i => if f i then 1 else 0 := by
      rw [hd, rawUpdate_mkRaw (by simpa using hk), hf]
      unfold mkRaw
      congr 1
      funext i
      simp only [rawFun, List.foldl_cons, List.foldl_nil]
      by_cases hi : i = k <;> simp [hi]
    have hb := rawInt_mkRaw hw f
    refine ⟨ofBits ((List.range w).map f), ⟨?_, ?_, ?_⟩, by rw [hup, hb]⟩
    · rw [hup]; simp [mkRaw, Function.comp_def]
    · simpa using ofBits_lt ((List.range w).map f)
    · intro i hi
      rw [hup, rawGet_mkRaw, if_pos hi, testBit_ofBits]
      simp [hi]

/-- C117, models: if no two have the same place in the order, all four comparisons are those of the places. -/
theorem C117_models (ord : Model → Nat) (hinj : ∀ a b, ord a = ord b → a = b) (c : Cmp) (a b : Model) :
    modelCompare ord c a b = .ok (cmpNat c (ord a) (ord b)) := by
  have hroot : cmpRoot (modelMethods ord) = some .ge := rfl
  by_cases h : a = b
  · subst h
    cases c <;> simp [modelCompare, richCompare, cmpCall, totalOrdering, modelMethods, hroot, cmpFrom, cmpNat, Model.ge]
  · have hne : ord a ≠ ord b := fun he => h (hinj a b he)
    have hb : (a == b) = false := by simp [h]
    rcases Nat.lt_or_gt_of_ne hne with hlt | hlt
    · have h1 : ¬ord b ≤ ord a := by omega
      have h2 : ¬ord b < ord a := by omega
      have h3 : ord a ≤ ord b := by omega
      cases c <;> simp [modelCompare, richCompare, cmpCall, totalOrdering, modelMethods, hroot, cmpFrom, cmpNat, Model.ge,
        hb, h1, h2, h3, hlt]
    · have h1 : ord b ≤ ord a := by omega
      have h2 : ¬ord a < ord b := by omega
      have h3 : ¬ord a ≤ ord b := by omega
      cases c <;> simp [modelCompare, richCompare, cmpCall, totalOrdering, modelMethods, hroot, cmpFrom, cmpNat, Model.ge,
        hb, h1, h2, h3, hlt]

/-- C117, models that share a place: each is greater than the other, and neither is less than or equal to it. -/
theorem C117_models_shared (ord : Model → Nat) (a b : Model) (hne : a ≠ b) (h : ord a = ord b) :
    modelCompare ord .gt a b = .ok true ∧ modelCompare ord .gt b a = .ok true ∧ modelCompare ord .le a b = .ok false ∧
      modelCompare ord .lt a b = .ok false := by
  have hroot : cmpRoot (modelMethods ord) = some .ge := rfl
  simp [modelCompare, richCompare, cmpCall, totalOrdering, modelMethods, hroot, cmpFrom, Model.ge, h, hne, hne.symm]

/-- The flags of a new equation are the number 3, less than those of a selected one. -/
example : rawInt (rawInit [(1, 1), (0, 1)]) = .ok 3 ∧ rawText (rawInit [(1, 1), (0, 1)]) = "00000011".toList ∧
    flagsCompare .lt (rawInit [(1, 1), (0, 1)]) (rawInit [(5, 1), (0, 1), (1, 7)]) = .ok true ∧
    flagsCompare .ge (rawInit [(1, 1)]) (rawInit [(1, 1)]) = .error .typeError ∧
    (rawInit [(9, 1)]).length = 16 ∧ rawInt (rawUpdate (rawInit [(1, 1)]) [(3, 2)]) = .error .valueError := by
  decide +kernel

/-- The TI-82 comes before the TI-84 Plus CE in the order of the list of models. -/
example : modelCompare (fun m => Model.all.idxOf m) .le .ti82 .ti84pce = .ok true ∧
    modelCompare (fun m => Model.all.idxOf m) .gt .ti82 .ti84pce = .ok false := by
  decide +kernel

end Verif
