import Verif.Model.Flags
import Verif.Proofs.Data
import Verif.Proofs.Bytes

/-! Helper lemmas for flag sets. -/

namespace Verif

/-- A flag set with bits `0 … w-1` in order, given by a function. -/
def mkFlags (w : Nat) (f : Nat → Bool) : FlagItems := (List.range w).map fun i => (i, f i)

theorem mkFlags_range' (i n k : Nat) (v : Bool) (f : Nat → Bool) (h1 : i ≤ k) (h2 : k < i + n) :
    dictSet ((List.range' i n).map fun j => (j, f j)) k v =
      (List.range' i n).map fun j => (j, if j = k then v else f j) := by
  induction n generalizing i with
  | zero => omega
  | succ n ih =>
    simp only [List.range'_succ, List.map_cons, dictSet]
    by_cases h : i = k
    · subst h
      rw [if_pos rfl, if_pos rfl]
      congr 1
      apply List.map_congr_left
      intro j hj
      have := List.mem_range'_1.mp hj
      rw [if_neg (by omega)]
    · rw [if_neg h, if_neg h, ih (i + 1) (by omega) (by omega)]

theorem dictSet_mkFlags {w k : Nat} {v : Bool} {f : Nat → Bool} (h : k < w) :
    dictSet (mkFlags w f) k v = mkFlags w (fun j => if j = k then v else f j) := by
  simp only [mkFlags, List.range_eq_range']
  exact mkFlags_range' 0 w k v f (by omega) (by omega)

theorem dictGet_range' (i n k : Nat) (f : Nat → Bool) :
    dictGet ((List.range' i n).map fun j => (j, f j)) k =
      if i ≤ k ∧ k < i + n then .ok (f k) else .error .keyError := by
  induction n generalizing i with
  | zero => simp [dictGet]
  | succ n ih =>
    simp only [List.range'_succ, List.map_cons, dictGet]
    by_cases h : i = k
    · subst h; rw [if_pos rfl, if_pos (by omega)]
    · rw [if_neg h, ih]
      by_cases h2 : i + 1 ≤ k ∧ k < i + 1 + n
      · rw [if_pos h2, if_pos (by omega)]
      · rw [if_neg h2, if_neg (by omega)]

theorem dictGet_mkFlags (w k : Nat) (f : Nat → Bool) :
    dictGet (mkFlags w f) k = if k < w then .ok (f k) else .error .keyError := by
  simp only [mkFlags, List.range_eq_range', dictGet_range']
  simp

theorem flagsInt_mkFlags (w : Nat) (f : Nat → Bool) :
    flagsInt (mkFlags w f) = ofBits ((List.range w).map f) := by
  simp [flagsInt, mkFlags, Function.comp_def]

/-- The value function after an update. -/
def updFun (f : Nat → Bool) (s : FlagItems) : Nat → Bool :=
  s.foldl (fun f kv => fun j => if j = kv.1 then kv.2 else f j) f

theorem flagsUpdate_mkFlags {w : Nat} {f : Nat → Bool} {s : FlagItems} (hs : ∀ kv ∈ s, kv.1 < w) :
    flagsUpdate (mkFlags w f) s = mkFlags w (updFun f s) := by
  induction s generalizing f with
  | nil => rfl
  | cons kv s ih =>
    have h1 := hs kv (by simp)
    simp only [flagsUpdate, updFun, List.foldl_cons]
    rw [dictSet_mkFlags h1]
    exact ih (fun kv h => hs kv (by simp [h]))

theorem updFun_not_mem {f : Nat → Bool} {s : FlagItems} {k : Nat} (h : k ∉ s.map Prod.fst) :
    updFun f s k = f k := by
  induction s generalizing f with
  | nil => rfl
  | cons kv s ih =>
    simp only [List.map_cons, List.mem_cons, not_or] at h
    simp only [updFun, List.foldl_cons]
    have := ih (f := fun j => if j = kv.1 then kv.2 else f j) h.2
    simp only [updFun] at this
    rw [this, if_neg h.1]

theorem updFun_mem {f : Nat → Bool} {s : FlagItems} (hnd : (s.map Prod.fst).Nodup) {k : Nat} {v : Bool}
    (h : (k, v) ∈ s) : updFun f s k = v := by
  induction s generalizing f with
  | nil => simp at h
  | cons kv s ih =>
    simp only [List.map_cons, List.nodup_cons] at hnd
    rcases List.mem_cons.mp h with h | h
    · subst h
      have := updFun_not_mem (f := fun j => if j = k then v else f j) hnd.1
      simp only [updFun] at this
      simp only [updFun, List.foldl_cons]
      rw [this]; simp
    · have := ih (f := fun j => if j = kv.1 then kv.2 else f j) hnd.2 h
      simp only [updFun] at this
      simp only [updFun, List.foldl_cons, this]

theorem eq_mkFlags {d : FlagItems} {w : Nat} (h : d.map Prod.fst = List.range w) :
    ∃ f, d = mkFlags w f := by
  refine ⟨fun i => ((d[i]?).map Prod.snd).getD false, ?_⟩
  have hl : d.length = w := by simpa using congrArg List.length h
  apply List.ext_getElem?
  intro i
  by_cases hi : i < w
  · have h1 : (d.map Prod.fst)[i]? = some i := by rw [h]; simp [hi]
    rw [List.getElem?_map, List.getElem?_eq_getElem (by omega)] at h1
    simp only [Option.map_some, Option.some.injEq] at h1
    simp only [mkFlags, List.getElem?_map, List.getElem?_range hi, Option.map_some]
    rw [List.getElem?_eq_getElem (show i < d.length by omega)]
    simp only [Option.map_some, Option.getD_some, Option.some.injEq]
    exact Prod.ext h1 rfl
  · rw [List.getElem?_eq_none (by omega), List.getElem?_eq_none (by simp [mkFlags]; omega)]

/-! ### `Flags.get` -/

theorem enumFrom_map_range' (i n : Nat) (f : Nat → Bool) :
    enumFrom i ((List.range' i n).map f) = (List.range' i n).map fun j => (j, f j) := by
  induction n generalizing i with
  | zero => rfl
  | succ n ih => simp only [List.range'_succ, List.map_cons, enumFrom, ih]

theorem foldl_max_range' (i n a : Nat) :
    (List.range' i n).foldl max a = if n = 0 then a else max a (i + n - 1) := by
  induction n generalizing i a with
  | zero => rfl
  | succ n ih =>
    simp only [List.range'_succ, List.foldl_cons, ih]
    by_cases h : n = 0
    · subst h; simp
    · rw [if_neg h, if_neg (by omega)]; omega

/-- number of binary digits printed for `n` -/
def binLen (n : Nat) : Nat := if n = 0 then 1 else n.log2 + 1

theorem binDigits_eq (n : Nat) : binDigits n = (List.range (binLen n)).map n.testBit := by
  unfold binDigits binLen
  split
  · next h => subst h; simp
  · rfl

theorem lt_two_pow_binLen (n : Nat) : n < 2 ^ binLen n := by
  unfold binLen
  split
  · next h => subst h; simp
  · exact Nat.lt_log2_self

theorem binLen_le {n w : Nat} (h : n < 2 ^ w) (hw : 0 < w) : binLen n ≤ w := by
  unfold binLen
  split
  · omega
  · next h0 => have := (Nat.log2_lt h0).mpr h; omega

/-- `Flags.get` yields the bits of the little-endian integer, padded to whole bytes. -/
theorem flagsGet_eq (d : Bytes) :
    flagsGet d = mkFlags ((binLen (fromLE d) + 7) / 8 * 8) (fromLE d).testBit := by
  generalize hn : fromLE d = n
  have hpos : 0 < binLen n := by unfold binLen; split <;> omega
  have hk : (enumFrom 0 (binDigits n)) = (List.range' 0 (binLen n)).map fun j => (j, n.testBit j) := by
    rw [binDigits_eq, List.range_eq_range', enumFrom_map_range']
  simp only [flagsGet, hn, flagsInit, hk, List.map_map, Function.comp_def]
  rw [List.map_id', foldl_max_range', if_neg (by omega)]
  have hw : (max 0 (0 + binLen n - 1) + 1 + 7) / 8 * 8 = (binLen n + 7) / 8 * 8 := by
    congr 2; omega
  rw [hw]
  have hz : zeroFlags ((binLen n + 7) / 8 * 8) = mkFlags ((binLen n + 7) / 8 * 8) (fun _ => false) := rfl
  rw [hz, flagsUpdate_mkFlags]
  · have hfun : ∀ j, updFun (fun _ => false) ((List.range' 0 (binLen n)).map fun j => (j, n.testBit j)) j = n.testBit j := by
      intro j
      by_cases hj : j < binLen n
      · apply updFun_mem
        · simp only [List.map_map, Function.comp_def, List.map_id']
          exact List.nodup_range'
        · simp only [List.mem_map, List.mem_range'_1]
          exact ⟨j, by omega, rfl⟩
      · rw [updFun_not_mem]
        · symm; apply Nat.testBit_lt_two_pow
          exact Nat.lt_of_lt_of_le (lt_two_pow_binLen n) (Nat.pow_le_pow_right (by omega) (by omega))
        · simp only [List.map_map, Function.comp_def, List.map_id', List.mem_range'_1]
          omega
    rw [funext hfun]
  · intro kv hkv
    obtain ⟨j, hj, rfl⟩ := List.mem_map.mp hkv
    have := List.mem_range'_1.mp hj
    simp only
    omega

theorem flagsSet_mkFlags_testBit {w n : Nat} (h : n < 256 ^ w) :
    flagsSet (mkFlags (w * 8) n.testBit) = .ok (toLE w n) := by
  have h256 : (2 : Nat) ^ (w * 8) = 256 ^ w := by rw [Nat.mul_comm, Nat.pow_mul]
  have hi : flagsInt (mkFlags (w * 8) n.testBit) = n := by
    rw [flagsInt_mkFlags, ofBits_testBit_range, h256, Nat.mod_eq_of_lt h]
  have hl : (mkFlags (w * 8) n.testBit).length / 8 = w := by simp [mkFlags]
  rw [flagsSet, hi, hl, intToBytesLE, if_neg (by omega), Int.toNat_natCast]

theorem toLE_prefix (d : Bytes) (w : Nat) (hw : w ≤ d.length) (h : fromLE d < 256 ^ w) :
    ljust d.length (toLE w (fromLE d)) = d := by
  apply fromLE_inj
  · simp [hw]
  · have : ∀ (a : Bytes) (k : Nat), fromLE (a ++ List.replicate k 0) = fromLE a := by
      intro a k
      induction a with
      | nil =>
        induction k with
        | zero => rfl
        | succ k ih => simp only [List.nil_append] at ih; simp [List.replicate_succ, fromLE, ih]
      | cons b bs ih => simp only [List.cons_append, fromLE, ih]
    rw [ljust, this, fromLE_toLE_of_lt h]

end Verif
