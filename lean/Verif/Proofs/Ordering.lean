import Verif.Spec.Ordering
import Verif.Proofs.Flags

/-! Helper lemmas for the numbers and comparisons of flags. -/

namespace Verif
open Spec

/-- Flags with the values of a function. -/
def mkRaw (w : Nat) (f : Nat → Int) : RawFlags := (List.range w).map fun i => (i, f i)

theorem rawSet_range' (i n k : Nat) (v : Int) (f : Nat → Int) (h1 : i ≤ k) (h2 : k < i + n) :
    rawSet ((List.range' i n).map fun j => (j, f j)) k v =
      (List.range' i n).map fun j => (j, if j = k then v else f j) := by
  induction n generalizing i with
  | zero => omega
  | succ n ih =>
    simp only [List.range'_succ, List.map_cons, rawSet]
    by_cases h : i = k
    · subst h
      rw [if_pos rfl, if_pos rfl]
      congr 1
      apply List.map_congr_left
      intro j hj
      have := List.mem_range'_1.mp hj
      rw [if_neg (by omega)]
    · rw [if_neg h, if_neg h, ih (i + 1) (by omega) (by omega)]

theorem rawSet_mkRaw {w k : Nat} {v : Int} {f : Nat → Int} (h : k < w) :
    rawSet (mkRaw w f) k v = mkRaw w (fun j => if j = k then v else f j) := by
  simp only [mkRaw, List.range_eq_range']
  exact rawSet_range' 0 w k v f (by omega) (by omega)

theorem rawGet_range' (i n k : Nat) (f : Nat → Int) :
    rawGet ((List.range' i n).map fun j => (j, f j)) k =
      if i ≤ k ∧ k < i + n then .ok (f k) else .error .keyError := by
  induction n generalizing i with
  | zero => simp [rawGet]
  | succ n ih =>
    simp only [List.range'_succ, List.map_cons, rawGet]
    by_cases h : i = k
    · subst h; rw [if_pos rfl, if_pos (by omega)]
    · rw [if_neg h, ih]
      by_cases h2 : i + 1 ≤ k ∧ k < i + 1 + n
      · rw [if_pos h2, if_pos (by omega)]
      · rw [if_neg h2, if_neg (by omega)]

theorem rawGet_mkRaw (w k : Nat) (f : Nat → Int) :
    rawGet (mkRaw w f) k = if k < w then .ok (f k) else .error .keyError := by
  simp only [mkRaw, List.range_eq_range', rawGet_range']
  simp

theorem rawKeys_range' (i n : Nat) (f : Nat → Int) : ∀ d : RawFlags, d.map Prod.fst = List.range' i n →
    (∀ k, i ≤ k → k < i + n → rawGet d k = .ok (f k)) → d = (List.range' i n).map fun j => (j, f j) := by
  induction n generalizing i with
  | zero => intro d h _; simpa using h
  | succ n ih =>
    intro d h hg
    match d, h with
    | (k, v) :: d, h =>
      simp only [List.map_cons, List.range'_succ, List.cons.injEq] at h
      obtain ⟨rfl, h⟩ := h
      have hv := hg k (by omega) (by omega)
      simp only [rawGet, if_true, Except.ok.injEq] at hv
      simp only [List.range'_succ, List.map_cons, hv, List.cons.injEq, true_and]
      refine ih (k + 1) d h fun j h1 h2 => ?_
      have := hg j (by omega) (by omega)
      rwa [rawGet, if_neg (by omega)] at this

theorem flagsOf_eq {w n : Nat} {d : RawFlags} (h : FlagsOf w n d) :
    d = mkRaw w fun i => if n.testBit i then 1 else 0 := by
  have := rawKeys_range' 0 w (fun i => if n.testBit i then 1 else 0) d (by rw [h.keys, List.range_eq_range'])
    (fun k _ hk => h.bits k (by omega))
  rw [this, mkRaw, List.range_eq_range']

/-- The digit of a bit. -/
def bitChar (b : Bool) : Char := if b then '1' else '0'

theorem binValue_bits (l : List Bool) : ∀ acc, binValue acc (l.map bitChar) =
    .ok (l.foldl (fun a b => 2 * a + b.toNat) acc) := by
  induction l with
  | nil => intro acc; rfl
  | cons b l ih =>
    intro acc
    cases b
    · simp only [List.map_cons, binValue, bitChar, List.foldl_cons, Bool.toNat_false, Nat.add_zero]
      exact ih _
    · have : ¬('1' = '0') := by decide
      simp only [List.map_cons, binValue, bitChar, if_true, if_neg this, List.foldl_cons, Bool.toNat_true]
      exact ih _

theorem foldl_reverse_bits (l : List Bool) : l.reverse.foldl (fun a b => 2 * a + b.toNat) 0 = ofBits l := by
  rw [List.foldl_reverse]
  induction l with
  | nil => rfl
  | cons b l ih => simp only [List.foldr_cons, ih, ofBits]; omega

theorem rawText_mkRaw (w : Nat) (f : Nat → Bool) :
    rawText (mkRaw w fun i => if f i then 1 else 0) = ((List.range w).map f).reverse.map bitChar := by
  have h0 : intRepr 0 = ['0'] := by decide
  have h1 : intRepr 1 = ['1'] := by decide
  unfold rawText mkRaw
  rw [List.map_map, ← List.map_reverse, ← List.map_reverse, List.map_map]
  generalize (List.range w).reverse = l
  induction l with
  | nil => rfl
  | cons a l ih =>
    simp only [List.map_cons, List.flatten_cons, ih, Function.comp_apply, bitChar]
    cases f a <;> simp [h0, h1]

theorem rawInt_mkRaw {w : Nat} (hw : 0 < w) (f : Nat → Bool) :
    rawInt (mkRaw w fun i => if f i then 1 else 0) = .ok (ofBits ((List.range w).map f) : Nat) := by
  unfold rawInt
  rw [rawText_mkRaw]
  have hne : ((List.range w).map f).reverse ≠ [] := by simp; omega
  rw [← foldl_reverse_bits]
  generalize ((List.range w).map f).reverse = l at hne
  match l, hne with
  | b :: l, _ =>
    have : bitChar b ≠ '-' := by cases b <;> decide
    have hb := binValue_bits (b :: l) 0
    unfold intBase2
    simp only [List.map_cons, if_neg this] at hb ⊢
    rw [hb]
    rfl

theorem ofBits_range_testBit {w n : Nat} (h : n < 2 ^ w) : ofBits ((List.range w).map n.testBit) = n := by
  apply Nat.eq_of_testBit_eq
  intro i
  rw [testBit_ofBits]
  by_cases hi : i < w
  · simp [hi]
  · rw [List.getElem?_eq_none (by simp; omega)]
    exact (Nat.testBit_lt_two_pow (Nat.lt_of_lt_of_le h (Nat.pow_le_pow_right (by omega) (by omega)))).symm

theorem rawInt_flagsOf {w n : Nat} {d : RawFlags} (hw : 0 < w) (h : FlagsOf w n d) : rawInt d = .ok (n : Int) := by
  rw [flagsOf_eq h, rawInt_mkRaw hw, ofBits_range_testBit h.fits]

/-- The values after an update. -/
def rawFun (f : Nat → Int) (s : RawFlags) : Nat → Int := s.foldl (fun f kv => fun j => if j = kv.1 then kv.2 else f j) f

theorem rawUpdate_mkRaw {w : Nat} {f : Nat → Int} {s : RawFlags} (hs : ∀ kv ∈ s, kv.1 < w) :
    rawUpdate (mkRaw w f) s = mkRaw w (rawFun f s) := by
  induction s generalizing f with
  | nil => rfl
  | cons kv s ih =>
    have h1 := hs kv (by simp)
    simp only [rawUpdate, rawFun, List.foldl_cons]
    rw [rawSet_mkRaw h1]
    exact ih (fun kv h => hs kv (by simp [h]))

theorem rawFun_not_mem {s : RawFlags} : ∀ {f : Nat → Int} {k : Nat}, k ∉ s.map Prod.fst → rawFun f s k = f k := by
  induction s with
  | nil => intros; rfl
  | cons kv s ih =>
    intro f k h
    simp only [List.map_cons, List.mem_cons, not_or] at h
    simp only [rawFun, List.foldl_cons]
    have := ih (f := fun j => if j = kv.1 then kv.2 else f j) h.2
    rw [rawFun] at this
    rw [this, if_neg h.1]

theorem rawFun_mem {s : RawFlags} : ∀ {f : Nat → Int}, (s.map Prod.fst).Nodup → ∀ {k : Nat} {v : Int}, (k, v) ∈ s →
    rawFun f s k = v := by
  induction s with
  | nil => intro _ _ _ _ h; simp at h
  | cons kv s ih =>
    intro f hnd k v h
    simp only [List.map_cons, List.nodup_cons] at hnd
    rcases List.mem_cons.1 h with rfl | h
    · have := rawFun_not_mem (f := fun j => if j = k then v else f j) hnd.1
      simp only [rawFun, List.foldl_cons] at this ⊢
      rw [this]; exact if_pos trivial
    · have := ih (f := fun j => if j = kv.1 then kv.2 else f j) hnd.2 h
      simp only [rawFun, List.foldl_cons] at this ⊢
      exact this

theorem le_foldl_max (l : List Nat) : ∀ a, a ≤ l.foldl max a ∧ ∀ x ∈ l, x ≤ l.foldl max a := by
  induction l with
  | nil => intro a; simp
  | cons y l ih =>
    intro a
    obtain ⟨h1, h2⟩ := ih (max a y)
    simp only [List.foldl_cons, List.mem_cons]
    refine ⟨by omega, ?_⟩
    rintro x (rfl | hx)
    · omega
    · exact h2 x hx

theorem foldl_max_mem (l : List Nat) : ∀ a, l.foldl max a = a ∨ l.foldl max a ∈ l := by
  induction l with
  | nil => intro a; simp
  | cons y l ih =>
    intro a
    simp only [List.foldl_cons, List.mem_cons]
    rcases ih (max a y) with h | h
    · rw [h]; omega
    · exact .inr (.inr h)

theorem binValue_bad {s : Str} : ∀ {acc : Nat} {c : Char}, c ∈ s → c ≠ '0' → c ≠ '1' → binValue acc s = .error .valueError := by
  induction s with
  | nil => intro _ _ h; simp at h
  | cons a s ih =>
    intro acc c h h0 h1
    unfold binValue
    rcases List.mem_cons.1 h with rfl | h
    · rw [if_neg h0, if_neg h1]
    · rw [ih h h0 h1, ih h h0 h1]
      simp

theorem intBase2_bad {s : Str} {c : Char} (h : c ∈ s) (h0 : c ≠ '0') (h1 : c ≠ '1') (hm : c ≠ '-') :
    intBase2 s = .error .valueError := by
  unfold intBase2
  match s, h with
  | a :: s, h =>
    simp only
    by_cases ha : a = '-'
    · have hs : c ∈ s := by
        rcases List.mem_cons.1 h with rfl | h
        · exact absurd ha hm
        · exact h
      rw [if_pos ha, if_neg (by rintro rfl; simp at hs), binValue_bad hs h0 h1]
      rfl
    · rw [if_neg ha, binValue_bad h h0 h1]
      rfl

/-- The comparisons used for file extensions are those of `total_ordering`. -/
theorem modelCompare_eq (ord : Model → Nat) (a b : Model) :
    modelCompare ord .ge a b = .ok (Model.ge ord a b) ∧ modelCompare ord .lt a b = .ok (Model.lt ord a b) ∧
      modelCompare ord .le a b = .ok (Model.le ord a b) := ⟨rfl, rfl, rfl⟩

end Verif
