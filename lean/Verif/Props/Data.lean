import Verif.Proofs.Data
import Verif.Spec.Data

/-! Property theorems about `tivars/data.py` (C01-C05, C07, C08). -/

namespace Verif
open Spec

/-! ### C01 – integer sections -/

/-- Every byte of the stored form is the corresponding base-256 digit. -/
theorem toLE_leByte (l n i : Nat) (hi : i < l) : ((toLE l n)[i]?).map UInt8.toNat = some (leByte n i) := by
  induction l generalizing n i with
  | zero => omega
  | succ l ih =>
    cases i with
    | zero => simp [toLE, leByte]
    | succ i =>
      simp only [toLE, List.getElem?_cons_succ]
      rw [ih _ _ (by omega)]
      simp only [leByte, Nat.div_div_eq_div_mul, Nat.pow_succ']

/-- C01. Assigning to an integer section of width `w` (data.py:200-215, 409-420). -/
theorem C01_integer_section (w : Nat) (n : Int) (b : Buf) :
    (0 ≤ n ∧ n < (256 ^ w : Nat) →
      ∃ d : Bytes, sectionSet intConv (some w) n b = ⟨.ok (), ⟨false, d⟩, []⟩ ∧
        d.length = w ∧ sectionGet intConv ⟨false, d⟩ = .ok n ∧
        ∀ i, i < w → (d[i]?).map UInt8.toNat = some (leByte n.toNat i)) ∧
    (¬ (0 ≤ n ∧ n < (256 ^ w : Nat)) →
      sectionSet intConv (some w) n b = ⟨.error .overflowError, b, []⟩) := by
  constructor
  · rintro ⟨h0, h1⟩
    refine ⟨toLE w n.toNat, ?_, length_toLE _ _, ?_, fun i hi => toLE_leByte _ _ _ hi⟩
    · have hs : intConv.set n (some w) b.bytes () = ⟨.ok (toLE w n.toNat), (), []⟩ := by
        simp only [intConv, intToBytesLE, Option.getD_some, PyM.ofExcept_run]
        rw [if_neg (by omega)]
      rw [sectionSet_run, setRaw_ok hs, fitWidth_eq (length_toLE _ _)]
      rfl
    · have h2 : n.toNat < 256 ^ w := by omega
      simp only [sectionGet, intConv, wrapIndexError, fromLE_toLE_of_lt h2]
      congr 1
      omega
  · intro h
    have hs : intConv.set n (some w) b.bytes () = ⟨.error .overflowError, (), []⟩ := by
      simp only [intConv, intToBytesLE, Option.getD_some, PyM.ofExcept_run]
      rw [if_pos (by omega)]
    rw [sectionSet_run]
    unfold setRaw
    rw [PyM.bind_error hs]

/-- C01, converse: writing back the integer read from `w` bytes reproduces them, and
the default width is two bytes. -/
theorem C01_integer_readback (d : Bytes) (b : Buf) :
    ∃ n, sectionGet intConv ⟨b.mutable, d⟩ = .ok n ∧ 0 ≤ n ∧ n < (256 ^ d.length : Nat) ∧
      sectionSet intConv (some d.length) n b = ⟨.ok (), ⟨false, d⟩, []⟩ ∧
      ∀ m cur, intConv.set m none cur () = intConv.set m (some 2) cur () := by
  have hlt := fromLE_lt d
  refine ⟨fromLE d, rfl, by omega, by exact_mod_cast hlt, ?_, fun _ _ => rfl⟩
  have hs : intConv.set (fromLE d) (some d.length) b.bytes () = ⟨.ok d, (), []⟩ := by
    simp only [intConv, intToBytesLE, Option.getD_some, PyM.ofExcept_run]
    rw [if_neg (by omega)]
    simp [toLE_fromLE]
  rw [sectionSet_run, setRaw_ok hs, fitWidth_eq rfl]
  rfl

example : sectionSet intConv (some 2) 4660 ⟨true, [0, 0]⟩ = ⟨.ok (), ⟨false, [0x34, 0x12]⟩, []⟩ := by
  decide +kernel
example : (sectionSet intConv (some 1) 256 ⟨true, [7]⟩).res = .error .overflowError := by
  decide +kernel

/-! ### C02 – boolean sections -/

/-- C02. Boolean sections (data.py:148-177). -/
theorem C02_boolean_section (v : Bool) (b : Buf) (d : Bytes) :
    sectionSet boolConv (some 1) v b = ⟨.ok (), ⟨false, [if v then 0x80 else 0x00]⟩, []⟩ ∧
    sectionGet boolConv ⟨false, [if v then 0x80 else 0x00]⟩ = .ok v ∧
    (sectionGet boolConv ⟨b.mutable, d⟩ = .ok false ↔ d = [0x00]) ∧
    (sectionGet boolConv ⟨b.mutable, d⟩ = .ok true ↔ d ≠ [0x00]) := by
  refine ⟨?_, ?_, ?_, ?_⟩
  · have hs : boolConv.set v (some 1) b.bytes () = ⟨.ok [if v then 0x80 else 0x00], (), []⟩ := by
      cases v <;> rfl
    rw [sectionSet_run, setRaw_ok hs, fitWidth_eq (n := 1) (by simp)]
    rfl
  · cases v <;> decide
  · simp [sectionGet, boolConv, wrapIndexError]
  · simp [sectionGet, boolConv, wrapIndexError]

/-! ### C03, C04 – bit fields -/

theorem fieldValue_eq (ps : List Nat) (n : Nat) : fieldValue ps n = ofBits (ps.map n.testBit) := by
  induction ps with
  | nil => rfl
  | cons p ps ih => simp only [fieldValue, List.map_cons, ofBits, ih]; cases n.testBit p <;> simp

/-- C03. Writing `v` through a bit field selected by any slice of the eight bits. -/
theorem C03_bitfield_write (item : Slice) (v : Int) (b : UInt8) (len : Option Nat)
    (hne : positions (bitIdx item) ≠ []) :
    ∃ (b' : UInt8) (ws : List Warn),
      (bitsConv item).set v len [b] () = ⟨.ok [b'], (), ws⟩ ∧
      -- bits outside the field are untouched
      (∀ i, i < 8 → i ∉ positions (bitIdx item) → b'.toNat.testBit i = b.toNat.testBit i) ∧
      -- the field holds the value modulo its size
      (bitsConv item).get [b'] =
        .ok ((v % 256) % (2 ^ (positions (bitIdx item)).length : Nat)) ∧
      -- a warning exactly when the (byte-sized) value does not fit
      (ws ≠ [] ↔ (2 ^ (positions (bitIdx item)).length : Nat) ≤ v % 256) ∧
      (∀ w ∈ ws, w = .tooManyBits) := by
  obtain ⟨b', h1, h2, h3⟩ := bitSliceSet_spec (bitIdx item) v b
  have hn : (v % 256).toNat < 256 := by omega
  have hk : (positions (bitIdx item)).length ≤ 8 := by
    refine Nat.le_trans (List.length_filter_le _ _) (by simp)
  refine ⟨b', _, h1, ?_, ?_, ?_, bitsLeftover_all _⟩
  · intro i hi hni
    apply h2 i hi
    simpa [positions, hi] using hni
  · simp only [bitsConv]
    rw [bitSliceGet_spec _ _ hne, h3]
    have : (bits8 (v % 256).toNat).take ((List.range 8).filter (bitIdx item)).length
        = (List.range (positions (bitIdx item)).length).map (v % 256).toNat.testBit := by
      rw [bits8, ← List.map_take]
      congr 1
      rw [List.take_range]
      congr 1
      exact Nat.min_eq_left hk
    rw [this, ofBits_testBit_range]
    congr 1
    have : ((v % 256).toNat : Int) = v % 256 := by omega
    rw [Int.natCast_emod, this]
  · have := leftover_bits8 hn hk
    rw [Ne, show ((List.range 8).filter (bitIdx item)) = positions (bitIdx item) from rfl, this]
    omega

/-- C03. Reading gives the field's value, and rewriting the read value changes nothing. -/
theorem C03_bitfield_readback (item : Slice) (b : UInt8) (len : Option Nat)
    (hne : positions (bitIdx item) ≠ []) :
    (bitsConv item).get [b] = .ok (fieldValue (positions (bitIdx item)) b.toNat : Nat) ∧
    (bitsConv item).set (fieldValue (positions (bitIdx item)) b.toNat : Nat) len [b] ()
      = ⟨.ok [b], (), []⟩ := by
  have hget : (bitsConv item).get [b] = .ok (fieldValue (positions (bitIdx item)) b.toNat : Nat) := by
    simp only [bitsConv]
    rw [bitSliceGet_spec _ _ hne, fieldValue_eq]; rfl
  refine ⟨hget, ?_⟩
  generalize hv : fieldValue (positions (bitIdx item)) b.toNat = v
  have hlen8 : (positions (bitIdx item)).length ≤ 8 := by
    refine Nat.le_trans (List.length_filter_le _ _) (by simp)
  have hlt : v < 2 ^ (positions (bitIdx item)).length := by
    rw [← hv, fieldValue_eq]
    simpa using ofBits_lt ((positions (bitIdx item)).map b.toNat.testBit)
  have hlt8 : v < 256 := Nat.lt_of_lt_of_le hlt
    (Nat.pow_le_pow_right (n := 2) (j := 8) (by omega) hlen8)
  obtain ⟨b', h1, h2, h3⟩ := bitSliceSet_spec (bitIdx item) (v : Int) b
  have hvm : ((v : Int) % 256).toNat = v := by omega
  rw [hvm] at h1 h3
  have hws : bitsLeftover ((bits8 v).drop ((List.range 8).filter (bitIdx item)).length) = [] :=
    (leftover_bits8 hlt8 hlen8).mpr hlt
  have hbits : (bits8 v).take ((List.range 8).filter (bitIdx item)).length
      = (positions (bitIdx item)).map b.toNat.testBit := by
    apply List.ext_getElem?
    intro j
    by_cases hj : j < (positions (bitIdx item)).length
    · rw [List.getElem?_take_of_lt (show j < ((List.range 8).filter (bitIdx item)).length from hj), bits8]
      simp only [List.getElem?_map]
      rw [List.getElem?_range (by omega)]
      simp only [Option.map_some]
      rw [← hv, fieldValue_eq, testBit_ofBits, List.getElem?_map]
      rw [List.getElem?_eq_getElem hj]
      simp
    · rw [List.getElem?_eq_none (by
        simp only [List.length_take]
        have : (positions (bitIdx item)).length = ((List.range 8).filter (bitIdx item)).length := rfl
        omega), List.getElem?_eq_none (by simp; omega)]
  have hbb : b' = b := by
    apply UInt8.toNat_inj.mp
    apply Nat.eq_of_testBit_eq
    intro i
    by_cases hi : i < 8
    · by_cases hin : bitIdx item i = true
      · have hmem : i ∈ positions (bitIdx item) := by simp [positions, hi, hin]
        rw [hbits] at h3
        have := List.map_inj_left.mp h3
        exact this i hmem
      · exact h2 i hi (by simpa using hin)
    · have e : ∀ x : UInt8, x.toNat.testBit i = false := fun x =>
        Nat.testBit_lt_two_pow (Nat.lt_of_lt_of_le x.toNat_lt
          (Nat.pow_le_pow_right (n := 2) (i := 8) (by omega) (by omega)))
      rw [e, e]
  simp only [bitsConv]
  rw [h1, hws, hbb]

/-- The slices used by the library: sign bit `[7:]`, graph bit `[6:7]`, subtype `[:6]`, all `[:]`. -/
example : positions (bitIdx ⟨some 7, none, none⟩) = [7] ∧ positions (bitIdx ⟨some 6, some 7, none⟩) = [6] ∧
    positions (bitIdx ⟨none, some 6, none⟩) = [0, 1, 2, 3, 4, 5] ∧
    positions (bitIdx ⟨none, none, none⟩) = [0, 1, 2, 3, 4, 5, 6, 7] ∧
    positions (bitIdx ⟨none, none, some (-3)⟩) = [1, 4, 7] := by decide +kernel

/-- C04 is false of the code: a bit field accepts 256 and stores 0 without any warning. -/
theorem C04_bitfield_silent_loss_false :
    ¬ ∀ (item : Slice) (v : Int) (b : UInt8), positions (bitIdx item) ≠ [] →
      ∀ b' ws, (bitsConv item).set v none [b] () = ⟨.ok [b'], (), ws⟩ →
        (bitsConv item).get [b'] ≠ .ok v → ws ≠ [] := by
  intro h
  have := h ⟨some 7, none, none⟩ 256 0 (by decide +kernel) 0 [] (by decide +kernel) (by decide +kernel)
  exact this rfl

/-- C04, what does hold: values of one byte are never lost silently. -/
theorem C04_bitfield_silent_loss_partial (item : Slice) (v : Int) (b : UInt8)
    (hne : positions (bitIdx item) ≠ []) (hv : 0 ≤ v ∧ v < 256) (b' : UInt8) (ws : List Warn)
    (hset : (bitsConv item).set v none [b] () = ⟨.ok [b'], (), ws⟩)
    (hget : (bitsConv item).get [b'] ≠ .ok v) : ws ≠ [] := by
  obtain ⟨b'', ws', h1, -, h3, h4, -⟩ := C03_bitfield_write item v b none hne
  rw [h1] at hset
  injection hset with e1 e2 e3
  injection e1 with e1
  injection e1 with e1 _
  subst e1 e3
  rw [h4]
  apply Decidable.byContradiction
  intro hlt
  apply hget
  rw [h3]
  congr 1
  rw [Int.emod_eq_of_lt (by omega) (by omega), Int.emod_eq_of_lt (by omega) (by omega)]

example : ((bitsConv ⟨none, some 6, none⟩).set 0x5C none [0x80] ()).warns = [.tooManyBits] := by
  decide +kernel

/-! ### C05 – latin-1 string sections -/

theorem latin1Encode_ok (s : Str) (h : ∀ c ∈ s, c.toNat < 256) :
    latin1Encode s = .ok (s.map fun c => UInt8.ofNat c.toNat) := by
  induction s with
  | nil => rfl
  | cons c cs ih =>
    have hc := h c (by simp)
    rw [latin1Encode, if_pos hc, ih (fun c hc => h c (by simp [hc]))]
    rfl

theorem latin1Encode_error (s : Str) (h : ∃ c ∈ s, 256 ≤ c.toNat) :
    latin1Encode s = .error .unicodeEncodeError := by
  induction s with
  | nil => simp at h
  | cons c cs ih =>
    rw [latin1Encode]
    split
    · obtain ⟨d, hd, hge⟩ := h
      rcases List.mem_cons.mp hd with rfl | hd
      · omega
      · rw [ih ⟨d, hd, hge⟩]
    · rfl

theorem rstripNulStr_isRStrip (s : Str) : IsRStrip '\x00' s (rstripNulStr s) := by
  have h : ∀ r : Str, (∃ k, r = List.replicate k '\x00' ++ r.dropWhile (· == '\x00')) ∧
      (r.dropWhile (· == '\x00')).head? ≠ some '\x00' := by
    intro r
    induction r with
    | nil => exact ⟨⟨0, rfl⟩, by simp⟩
    | cons b bs ih =>
      by_cases hb : b = '\x00'
      · subst hb
        obtain ⟨⟨k, hk⟩, h2⟩ := ih
        refine ⟨⟨k + 1, ?_⟩, by simpa using h2⟩
        simp only [List.dropWhile_cons, beq_self_eq_true, if_true, List.replicate_succ,
          List.cons_append]
        rw [← hk]
      · exact ⟨⟨0, by simp [hb]⟩, by simp [hb]⟩
  obtain ⟨⟨k, hk⟩, h2⟩ := h s.reverse
  constructor
  · refine ⟨k, ?_⟩
    have h3 := congrArg List.reverse hk
    simpa [rstripNulStr] using h3
  · simpa [rstripNulStr] using h2

theorem isRStrip_unique {α : Type} {z : α} {s r r' : List α}
    (h : IsRStrip z s r) (h' : IsRStrip z s r') : r = r' := by
  obtain ⟨⟨k, hk⟩, hl⟩ := h
  obtain ⟨⟨k', hk'⟩, hl'⟩ := h'
  induction k generalizing k' s with
  | zero =>
    cases k' with
    | zero => simp at hk hk'; rw [← hk, ← hk']
    | succ k' =>
      exfalso; apply hl
      have : r = r' ++ List.replicate (k' + 1) z := by simpa [hk] using hk'
      rw [this, List.replicate_succ', ← List.append_assoc]
      simp
  | succ k ih =>
    cases k' with
    | zero =>
      exfalso; apply hl'
      have : r' = r ++ List.replicate (k + 1) z := by
        have := hk'.symm.trans hk; simpa using this
      rw [this, List.replicate_succ', ← List.append_assoc]
      simp
    | succ k' =>
      have := hk.symm.trans hk'
      rw [List.replicate_succ', List.replicate_succ', ← List.append_assoc, ← List.append_assoc] at this
      have h2 := List.append_inj_left' this rfl
      exact ih (s := r ++ List.replicate k z) rfl k' h2

/-- C05. String sections of width `w` (data.py:218-247, 409-420). -/
theorem C05_string_section (w : Nat) (s : Str) (b : Buf) :
    ((∀ c ∈ s, c.toNat < 256) →
      ∃ (d : Bytes) (r : Str), sectionSet strConv (some w) s b =
          ⟨.ok (), ⟨false, d⟩, if s.length > w then [.tooWide] else []⟩ ∧
        d.length = w ∧
        sectionGet strConv ⟨false, d⟩ = .ok r ∧ IsRStrip '\x00' (s.take w) r) ∧
    ((∃ c ∈ s, 256 ≤ c.toNat) →
      sectionSet strConv (some w) s b = ⟨.error .unicodeEncodeError, b, []⟩) := by
  constructor
  · intro hc
    have hs : strConv.set s (some w) b.bytes () = ⟨.ok (s.map fun c => UInt8.ofNat c.toNat), (), []⟩ := by
      simp only [strConv, PyM.ofExcept_run, latin1Encode_ok s hc]
    have hlen : ((s.map fun c => UInt8.ofNat c.toNat).take w).length ≤ w := by simp; omega
    refine ⟨ljust w ((s.map fun c => UInt8.ofNat c.toNat).take w), rstripNulStr (s.take w), ?_, ?_, ?_,
      rstripNulStr_isRStrip _⟩
    · rw [sectionSet_run, setRaw_ok hs, fitWidth_some]
      simp only [List.length_map, List.nil_append]
    · rw [length_ljust]; omega
    · simp only [sectionGet, strConv, wrapIndexError]
      congr 1
      have hdec : latin1Decode ((s.map fun c => UInt8.ofNat c.toNat).take w) = s.take w := by
        rw [latin1Decode, ← List.map_take, List.map_map]
        conv => rhs; rw [← List.map_id (s.take w)]
        apply List.map_congr_left
        intro c hc'
        have := hc c (List.mem_of_mem_take hc')
        simp only [Function.comp, id]
        rw [UInt8.toNat_ofNat_of_lt' (by simpa using this)]
        exact Char.ofNat_toNat c
      apply isRStrip_unique (z := '\x00') (s := latin1Decode (ljust w ((s.map fun c => UInt8.ofNat c.toNat).take w)))
      · exact rstripNulStr_isRStrip _
      · obtain ⟨⟨k, hk⟩, hl⟩ := rstripNulStr_isRStrip (s.take w)
        refine ⟨⟨k + (w - ((s.map fun c => UInt8.ofNat c.toNat).take w).length), ?_⟩, hl⟩
        rw [ljust, latin1Decode, List.map_append]
        rw [← latin1Decode, hdec]
        conv => lhs; rw [hk]
        rw [List.map_replicate, List.append_assoc,
          show Char.ofNat (UInt8.toNat 0) = '\x00' from by decide, List.replicate_append_replicate]
  · intro hc
    have hs : strConv.set s (some w) b.bytes () = ⟨.error .unicodeEncodeError, (), []⟩ := by
      simp only [strConv, PyM.ofExcept_run, latin1Encode_error s hc]
    rw [sectionSet_run]
    unfold setRaw
    rw [PyM.bind_error hs]

example : sectionSet strConv (some 4) "TI-84".toList ⟨true, []⟩ =
    ⟨.ok (), ⟨false, [0x54, 0x49, 0x2D, 0x38]⟩, [.tooWide]⟩ := by decide +kernel

/-! ### C07 – views are local -/

/-- The declared length of a view `[a:b]` is `b - a`, for unbounded and for fixed targets. -/
theorem C07_view_length {a b n : Nat} (hab : a ≤ b) :
    viewLength none (Slice.nat a b) = some (b - a) ∧
    (b ≤ n → viewLength (some n) (Slice.nat a b) = some (b - a)) := by
  constructor
  · simp only [viewLength, Slice.nat, Option.getD_some, Option.getD_none]
    simp
    omega
  · intro hb
    simp only [viewLength, Slice.nat, Slice.indices, Option.getD_none, rangeLen]
    simp
    omega

/-- C07. Writing through a view `[a:b]` of a mutable buffer of at least `b` bytes. -/
theorem C07_view_write {α : Type} (c : Conv α) (a b : Nat) (v : α) (d : Bytes)
    (hab : a ≤ b) (hb : b ≤ d.length) :
    let view : View α := ⟨c, Slice.nat a b, some (b - a)⟩
    (∀ x ws, c.set v (some (b - a)) ((d.drop a).take (b - a)) () = ⟨.ok x, (), ws⟩ →
      ∃ d', view.put v ⟨true, d⟩ =
          ⟨.ok (), ⟨true, d'⟩, ws ++ if x.length > b - a then [.tooWide] else []⟩ ∧
        d'.length = d.length ∧
        (d'.drop a).take (b - a) = ljust (b - a) (x.take (b - a)) ∧
        ∀ i, (i < a ∨ b ≤ i) → d'[i]? = d[i]?) ∧
    (∀ e ws, c.set v (some (b - a)) ((d.drop a).take (b - a)) () = ⟨.error e, (), ws⟩ →
      view.put v ⟨true, d⟩ = ⟨.error e, ⟨true, d⟩, ws⟩) := by
  constructor
  · intro x ws hx
    have hb' := bounds_nat (n := d.length) hab hb
    have hlen : (ljust (b - a) (x.take (b - a))).length
        = ((Slice.nat a b).bounds d.length).2 - ((Slice.nat a b).bounds d.length).1 := by
      rw [hb', length_ljust]; simp; omega
    refine ⟨setSlice d (Slice.nat a b) (ljust (b - a) (x.take (b - a))), ?_, ?_, ?_, ?_⟩
    · rw [← getSlice_nat hab hb] at hx
      simp only [View.put, PyM.bind_run, PyM.get_run, PyM.lift_run, setRaw_ok hx, fitWidth_some,
        if_true, PyM.set_run, List.nil_append, List.append_nil]
    · exact length_setSlice hlen
    · have h1 := length_setSlice hlen
      rw [← getSlice_nat hab (by omega)]
      exact getSlice_setSlice hlen
    · intro i hi
      apply getElem?_setSlice_outside hlen
      rw [hb']; exact hi
  · intro e ws hx
    rw [← getSlice_nat hab hb] at hx
    have hr : setRaw c (some (b - a)) (getSlice d (Slice.nat a b)) v () = ⟨.error e, (), ws⟩ := by
      unfold setRaw; rw [PyM.bind_error hx]
    simp only [View.put, PyM.bind_run, PyM.get_run, PyM.lift_run, hr, List.nil_append]

/-- C07. A view with a disjoint range reads the same before and after the write. -/
theorem C07_view_frame {α β : Type} (c : Conv α) (c' : Conv β) (a b a' b' : Nat) (v : α) (d : Bytes)
    (hab : a ≤ b) (hb : b ≤ d.length) (hab' : a' ≤ b') (hb' : b' ≤ d.length)
    (hdis : b ≤ a' ∨ b' ≤ a) (l : Option Nat) :
    (⟨c', Slice.nat a' b', l⟩ : View β).get ((⟨c, Slice.nat a b, some (b - a)⟩ : View α).put v ⟨true, d⟩).st
      = (⟨c', Slice.nat a' b', l⟩ : View β).get ⟨true, d⟩ := by
  have hw := C07_view_write c a b v d hab hb
  rcases hc : c.set v (some (b - a)) ((d.drop a).take (b - a)) () with ⟨r, u, ws⟩
  cases r with
  | error e => rw [(hw.2 e ws hc)]
  | ok x =>
    obtain ⟨d', h1, h2, -, h4⟩ := hw.1 x ws hc
    rw [h1]
    simp only [View.get]
    congr 2
    apply getSlice_ext h2
    rw [bounds_nat hab' (by omega)]
    intro i h5 h6
    exact h4 i (by omega)

/-- C07. Writes through disjoint views commute. -/
theorem C07_view_commute {α β : Type} (c : Conv α) (c' : Conv β) (a b a' b' : Nat) (v : α) (v' : β)
    (d : Bytes) (hab : a ≤ b) (hb : b ≤ d.length) (hab' : a' ≤ b') (hb' : b' ≤ d.length)
    (hdis : b ≤ a' ∨ b' ≤ a) :
    let p : PyM Buf Unit := (⟨c, Slice.nat a b, some (b - a)⟩ : View α).put v
    let q : PyM Buf Unit := (⟨c', Slice.nat a' b', some (b' - a')⟩ : View β).put v'
    (q (p ⟨true, d⟩).st).st = (p (q ⟨true, d⟩).st).st := by
  intro p q
  have slice_eq : ∀ (e d : Bytes) (a b : Nat), e.length = d.length →
      (∀ i, a ≤ i → i < b → e[i]? = d[i]?) → (e.drop a).take (b - a) = (d.drop a).take (b - a) := by
    intro e d a b hl h
    apply List.ext_getElem?
    intro i
    by_cases hi : i < b - a
    · rw [List.getElem?_take_of_lt hi, List.getElem?_take_of_lt hi, List.getElem?_drop,
        List.getElem?_drop]
      exact h _ (by omega) (by omega)
    · rw [List.getElem?_eq_none (by simp; omega), List.getElem?_eq_none (by simp; omega)]
  have hp := C07_view_write c a b v d hab hb
  have hq := C07_view_write c' a' b' v' d hab' hb'
  rcases hc : c.set v (some (b - a)) ((d.drop a).take (b - a)) () with ⟨r, u, ws⟩
  rcases hc' : c'.set v' (some (b' - a')) ((d.drop a').take (b' - a')) () with ⟨r', u', ws'⟩
  cases r with
  | error e =>
    have hp0 : p ⟨true, d⟩ = _ := hp.2 e ws hc
    rw [hp0]
    cases r' with
    | error e' =>
      have hq0 : q ⟨true, d⟩ = _ := hq.2 e' ws' hc'
      rw [hq0, hp0]
    | ok x' =>
      obtain ⟨d2, h1, h2, h3, h4⟩ := hq.1 x' ws' hc'
      have hq0 : q ⟨true, d⟩ = _ := h1
      rw [hq0]
      have hc2 := slice_eq d2 d a b h2 (fun i h5 h6 => h4 i (by omega))
      have hp2 := C07_view_write c a b v d2 hab (by omega)
      rw [hc2] at hp2
      have := hp2.2 e ws hc
      have hp3 : p ⟨true, d2⟩ = _ := this
      rw [hp3]
  | ok x =>
    obtain ⟨d1, g1, g2, g3, g4⟩ := hp.1 x ws hc
    have hp0 : p ⟨true, d⟩ = _ := g1
    rw [hp0]
    have hc1 := slice_eq d1 d a' b' g2 (fun i h5 h6 => g4 i (by omega))
    have hq2 := C07_view_write c' a' b' v' d1 hab' (by omega)
    rw [hc1] at hq2
    cases r' with
    | error e' =>
      have hq0 : q ⟨true, d⟩ = _ := hq.2 e' ws' hc'
      have hq3 : q ⟨true, d1⟩ = _ := hq2.2 e' ws' hc'
      rw [hq0, hp0, hq3]
    | ok x' =>
      obtain ⟨d2, h1, h2, h3, h4⟩ := hq.1 x' ws' hc'
      have hq0 : q ⟨true, d⟩ = _ := h1
      rw [hq0]
      obtain ⟨d12, i1, i2, i3, i4⟩ := hq2.1 x' ws' hc'
      have hq3 : q ⟨true, d1⟩ = _ := i1
      rw [hq3]
      have hc2 := slice_eq d2 d a b h2 (fun i h5 h6 => h4 i (by omega))
      have hp2 := C07_view_write c a b v d2 hab (by omega)
      rw [hc2] at hp2
      obtain ⟨d21, j1, j2, j3, j4⟩ := hp2.1 x ws hc
      have hp3 : p ⟨true, d2⟩ = _ := j1
      rw [hp3]
      simp only [Buf.mk.injEq, true_and]
      have sub : ∀ (e f : Bytes) (a b i : Nat), a ≤ i → i < b →
          (e.drop a).take (b - a) = (f.drop a).take (b - a) → e[i]? = f[i]? := by
        intro e f a b i h5 h6 h
        have : ((e.drop a).take (b - a))[i - a]? = ((f.drop a).take (b - a))[i - a]? := by rw [h]
        rw [List.getElem?_take_of_lt (by omega), List.getElem?_take_of_lt (by omega),
          List.getElem?_drop, List.getElem?_drop] at this
        rwa [show a + (i - a) = i by omega] at this
      apply List.ext_getElem?
      intro i
      by_cases hi : a ≤ i ∧ i < b
      · rw [i4 i (by omega)]
        exact sub d1 d21 a b i hi.1 hi.2 (by rw [g3, j3])
      · rw [j4 i (by omega)]
        by_cases hi' : a' ≤ i ∧ i < b'
        · exact sub d12 d2 a' b' i hi'.1 hi'.2 (by rw [i3, h3])
        · rw [i4 i (by omega), g4 i (by omega), h4 i (by omega)]

example : ((View.mk' none intConv (Slice.nat 0 2)).put 0x1234 ⟨true, [9, 9, 7, 7]⟩).st
    = ⟨true, [0x34, 0x12, 7, 7]⟩ := by decide +kernel

/-! ### C08 – views after a whole-section assignment -/

/-- C08 is false of the code: after assigning the whole section, *every* write through *every*
view of it whose conversion succeeds raises `TypeError` and changes nothing. -/
theorem C08_view_after_section_set_false {α : Type} (x : Bytes) (view : View α) (v : α) (b : Buf)
    (y : Bytes) (ws : List Warn)
    (hconv : setRaw view.conv view.length (getSlice x view.slice) v () = ⟨.ok y, (), ws⟩) :
    (sectionSet bytesConv none x >>= fun _ => view.put v) b
      = ⟨.error .typeError, ⟨false, x⟩, ws⟩ := by
  have h1 : sectionSet bytesConv none x b = ⟨.ok (), ⟨false, x⟩, []⟩ := by
    rw [sectionSet_run]; rfl
  rw [PyM.bind_ok h1]
  simp only [View.put, PyM.bind_run, PyM.get_run, PyM.lift_run, hconv, List.nil_append]
  simp

/-- The witness in API terms: assign the calc data of a 4-byte sized entry, then its length. -/
example : (sectionSet bytesConv none [0, 0, 1, 2] >>= fun _ =>
    (View.mk' none intConv (Slice.nat 0 2)).put 2) ⟨true, [0, 0]⟩
      = ⟨.error .typeError, ⟨false, [0, 0, 1, 2]⟩, []⟩ := by decide +kernel

/-- C08, what does hold: on a buffer that was never assigned as a whole, view writes
succeed whenever the conversion does. -/
theorem C08_view_after_section_set_partial {α : Type} (x : Bytes) (view : View α) (v : α)
    (y : Bytes) (ws : List Warn)
    (hconv : setRaw view.conv view.length (getSlice x view.slice) v () = ⟨.ok y, (), ws⟩) :
    view.put v ⟨true, x⟩ = ⟨.ok (), ⟨true, setSlice x view.slice y⟩, ws⟩ := by
  simp only [View.put, PyM.bind_run, PyM.get_run, PyM.lift_run, hconv, List.nil_append]
  simp

end Verif
