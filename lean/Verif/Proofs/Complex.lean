import Verif.Model.Complex
import Verif.Proofs.EntryBytes
import Verif.Proofs.Assign
import Verif.Proofs.RadicalPrint
import Verif.Spec.Complex

/-! Lemmas about the parts of complex numbers. -/

namespace Verif
open Spec

/-! ### Views into sections of a fixed length -/

/-- A view into a section of `n` bytes. -/
def fixView {α : Type} (n : Nat) (c : Conv α) (a b : Nat) : View α := View.mk' (some n) c ⟨some (a : Int), some (b : Int), none⟩

theorem fixView_length {α : Type} (n : Nat) (c : Conv α) {a b : Nat} (h1 : a ≤ b) (h2 : b ≤ n) :
    (fixView n c a b).length = some (b - a) := by
  have e : Slice.indices ⟨some (a : Int), some (b : Int), none⟩ n = ((a : Int), (b : Int), (1 : Int)) := by
    simp only [Slice.indices, Option.getD_none]
    rw [if_neg (by omega), if_neg (by omega), if_neg (by omega)]
    ext <;> simp <;> omega
  simp only [fixView, View.mk', viewLength, e, rangeLen]
  simp

theorem fixView_get {α : Type} {n : Nat} (c : Conv α) {a b : Nat} (h1 : a ≤ b) (h2 : b ≤ n) {m : Bool} {d : Bytes}
    (hl : d.length = n) : (fixView n c a b).get ⟨m, d⟩ = wrapIndexError (c.get ((d.drop a).take (b - a))) := by
  have : (fixView n c a b).slice = Slice.nat a b := rfl
  rw [View.get, this, getSlice_nat h1 (by simpa [hl] using h2)]
  rfl

theorem fixView_put {α : Type} {n : Nat} {c : Conv α} {a b : Nat} (h1 : a ≤ b) (h2 : b ≤ n) {d x : Bytes} {v : α}
    {w : List Warn} (hl : d.length = n)
    (h : c.set v (some (b - a)) ((d.drop a).take (b - a)) () = ⟨.ok x, (), w⟩) (hx : x.length = b - a) :
    (fixView n c a b).put v ⟨true, d⟩ = ⟨.ok (), ⟨true, d.take a ++ x ++ d.drop b⟩, w⟩ := by
  have hs : (fixView n c a b).slice = Slice.nat a b := rfl
  have hc : (fixView n c a b).conv = c := rfl
  have hset : setRaw c (some (b - a)) ((d.drop a).take (b - a)) v () = ⟨.ok x, (), w⟩ := by
    rw [setRaw_ok h, fitWidth_eq hx]; simp
  simp only [View.put, PyM.bind_run, PyM.get_run, PyM.lift_run, fixView_length n c h1 h2, hs, hc]
  rw [getSlice_nat h1 (by simpa [hl] using h2), hset]
  simp [setSlice_nat h1 (show b ≤ d.length by omega)]

/-! ### Subtypes -/

/-- The byte with another subtype. -/
def retag (t : Nat) (b : UInt8) : UInt8 := UInt8.ofNat (b.toNat / 64 * 64 + t)

theorem retag_mod {t : Nat} (ht : t < 64) (b : UInt8) : (retag t b).toNat % 64 = t := by
  have := b.toNat_lt
  unfold retag
  rw [UInt8.toNat_ofNat_of_lt' (by show _ < 256; omega)]
  omega

theorem retag_div {t : Nat} (ht : t < 64) (b : UInt8) : (retag t b).toNat / 64 = b.toNat / 64 := by
  have := b.toNat_lt
  unfold retag
  rw [UInt8.toNat_ofNat_of_lt' (by show _ < 256; omega)]
  omega

theorem bits6_set {t : Nat} (ht : t < 64) (b : UInt8) (len : Option Nat) :
    (bitsConv { start := some 0, stop := some 6 }).set t len [b] () = ⟨.ok [retag t b], (), []⟩ := by
  have h := bits_contig_set (lo := 0) (hi := 6) (by omega) (by omega) (v := t) ht b len
  refine h.trans ?_
  simp only [retag, Nat.pow_zero, Nat.mod_one, Nat.mul_one, Nat.add_zero]

theorem subtype_put {t : Nat} (ht : t < 64) (b : UInt8) (rest : Bytes) (hr : rest.length = 8) :
    subtypeV.put t ⟨true, b :: rest⟩ = ⟨.ok (), ⟨true, retag t b :: rest⟩, []⟩ := by
  have h := realView_put (a := 0) (b := 1) (c := bitsConv ⟨some 0, some 6, none⟩) (d := b :: rest) (v := (t : Int)) (by omega)
    (by omega) (by simp [hr]) (x := [retag t b]) (w := []) (bits6_set ht b _) rfl
  exact h

theorem markPart_run {σ : Type} {c : Cls} {t : Nat} (hc : c.imagSubtype = .ok (t : Int)) (b : UInt8) (rest : Bytes) (hr : rest.length = 8) (s : σ) :
    markPart c ⟨true, b :: rest⟩ s = ⟨.ok ⟨true, retag t b :: rest⟩, s, []⟩ := by
  have ht : t < 64 := by
    unfold Cls.imagSubtype at hc
    split at hc <;> cases hc <;> decide
  unfold markPart
  simp only [hc, subtype_put ht b rest hr]

namespace Ent

theorem imagSubtype_class {c : Cls} {t : Nat} (hc : c.imagSubtype = .ok (t : Int)) :
    t < 64 ∧ ∃ k, Cls.getType t = some k ∧ k.realAnalogue = .ok (if c = .undefReal then .real else c) ∧ k.typeId = some t := by
  unfold Cls.imagSubtype at hc
  split at hc <;> cases hc <;> exact ⟨by decide, _, rfl, rfl, rfl⟩

variable {e : Ent} {re im : Bytes}

theorem partView_get_real (hb : e.body = ⟨true, re ++ im⟩) (hr : re.length = 9) (hi : im.length = 9) :
    viewGet (partView 0 9) e = .ok re := by
  unfold viewGet
  rw [hb]
  refine (fixView_get bytesConv (n := 18) (a := 0) (b := 9) (by omega) (by omega) (by simp [hr, hi])).trans ?_
  simp [bytesConv, wrapIndexError, ← hr]

theorem partView_get_imag (hb : e.body = ⟨true, re ++ im⟩) (hr : re.length = 9) (hi : im.length = 9) :
    viewGet (partView 9 18) e = .ok im := by
  unfold viewGet
  rw [hb]
  refine (fixView_get bytesConv (n := 18) (a := 9) (b := 18) (by omega) (by omega) (by simp [hr, hi])).trans ?_
  rw [List.drop_left' hr, List.take_of_length_le (by omega)]
  rfl

theorem partView_put_real (hb : e.body = ⟨true, re ++ im⟩) (hr : re.length = 9) (hi : im.length = 9) {v : Bytes} (hv : v.length = 9) :
    viewPut (partView 0 9) v e = ⟨.ok (), { e with body := ⟨true, v ++ im⟩ }, []⟩ := by
  apply viewPut_ok
  rw [hb]
  refine (fixView_put (n := 18) (a := 0) (b := 9) (c := bytesConv) (by omega) (by omega) (by simp [hr, hi]) (x := v) (w := []) rfl hv).trans ?_
  simp [← hr]

theorem partView_put_imag (hb : e.body = ⟨true, re ++ im⟩) (hr : re.length = 9) (hi : im.length = 9) {v : Bytes} (hv : v.length = 9) :
    viewPut (partView 9 18) v e = ⟨.ok (), { e with body := ⟨true, re ++ v⟩ }, []⟩ := by
  apply viewPut_ok
  rw [hb]
  refine (fixView_put (n := 18) (a := 9) (b := 18) (c := bytesConv) (by omega) (by omega) (by simp [hr, hi]) (x := v) (w := []) rfl hv).trans ?_
  rw [List.take_left' hr, List.drop_of_length_le (by simp [hr, hi])]
  simp

theorem realSub_get {a : UInt8} {re : Bytes} (hb : e.body = ⟨true, (a :: re) ++ im⟩) (hr : re.length = 8) (hi : im.length = 9) :
    viewGet realSubV e = .ok ((a.toNat % 64 : Nat) : Int) := by
  unfold viewGet
  rw [hb]
  refine (fixView_get (bitsConv ⟨some 0, some 6, none⟩) (n := 18) (a := 0) (b := 1) (by omega) (by omega) (by simp [hr, hi])).trans ?_
  exact congrArg wrapIndexError (bits6_get a)

theorem imagSub_get {a : UInt8} {im : Bytes} (hb : e.body = ⟨true, re ++ a :: im⟩) (hr : re.length = 9) (hi : im.length = 8) :
    viewGet imagSubV e = .ok ((a.toNat % 64 : Nat) : Int) := by
  unfold viewGet
  rw [hb]
  refine (fixView_get (bitsConv ⟨some 0, some 6, none⟩) (n := 18) (a := 9) (b := 10) (by omega) (by omega) (by simp [hr, hi])).trans ?_
  have : List.take (10 - 9) (List.drop 9 (re ++ a :: im)) = [a] := by rw [List.drop_left' hr]; rfl
  rw [this]
  exact congrArg wrapIndexError (bits6_get a)

theorem imagSub_put {a : UInt8} {im : Bytes} {t : Nat} (ht : t < 64) (hb : e.body = ⟨true, re ++ a :: im⟩) (hr : re.length = 9)
    (hi : im.length = 8) :
    viewPut imagSubV t e = ⟨.ok (), { e with body := ⟨true, re ++ retag t a :: im⟩ }, []⟩ := by
  apply viewPut_ok
  rw [hb]
  have : List.take (10 - 9) (List.drop 9 (re ++ a :: im)) = [a] := by rw [List.drop_left' hr]; rfl
  refine (fixView_put (n := 18) (a := 9) (b := 10) (c := bitsConv ⟨some 0, some 6, none⟩) (by omega) (by omega) (by simp [hr, hi])
    (x := [retag t a]) (w := []) (by rw [this]; exact bits6_set ht a _) rfl).trans ?_
  have : List.drop 10 (re ++ a :: im) = im := by
    rw [List.drop_append]
    simp [hr]
  rw [this]
  simp [← hr]

theorem putReal_run {c : Cls} {t : Nat} (hc : c.imagSubtype = .ok (t : Int)) (hb : e.body = ⟨true, re ++ im⟩) (hr : re.length = 9)
    (hi : im.length = 9) (b : UInt8) (rest : Bytes) (hl : rest.length = 8) :
    putReal c ⟨true, b :: rest⟩ e =
      ⟨.ok ⟨true, retag t b :: rest⟩, { e with body := ⟨true, (retag t b :: rest) ++ im⟩ }, []⟩ := by
  unfold putReal
  rw [PyM.bind_ok (markPart_run hc b rest hl e), PyM.bind_ok (partView_put_real hb hr hi (by simp [hl]))]
  rfl

theorem putImag_run {c k : Cls} {t : Nat} (hc : c.imagSubtype = .ok (t : Int)) (hk : Cls.getType t = some k) (hb : e.body = ⟨true, re ++ im⟩)
    (hr : re.length = 9) (hi : im.length = 9) (b : UInt8) (rest : Bytes) (hl : rest.length = 8) :
    putImag c ⟨true, b :: rest⟩ e =
      ⟨.ok ⟨true, retag t b :: rest⟩,
        { e with cls := k, typeId := [UInt8.ofNat t], body := ⟨true, re ++ retag t b :: rest⟩ }, []⟩ := by
  obtain ⟨ht, -⟩ := imagSubtype_class hc
  match im, hi with
  | a :: im, hi =>
    have hi' : im.length = 8 := by simpa using hi
    unfold putImag
    rw [PyM.bind_ok ((PyM.ofExcept_run _ _).trans (by rw [hc])), PyM.bind_ok (imagSub_put ht hb hr hi'),
      PyM.bind_ok (markPart_run hc b rest hl _)]
    have hm : imagType (re ++ retag t a :: im) = t := by
      unfold imagType
      rw [List.getD_eq_getElem?_getD, List.getElem?_append_right (by omega), hr]
      exact retag_mod ht a
    have hco := coerceComplex_run (e := { e with body := ⟨true, re ++ retag t a :: im⟩ }) (c := k) (by simp [hr, hi'])
      (by rw [show Verif.Spec.imagType (re ++ retag t a :: im) = t from hm]; exact hk)
    rw [show Verif.Spec.imagType (re ++ retag t a :: im) = t from hm] at hco
    rw [PyM.bind_ok hco, PyM.bind_ok (partView_put_imag (re := re) (im := retag t a :: im) rfl hr (by simp [hi']) (by simp [hl]))]
    rfl

theorem getReal_run {a : UInt8} {re : Bytes} {k c : Cls} (hb : e.body = ⟨true, (a :: re) ++ im⟩) (hr : re.length = 8) (hi : im.length = 9)
    (hk : Cls.getType (a.toNat % 64) = some k) (hc : k.realAnalogue = .ok c) : e.getReal = .ok (c, a :: re) := by
  have h1 : e.realClass = .ok c := by
    unfold realClass
    rw [realSub_get hb hr hi]
    show partClass _ = _
    unfold partClass
    rw [Int.toNat_natCast, hk]
    exact hc
  unfold getReal
  rw [h1, partView_get_real hb (by simp [hr]) hi]
  rfl

theorem getImag_run {a : UInt8} {im : Bytes} {k c : Cls} (hb : e.body = ⟨true, re ++ a :: im⟩) (hr : re.length = 9) (hi : im.length = 8)
    (hk : Cls.getType (a.toNat % 64) = some k) (hc : k.realAnalogue = .ok c) : e.getImag = .ok (c, a :: im) := by
  have h1 : e.imagClass = .ok c := by
    unfold imagClass
    rw [imagSub_get hb hr hi]
    show partClass _ = _
    unfold partClass
    rw [Int.toNat_natCast, hk]
    exact hc
  unfold getImag
  rw [h1, partView_get_imag hb hr (by simp [hi])]
  rfl

end Ent
end Verif
