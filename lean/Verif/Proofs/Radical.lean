import Verif.Proofs.Real

/-! Explicit effect of the packed radical fields on the nine bytes. -/

namespace Verif

/-- Largest admissible value plus one. -/
def RadField.bound : RadField → Nat
  | .signType => 16
  | _ => 1000

/-- The value of a field, written out in nibbles. -/
def RadField.value (b1 b2 b3 b4 b5 b6 b7 b8 : Nat) : RadField → Nat
  | .signType => b1 / 16
  | .denominator => 100 * (b1 % 16) + 10 * (b2 / 16) + b2 % 16
  | .rightScalar => 100 * (b3 / 16) + 10 * (b3 % 16) + b4 / 16
  | .leftScalar => 100 * (b4 % 16) + 10 * (b5 / 16) + b5 % 16
  | .rightRadicand => 100 * (b6 / 16) + 10 * (b6 % 16) + b7 / 16
  | .leftRadicand => 100 * (b7 % 16) + 10 * (b8 / 16) + b8 % 16

theorem RadField.view_get (f : RadField) (m : Bool) (b0 b1 b2 b3 b4 b5 b6 b7 b8 : UInt8) :
    f.view.get ⟨m, [b0, b1, b2, b3, b4, b5, b6, b7, b8]⟩ =
      .ok ((f.value b1.toNat b2.toNat b3.toNat b4.toNat b5.toNat b6.toNat b7.toNat b8.toNat : Nat) : Int) := by
  cases f
  · have h := realView_get (bitsConv ⟨some 4, some 8, none⟩) (a := 1) (b := 2) (m := m)
      (d := [b0, b1, b2, b3, b4, b5, b6, b7, b8]) (by omega) (by omega) rfl
    have hb : b1.toNat < 256 := b1.toNat_lt
    refine h.trans ?_
    have h2 := bits_contig_get (lo := 4) (hi := 8) (by omega) (by omega) b1
    refine (congrArg wrapIndexError h2).trans ?_
    have : b1.toNat / 2 ^ 4 % 2 ^ (8 - 4) = b1.toNat / 16 := by omega
    rw [this]; rfl
  · exact (realView_get leftNibbleConv (a := 1) (b := 3) (by omega) (by omega) rfl).trans
      (congrArg wrapIndexError (leftNibble_get b1 b2))
  · exact (realView_get rightNibbleConv (a := 3) (b := 5) (by omega) (by omega) rfl).trans
      (congrArg wrapIndexError (rightNibble_get b3 b4))
  · exact (realView_get leftNibbleConv (a := 4) (b := 6) (by omega) (by omega) rfl).trans
      (congrArg wrapIndexError (leftNibble_get b4 b5))
  · exact (realView_get rightNibbleConv (a := 6) (b := 8) (by omega) (by omega) rfl).trans
      (congrArg wrapIndexError (rightNibble_get b6 b7))
  · exact (realView_get leftNibbleConv (a := 7) (b := 9) (by omega) (by omega) rfl).trans
      (congrArg wrapIndexError (leftNibble_get b7 b8))

/-- One write, in nibbles: the new bytes have the new field value and otherwise the same fields. -/
theorem RadField.view_put (f : RadField) {v : Nat} (hv : v < f.bound)
    (b0 b1 b2 b3 b4 b5 b6 b7 b8 : UInt8) :
    ∃ c1 c2 c3 c4 c5 c6 c7 c8 : UInt8,
      f.view.put v ⟨true, [b0, b1, b2, b3, b4, b5, b6, b7, b8]⟩ =
        ⟨.ok (), ⟨true, [b0, c1, c2, c3, c4, c5, c6, c7, c8]⟩, []⟩ ∧
      f.value c1.toNat c2.toNat c3.toNat c4.toNat c5.toNat c6.toNat c7.toNat c8.toNat = v ∧
      ∀ g, g ≠ f →
        RadField.value c1.toNat c2.toNat c3.toNat c4.toNat c5.toNat c6.toNat c7.toNat c8.toNat g =
        RadField.value b1.toNat b2.toNat b3.toNat b4.toNat b5.toNat b6.toNat b7.toNat b8.toNat g := by
  have left : ∀ c0 : UInt8, v < 1000 →
      (UInt8.ofNat (c0.toNat / 16 * 16 + v / 100)).toNat = c0.toNat / 16 * 16 + v / 100 := by
    intro c0 h
    have := c0.toNat_lt
    rw [UInt8.toNat_ofNat']; omega
  have pair : (UInt8.ofNat (16 * (v / 10 % 10) + v % 10)).toNat = 16 * (v / 10 % 10) + v % 10 := by
    rw [UInt8.toNat_ofNat']; omega
  have hi : v < 1000 → (UInt8.ofNat (16 * (v / 100) + v / 10 % 10)).toNat = 16 * (v / 100) + v / 10 % 10 := by
    intro h; rw [UInt8.toNat_ofNat']; omega
  have lo : ∀ c1 : UInt8, (UInt8.ofNat (16 * (v % 10) + c1.toNat % 16)).toNat = 16 * (v % 10) + c1.toNat % 16 := by
    intro c1; rw [UInt8.toNat_ofNat']; omega
  cases f
  · have hv2 : v < 16 := hv
    have hlt := b1.toNat_lt
    have hx : (UInt8.ofNat (16 * v + b1.toNat % 16)).toNat = 16 * v + b1.toNat % 16 := by
      rw [UInt8.toNat_ofNat']; omega
    have hset : (bitsConv ⟨some 4, some 8, none⟩).set (v : Int) (some 1) [b1] () =
        ⟨.ok [UInt8.ofNat (16 * v + b1.toNat % 16)], (), []⟩ := by
      have h := bits_contig_set (lo := 4) (hi := 8) (by omega) (by omega) (show v < 2 ^ (8 - 4) from hv2) b1 (some 1)
      have e : (b1.toNat / 2 ^ 8 * 2 ^ (8 - 4) + v) * 2 ^ 4 + b1.toNat % 2 ^ 4 = 16 * v + b1.toNat % 16 := by omega
      rw [e] at h
      exact h
    have hput := realView_put (c := bitsConv ⟨some 4, some 8, none⟩) (a := 1) (b := 2) (d := [b0, b1, b2, b3, b4, b5, b6, b7, b8])
      (v := (v : Int)) (by omega) (by omega) rfl hset rfl
    refine ⟨UInt8.ofNat (16 * v + b1.toNat % 16), b2, b3, b4, b5, b6, b7, b8, hput, ?_, ?_⟩
    · simp only [RadField.value, hx]; omega
    · intro g hg
      cases g <;> first | exact absurd rfl hg | rfl | skip
      simp only [RadField.value, hx]; omega
  all_goals have hv3 : v < 1000 := hv
  · have hput := realView_put (c := leftNibbleConv) (a := 1) (b := 3) (d := [b0, b1, b2, b3, b4, b5, b6, b7, b8])
      (v := (v : Int)) (by omega) (by omega) rfl
      (leftNibble_set (c0 := b1) (c1 := b2) (len := some 2) (v := (v : Int)) (by omega) (by omega)) rfl
    refine ⟨UInt8.ofNat (b1.toNat / 16 * 16 + v / 100), UInt8.ofNat (16 * (v / 10 % 10) + v % 10), b3, b4, b5, b6, b7, b8, hput, ?_, ?_⟩
    · simp only [RadField.value, left b1 hv3, pair]; omega
    · intro g hg
      cases g <;> first | exact absurd rfl hg | rfl | skip
      simp only [RadField.value, left b1 hv3]; omega
  · have hput := realView_put (c := rightNibbleConv) (a := 3) (b := 5) (d := [b0, b1, b2, b3, b4, b5, b6, b7, b8])
      (v := (v : Int)) (by omega) (by omega) rfl
      (rightNibble_set (c0 := b3) (c1 := b4) (len := some 2) (v := (v : Int)) (by omega) (by omega)) rfl
    refine ⟨b1, b2, UInt8.ofNat (16 * (v / 100) + v / 10 % 10), UInt8.ofNat (16 * (v % 10) + b4.toNat % 16), b5, b6, b7, b8, hput, ?_, ?_⟩
    · simp only [RadField.value, hi hv3, lo]; omega
    · intro g hg
      cases g <;> first | exact absurd rfl hg | rfl | skip
      simp only [RadField.value, lo]; omega
  · have hput := realView_put (c := leftNibbleConv) (a := 4) (b := 6) (d := [b0, b1, b2, b3, b4, b5, b6, b7, b8])
      (v := (v : Int)) (by omega) (by omega) rfl
      (leftNibble_set (c0 := b4) (c1 := b5) (len := some 2) (v := (v : Int)) (by omega) (by omega)) rfl
    refine ⟨b1, b2, b3, UInt8.ofNat (b4.toNat / 16 * 16 + v / 100), UInt8.ofNat (16 * (v / 10 % 10) + v % 10), b6, b7, b8, hput, ?_, ?_⟩
    · simp only [RadField.value, left b4 hv3, pair]; omega
    · intro g hg
      cases g <;> first | exact absurd rfl hg | rfl | skip
      simp only [RadField.value, left b4 hv3]; omega
  · have hput := realView_put (c := rightNibbleConv) (a := 6) (b := 8) (d := [b0, b1, b2, b3, b4, b5, b6, b7, b8])
      (v := (v : Int)) (by omega) (by omega) rfl
      (rightNibble_set (c0 := b6) (c1 := b7) (len := some 2) (v := (v : Int)) (by omega) (by omega)) rfl
    refine ⟨b1, b2, b3, b4, b5, UInt8.ofNat (16 * (v / 100) + v / 10 % 10), UInt8.ofNat (16 * (v % 10) + b7.toNat % 16), b8, hput, ?_, ?_⟩
    · simp only [RadField.value, hi hv3, lo]; omega
    · intro g hg
      cases g <;> first | exact absurd rfl hg | rfl | skip
      simp only [RadField.value, lo]; omega
  · have hput := realView_put (c := leftNibbleConv) (a := 7) (b := 9) (d := [b0, b1, b2, b3, b4, b5, b6, b7, b8])
      (v := (v : Int)) (by omega) (by omega) rfl
      (leftNibble_set (c0 := b7) (c1 := b8) (len := some 2) (v := (v : Int)) (by omega) (by omega)) rfl
    refine ⟨b1, b2, b3, b4, b5, b6, UInt8.ofNat (b7.toNat / 16 * 16 + v / 100), UInt8.ofNat (16 * (v / 10 % 10) + v % 10), hput, ?_, ?_⟩
    · simp only [RadField.value, left b7 hv3, pair]; omega
    · intro g hg
      cases g <;> first | exact absurd rfl hg | rfl | skip
      simp only [RadField.value, left b7 hv3]; omega

end Verif
