import Verif.Proofs.ComplexText

/-! Lemmas: the value of a part does not depend on its subtype. -/

namespace Verif
open Spec

theorem realView_tail {α : Type} (c : Conv α) {a b : Nat} (h1 : a + 1 ≤ b) (h2 : b ≤ 9) (m : Bool) (x y : UInt8) {r : Bytes}
    (hr : r.length = 8) :
    (realView c (a + 1 : Nat) b).get ⟨m, x :: r⟩ = (realView c (a + 1 : Nat) b).get ⟨m, y :: r⟩ := by
  rw [realView_get c h1 h2 (by simp [hr]), realView_get c h1 h2 (by simp [hr])]
  simp

theorem realDecimal_head {m : Bool} {x y : UInt8} (h : x.toNat / 64 = y.toNat / 64) {r : Bytes} (hr : r.length = 8) :
    realDecimal ⟨m, x :: r⟩ = realDecimal ⟨m, y :: r⟩ := by
  match r, hr with
  | b1 :: r, hr =>
    have hr : r.length = 7 := by simpa using hr
    have : x.toNat / 128 = y.toNat / 128 := by omega
    simp only [realDecimal, realSign, sign_get _ _ _ _ hr, exponent_get _ _ _ _ hr, mantissa_get _ _ _ _ hr, this]

theorem radView_head (f : RadField) {m : Bool} {x y : UInt8} {r : Bytes} (hr : r.length = 8) :
    f.view.get ⟨m, x :: r⟩ = f.view.get ⟨m, y :: r⟩ := by
  cases f
  · exact realView_tail _ (a := 0) (b := 2) (by omega) (by omega) m x y hr
  · exact realView_tail _ (a := 0) (b := 3) (by omega) (by omega) m x y hr
  · exact realView_tail _ (a := 2) (b := 5) (by omega) (by omega) m x y hr
  · exact realView_tail _ (a := 3) (b := 6) (by omega) (by omega) m x y hr
  · exact realView_tail _ (a := 5) (b := 8) (by omega) (by omega) m x y hr
  · exact realView_tail _ (a := 6) (b := 9) (by omega) (by omega) m x y hr

theorem radFields_head {m : Bool} {x y : UInt8} {r : Bytes} (hr : r.length = 8) :
    radFields ⟨m, x :: r⟩ = radFields ⟨m, y :: r⟩ := by
  simp only [radFields, radView_head _ (x := x) (y := y) hr]

theorem realPartStr_head (c : Cls) {m : Bool} {x y : UInt8} (h : x.toNat / 64 = y.toNat / 64) {r : Bytes} (hr : r.length = 8) :
    realPartStr c ⟨m, x :: r⟩ = realPartStr c ⟨m, y :: r⟩ := by
  have h1 := realDecimal_head (m := m) h hr
  have h2 := radFields_head (m := m) (x := x) (y := y) hr
  unfold realPartStr
  split <;> simp only [fractionStr, realFraction, radStr, piStr, piFractionStr, piFraction, piDecimal, realStr, h1, h2]

/-- The mark of a part. -/
theorem partCode_imagSubtype {c : Cls} {t : Nat} (h : partCode c = some t) : c.imagSubtype = .ok (t : Int) ∧
    t < 64 ∧ Cls.getType t = some (complexKind c) ∧ (complexKind c).realAnalogue = .ok (partKind c) := by
  unfold partCode at h
  split at h <;> cases h <;> exact ⟨rfl, by decide, rfl, rfl⟩

theorem sameButSubtype_retag {t : Nat} (ht : t < 64) (b : UInt8) {r : Bytes} (hr : r.length = 8) :
    SameButSubtype (b :: r) (retag t b :: r) := ⟨by simp [hr], rfl, retag_div ht b⟩

theorem sameButSubtype_cons {v v' : Bytes} (hv : v.length = 9) (h : SameButSubtype v v') :
    ∃ x y r, v = x :: r ∧ v' = y :: r ∧ r.length = 8 ∧ y.toNat / 64 = x.toNat / 64 := by
  obtain ⟨h1, h2, h3⟩ := h
  match v, v', hv, h1 with
  | x :: r, y :: r', hv, h1 =>
    have : r' = r := by simpa using h2
    subst this
    exact ⟨x, y, r', rfl, rfl, by simpa using hv, h3⟩

end Verif
