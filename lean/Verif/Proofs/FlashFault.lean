import Verif.Proofs.FlashFile
import Verif.Spec.LoadFault
/-! Exactly when loading a flash header raises. -/
namespace Verif
namespace Flash
open Spec

theorem read_from (s : Stream) (n : Nat) : ∃ s', s.read n = (s.rest.take n, s') ∧ s'.rest = s.rest.drop n := by
  refine ⟨_, rfl, ?_⟩
  simp only [Stream.rest, Stream.peek, List.drop_drop, List.length_take, List.length_drop]
  by_cases h : s.pos + n ≤ s.data.length
  · congr 1; omega
  · rw [List.drop_eq_nil_of_le (by omega), List.drop_eq_nil_of_le (by omega)]

theorem loadStart_any (s : Stream) (h : Flash) :
    ∃ s' h' w, loadStart s h = ⟨.ok s', h', w⟩ ∧ s'.rest = s.rest.drop 16 ∧ h'.cls = h.cls := by
  obtain ⟨s1, h1, r1⟩ := read_from s 8
  obtain ⟨s2, h2, r2⟩ := read_from s1 2
  obtain ⟨s3, h3, r3⟩ := read_from s2 1
  obtain ⟨s4, h4, r4⟩ := read_from s3 1
  obtain ⟨s5, h5, r5⟩ := read_from s4 4
  have hr : s5.rest = s.rest.drop 16 := by rw [r5, r4, r3, r2, r1]; simp only [List.drop_drop]
  unfold loadStart
  simp only [h1, h2, h3, h4, h5, PyM.bind_run, PyM.modify_run, PyM.ite_run, PyM.warn_run, PyM.pure_run]
  by_cases hm : s.rest.take 8 ≠ flashMagic
  · rw [if_pos hm]; exact ⟨_, _, _, rfl, hr, rfl⟩
  · rw [if_neg hm]; exact ⟨_, _, _, rfl, hr, rfl⟩

theorem loadName_any (s : Stream) (h : Flash) :
    (s.rest = [] → (loadName s h).res = .error .indexError) ∧
    (s.rest ≠ [] → ∃ s' h' w, loadName s h = ⟨.ok s', h', w⟩ ∧ s'.rest = s.rest.drop 32 ∧ h'.cls = h.cls) := by
  obtain ⟨s1, h1, r1⟩ := read_from s 1
  obtain ⟨s2, h2, r2⟩ := read_from s1 31
  constructor
  · intro hs
    unfold loadName
    simp only [h1, h2, hs, PyM.bind_run, PyM.ofExcept_run, byte0, List.take_nil]
  · intro hs
    obtain ⟨b, l, hl⟩ := List.exists_cons_of_ne_nil hs
    have hle : (rstripNul (s1.rest.take 31)).length ≤ 31 :=
      Nat.le_trans (rstripNul_le _) (List.length_take_le _ _)
    have hnl : ({ h with name := rstripNul (s1.rest.take 31) } : Flash).nameLength =
        .ok [UInt8.ofNat (rstripNul (s1.rest.take 31)).length] := by
      have := nameLength_ok (h := { h with name := rstripNul (s1.rest.take 31) }) (by rw [rstripNul_idem]; omega)
      rwa [rstripNul_idem] at this
    have hr : s2.rest = s.rest.drop 32 := by rw [r2, r1]; simp only [List.drop_drop]
    have hb : byte0 (s.rest.take 1) = .ok b := by rw [hl]; rfl
    unfold loadName
    simp only [h1, h2, hb, hnl, PyM.bind_run, PyM.modify_run, PyM.ofExcept_run, PyM.get_run, PyM.ite_run]
    split
    · exact ⟨_, _, _, rfl, hr, rfl⟩
    · exact ⟨_, _, _, rfl, hr, rfl⟩

theorem deviceType_none {h : Flash} (hd : h.devices = []) : h.deviceType = .error .valueError := by
  unfold deviceType; rw [hd]; rfl

theorem typeId_one {h : Flash} {a : UInt8} (hd : h.devices = [a]) : h.typeId = .error .valueError := by
  unfold typeId; rw [hd]; rfl

theorem checkType_one {h : Flash} {a : UInt8} (hd : h.devices = [a]) :
    (h.cls = .header → checkType h = ⟨.ok (), h, []⟩) ∧ (h.cls ≠ .header → (checkType h).res = .error .valueError) := by
  have ht := typeId_one hd
  unfold checkType
  simp only [PyM.bind_run, PyM.get_run]
  constructor
  · intro hc; rw [hc]; rfl
  · intro hc
    rcases h' : h.cls <;> first | exact absurd h' hc | simp [FlashCls.typeId, ht, PyM.bind_run]

theorem loadDevices_any (s : Stream) (h : Flash) :
    (s.rest = [] → (loadDevices s h).res = .error .valueError) ∧
    (∀ a, s.rest = [a] → (h.cls ≠ .header → (loadDevices s h).res = .error .valueError) ∧
      (h.cls = .header → ∃ s' h' w, loadDevices s h = ⟨.ok s', h', w⟩ ∧ h'.devices = [a] ∧ h'.cls = h.cls)) ∧
    (∀ a b l, s.rest = a :: b :: l →
      ∃ s' h' w r, loadDevices s h = ⟨.ok s', h', w⟩ ∧ h'.devices = a :: b :: r ∧ h'.cls = h.cls) := by
  obtain ⟨s1, h1, r1⟩ := read_from s 1
  obtain ⟨s2, h2, r2⟩ := read_from s1 1
  obtain ⟨s3, h3, r3⟩ := read_from s2 23
  obtain ⟨s4, h4, r4⟩ := read_from s3 1
  unfold loadDevices
  simp only [h1, h2, h3, h4]
  refine ⟨?_, ?_, ?_⟩
  · intro hs
    simp only [hs, List.take_nil, PyM.bind_run, PyM.modify_run, PyM.get_run, PyM.ofExcept_run,
      deviceType_none (h := { h with devices := [] }) rfl]
  · intro a hs
    have e1 : s1.rest = [] := by rw [r1, hs]; rfl
    have e2 : s2.rest = [] := by rw [r2, e1]; rfl
    have hct := checkType_one (h := { h with devices := [a] ++ [] }) (a := a) rfl
    have hdt := deviceType_ok (h := { h with devices := [a] }) (a := a) (r := []) rfl
    constructor
    · intro hc
      rcases h5 : checkType { h with devices := [a] ++ [] } with ⟨r, h', w⟩
      have h6 := hct.2 hc
      rw [h5] at h6
      simp only at h6
      subst h6
      simp only [hs, e1, List.take_nil, List.take_succ_cons, PyM.bind_run, PyM.modify_run, PyM.get_run, PyM.ofExcept_run, hdt, PyM.ite_run]
      by_cases hm : a ∈ deviceTypes
      · simp only [hm, if_true, PyM.pure_run, h5]
      · simp only [hm, if_false, PyM.warn_run, h5]
    · intro hc
      have h5 := hct.1 hc
      simp only [hs, e1, e2, List.take_nil, List.take_succ_cons, PyM.bind_run, PyM.modify_run, PyM.get_run, PyM.ofExcept_run, hdt, PyM.ite_run]
      by_cases hm : a ∈ deviceTypes
      · simp only [hm, if_true, PyM.pure_run, h5]
        exact ⟨_, _, _, rfl, rfl, rfl⟩
      · simp only [hm, if_false, PyM.warn_run, PyM.pure_run, h5]
        exact ⟨_, _, _, rfl, rfl, rfl⟩
  · intro a b l hs
    have e1 : s1.rest = b :: l := by rw [r1, hs]; rfl
    have hct := checkType_ok (h := { h with devices := [a] ++ [b] }) (a := a) (b := b) (r := []) rfl
    have hdt := deviceType_ok (h := { h with devices := [a] }) (a := a) (r := []) rfl
    simp only [hs, e1, List.take_succ_cons, List.take_zero, PyM.bind_run, PyM.modify_run, PyM.get_run, PyM.ofExcept_run, hdt, PyM.ite_run]
    by_cases hm : a ∈ deviceTypes
    · simp only [hm, if_true, PyM.pure_run, hct]
      exact ⟨_, _, _, _, rfl, rfl, rfl⟩
    · simp only [hm, if_false, PyM.warn_run, PyM.pure_run, hct]
      exact ⟨_, _, _, _, rfl, rfl, rfl⟩

theorem loadData_any (s : Stream) (h : Flash) :
    ∃ h' w, loadData s h = ⟨.ok (), h', w⟩ ∧ h'.devices = h.devices ∧ h'.cls = h.cls := by
  obtain ⟨s1, h1, r1⟩ := read_from s 4
  obtain ⟨s2, h2, r2⟩ := read_from s1 (fromLE (s.rest.take 4))
  obtain ⟨s3, h3, r3⟩ := read_from s2 2
  unfold loadData
  simp only [h1, h2, h3, PyM.bind_run, PyM.modify_run, PyM.ite_run, PyM.warn_run, PyM.pure_run]
  repeat' split
  all_goals exact ⟨_, _, rfl, rfl, rfl⟩

theorem coerce_one {h : Flash} {a : UInt8} (hd : h.devices = [a]) (hc : h.cls = .header) :
    (coerce h).res = .error .valueError := by
  unfold coerce
  simp only [PyM.bind_run, PyM.get_run, hc, FlashCls.typeId, if_true, typeId_one hd, PyM.ofExcept_run]

/-- What loading bytes into a flash header raises. -/
theorem load_fault (d : Bytes) (h : Flash) : (load d h).res = match flashFault d with
    | none => .ok ()
    | some x => .error x := by
  unfold load
  obtain ⟨s1, h1, w1, e1, r1, c1⟩ := loadStart_any (Stream.ofBytes d) h
  rw [PyM.bind_ok e1]
  have r1' : s1.rest = d.drop 16 := r1
  obtain ⟨n1, n2⟩ := loadName_any s1 h1
  unfold flashFault
  by_cases l1 : d.length < 17
  · rw [if_pos l1]
    have := n1 (by rw [r1']; exact List.drop_eq_nil_of_le (by omega))
    simp only [PyM.bind_run]
    rcases e2 : loadName s1 h1 with ⟨r, h2, w2⟩
    rw [e2] at this
    simp only at this
    subst this
    rfl
  · rw [if_neg l1]
    obtain ⟨s2, h2, w2, e2, r2, c2⟩ := n2 (by
      intro hn
      have := congrArg List.length hn
      rw [r1', List.length_drop, List.length_nil] at this
      omega)
    rw [PyM.bind_ok e2]
    have r2' : s2.rest = d.drop 48 := by rw [r2, r1', List.drop_drop]
    obtain ⟨d1, d2, d3⟩ := loadDevices_any s2 h2
    by_cases l2 : d.length < 50
    · rw [if_pos l2]
      rcases hr : s2.rest with _ | ⟨a, _ | ⟨b, l⟩⟩
      · have := d1 hr
        rcases e3 : loadDevices s2 h2 with ⟨r, h3, w3⟩
        rw [e3] at this
        simp only at this
        subst this
        rw [PyM.bind_error e3]
      · obtain ⟨d21, d22⟩ := d2 a hr
        by_cases hc : h2.cls = .header
        · obtain ⟨s3, h3, w3, e3, dv, c3⟩ := d22 hc
          rw [PyM.bind_ok e3]
          obtain ⟨h4, w4, e4, dv4, c4⟩ := loadData_any s3 h3
          rw [PyM.bind_ok e4]
          exact coerce_one (dv4.trans dv) (c4.trans (c3.trans hc))
        · have := d21 hc
          rcases e3 : loadDevices s2 h2 with ⟨r, h3, w3⟩
          rw [e3] at this
          simp only at this
          subst this
          rw [PyM.bind_error e3]
      · have := congrArg List.length hr
        rw [r2', List.length_drop] at this
        simp at this
        omega
    · rw [if_neg l2]
      rcases hr : s2.rest with _ | ⟨a, _ | ⟨b, l⟩⟩
      · have := congrArg List.length hr
        rw [r2', List.length_drop] at this
        simp at this
        omega
      · have := congrArg List.length hr
        rw [r2', List.length_drop] at this
        simp at this
        omega
      · obtain ⟨s3, h3, w3, r, e3, dv, c3⟩ := d3 a b l hr
        rw [PyM.bind_ok e3]
        obtain ⟨h4, w4, e4, dv4, c4⟩ := loadData_any s3 h3
        rw [PyM.bind_ok e4, coerce_ok (dv4.trans dv)]

/-- With all of its fields there, the look-ahead comes back to the start. -/
theorem nextHeaderLength_start {b : Bytes} (h : 78 ≤ b.length) :
    ∃ n, nextHeaderLength (Stream.ofBytes b) = (n, ⟨b, 0⟩) ∧ 78 ≤ n := by
  have h4 : (((Stream.ofBytes b).seekRel 74).read 4).2 = ⟨b, 78⟩ := by
    simp only [Stream.ofBytes, Stream.seekRel, Stream.read, Stream.peek, List.length_take, List.length_drop, Stream.mk.injEq, true_and]
    omega
  unfold nextHeaderLength
  simp only [h4]
  generalize fromLE (((Stream.ofBytes b).seekRel 74).read 4).1 = m
  have hs : (⟨b, 78⟩ : Stream).seekRel m = ⟨b, 78 + m⟩ := by
    simp only [Stream.seekRel, Stream.mk.injEq, true_and]; omega
  simp only [hs, Stream.read]
  generalize (⟨b, 78 + m⟩ : Stream).peek 8 = r
  by_cases h1 : r = []
  · subst h1
    rw [if_pos rfl]
    refine ⟨_, by simp only [Stream.seekRel, Prod.mk.injEq, Stream.mk.injEq, true_and]; exact ⟨rfl, by simp; omega⟩, by omega⟩
  · by_cases h2 : r = flashMagic
    · subst h2
      rw [if_neg h1, if_pos rfl]
      refine ⟨_, by simp only [Stream.seekRel, Prod.mk.injEq, Stream.mk.injEq, true_and]; exact ⟨rfl, by have : flashMagic.length = 8 := rfl; omega⟩, by omega⟩
    · rw [if_neg h1, if_neg h2]
      refine ⟨_, by simp only [Stream.seekRel, Prod.mk.injEq, Stream.mk.injEq, true_and]; exact ⟨rfl, by omega⟩, by omega⟩

end Flash
end Verif
