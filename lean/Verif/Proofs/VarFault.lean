import Verif.Proofs.LoadFault
import Verif.Proofs.Join
/-! Exactly when loading a var raises. -/
namespace Verif
namespace Var
open Spec Ent
variable {V : Type} [LinearOrder V]

/-- Entries whose data can be given a length field. -/
def Short (v : Var) : Prop := ∀ e ∈ v.entries, e.body.bytes.length ≤ 65535

theorem nextEntryLength_ahead (s : Stream) : ∃ ws, nextEntryLength s =
    (ws, aheadLength s.data s.pos, ⟨s.data, aheadFrom s.data s.pos⟩) := by
  obtain ⟨d, p⟩ := s
  refine ⟨if fromLE ((d.drop p).take 2) = 11 ∨ fromLE ((d.drop p).take 2) = 13 then [] else [.nextMeta], ?_⟩
  have h2 : ((d.drop (p + min 2 (d.length - p))).take 2) = (d.drop (p + 2)).take 2 := by
    by_cases h : p + 2 ≤ d.length
    · rw [show p + min 2 (d.length - p) = p + 2 by omega]
    · rw [List.drop_eq_nil_of_le (by omega), List.drop_eq_nil_of_le (by omega)]
  simp only [nextEntryLength, Stream.read, Stream.peek, Stream.seekRel, List.length_take, List.length_drop, h2,
    aheadLength, aheadFrom, Prod.mk.injEq, Stream.mk.injEq, true_and]
  omega

theorem entrySums_short {es : List Ent} (h : ∀ e ∈ es, e.body.bytes.length ≤ 65535) :
    ∃ n, entrySums es = .ok n := by
  induction es with
  | nil => exact ⟨0, rfl⟩
  | cons e es ih =>
    obtain ⟨n, hn⟩ := ih fun x hx => h x (by simp [hx])
    have hb := bytes_ok (e := e) (h e (by simp))
    exact ⟨_, by simp only [entrySums, hb, hn]; rfl⟩

theorem checksum_short {v : Var} (h : Short v) : ∃ c, v.checksum = .ok c := by
  obtain ⟨n, hn⟩ := entrySums_short h
  have hlt : n &&& 0xFFFF ≤ 65535 := Nat.and_le_right
  unfold checksum
  rw [hn]
  exact ⟨_, intToBytesLE_ok (by omega)⟩

/-- How the loop ends on these pieces. -/
def Ended (ps : List Bytes) (o : Out Var (Int × Stream)) : Prop :=
  match ps.findSome? (loadFault .entry) with
  | some x => o.res = .error x
  | none => (∃ r, o.res = .ok r) ∧ Short o.st

theorem loadLoop_cut (env : Env V) : ∀ (fuel : Nat) (left : Int) (s : Stream) (v : Var),
    left < fuel → 0 < fuel → Short v →
    ∃ ps, Cut s.data s.pos left ps ∧ Ended ps (loadLoop env fuel left s v) := by
  intro fuel
  induction fuel with
  | zero => intro left s v _ h0; omega
  | succ fuel ih =>
    intro left s v hl _ hv
    rw [loadLoop]
    split
    · rename_i hpos
      obtain ⟨ws, hne⟩ := nextEntryLength_ahead s
      rw [PyM.bind_ok (addEntry_none env v), hne]
      have hge : 4 ≤ aheadLength s.data s.pos := by unfold aheadLength; omega
      generalize hd : (s.data.drop (aheadFrom s.data s.pos)).take (aheadLength s.data s.pos) = d
      have hrd : Stream.read ⟨s.data, aheadFrom s.data s.pos⟩ (aheadLength s.data s.pos) =
          (d, ⟨s.data, aheadFrom s.data s.pos + d.length⟩) := by
        simp only [Stream.read, Stream.peek, hd]
      have hlast := loadLast_run env v v.entries (Ent.fresh env) d
      obtain ⟨h1, h2⟩ := load_yields env d (e₀ := Ent.fresh env) (show Cls.entry ∉ baseOnly by decide)
      rcases hld : Ent.load env d (Ent.fresh env) with ⟨r, e', w⟩
      rw [hld] at hlast h1 h2
      simp only at h1 h2
      rw [show (Ent.fresh env).cls = .entry from rfl] at h1
      have hsh : Short { v with entries := v.entries ++ [e'] } := by
        intro e he
        rcases List.mem_append.1 he with he | he
        · exact hv e he
        · rw [List.mem_singleton.1 he]; exact h2
      obtain ⟨ps, hc, hps⟩ := ih (left - aheadLength s.data s.pos)
        ⟨s.data, aheadFrom s.data s.pos + d.length⟩ { v with entries := v.entries ++ [e'] } (by omega) (by omega) hsh
      refine ⟨d :: ps, .next hpos hd.symm hc, ?_⟩
      have hcons : ∀ o, Ended (d :: ps) o = match loadFault .entry d with
          | some x => o.res = .error x
          | none => Ended ps o := by
        intro o
        unfold Ended
        rw [List.findSome?_cons]
        rcases loadFault .entry d with _ | x <;> rfl
      rw [hcons]
      rcases hx : loadFault .entry d with _ | x <;> rw [hx] at h1 <;> simp only [faultRes] at h1 <;> subst h1
      · simp only
        by_cases hdl : d.length ≠ aheadLength s.data s.pos
        · simp only [PyM.bind_run, PyM.warnAll_run, hlast, hrd, if_pos hdl, PyM.warn_run]
          exact hps
        · simp only [PyM.bind_run, PyM.warnAll_run, hlast, hrd, if_neg hdl]
          exact hps
      · simp [PyM.bind_run, hlast, hrd]
    · rename_i hneg
      exact ⟨[], .done (by omega), ⟨_, rfl⟩, hv⟩

theorem afterLoop_ok (me : ModelEnv) (sum : Bytes) {v : Var} (hm : v.model = none) (hs : Short v) :
    (afterLoop me sum v).res = .ok () := by
  obtain ⟨c, hc⟩ := checksum_short hs
  simp only [afterLoop, checkModel, PyM.bind_run, PyM.get_run, hm, PyM.pure_run, PyM.ofExcept_run, hc, PyM.ite_run]
  split <;> rfl

theorem load_cut (env : Env V) (me : ModelEnv) (data : Bytes) {v : Var} (hm : v.model = none) :
    ∃ ps, Cut data (min 55 data.length) (fromLE ((data.drop 53).take 2) : Nat) ps ∧
      (load env me data v).res = faultRes (ps.findSome? (loadFault .entry)) := by
  unfold load
  rcases hr1 : (Stream.ofBytes data).read 53 with ⟨h, s1⟩
  rcases hr2 : s1.read 2 with ⟨l, s2⟩
  have hl : l = (data.drop 53).take 2 ∧ s2 = ⟨data, min 55 data.length⟩ := by
    simp only [Stream.read, Stream.peek, Stream.ofBytes, Prod.mk.injEq] at hr1 hr2
    obtain ⟨-, rfl⟩ := hr1
    obtain ⟨rfl, rfl⟩ := hr2
    simp only [List.drop_zero, List.length_take, List.length_drop]
    constructor
    · by_cases hd : 53 ≤ data.length
      · rw [show 0 + min 53 data.length = 53 by omega]
      · rw [List.drop_eq_nil_of_le (by omega), List.drop_eq_nil_of_le (by omega)]
    · rw [Stream.mk.injEq]
      exact ⟨rfl, by omega⟩
  obtain ⟨rfl, rfl⟩ := hl
  generalize hL : fromLE ((data.drop 53).take 2) = L
  have hoh : onHeader (Hdr.load h) v = ⟨.ok (), { v with hdr := (Hdr.load h v.hdr).st }, []⟩ := by
    simp [onHeader, Hdr.load_run]
  obtain ⟨ps, hc, he⟩ := loadLoop_cut env (L + 1) (L : Nat) ⟨data, min 55 data.length⟩
    { v with hdr := (Hdr.load h v.hdr).st, entries := [] } (by omega) (by omega) (by intro e he; cases he)
  have hk := loadLoop_keeps env (L + 1) (L : Nat) ⟨data, min 55 data.length⟩
    { v with hdr := (Hdr.load h v.hdr).st, entries := [] }
  refine ⟨ps, hc, ?_⟩
  simp only [hr1, hr2, hL]
  rw [PyM.bind_ok hoh, PyM.bind_ok (PyM.modify_run _ _)]
  simp only
  rcases hlo : loadLoop env (L + 1) (L : Nat) ⟨data, min 55 data.length⟩
    { v with hdr := (Hdr.load h v.hdr).st, entries := [] } with ⟨r, v', w⟩
  rw [hlo] at he hk
  unfold Ended at he
  rcases hx : ps.findSome? (loadFault .entry) with _ | x <;> rw [hx] at he <;> simp only at he
  · obtain ⟨⟨⟨left, s3⟩, hr⟩, hs⟩ := he
    subst hr
    rw [PyM.bind_ok hlo]
    simp only
    have hm' : v'.model = none := by
      have : v'.model = v.model := hk.2
      rw [this, hm]
    have hend := afterLoop_ok me ((s3.read 2).1) hm' hs
    by_cases hneg : left < 0
    · rw [if_pos hneg, PyM.bind_ok (PyM.warn_run _ _)]
      exact hend
    · rw [if_neg hneg]
      exact hend
  · subst he
    rw [PyM.bind_error hlo]
    rfl

end Var
end Verif
