import Verif.Proofs.Reload
import Verif.Proofs.VarFault
/-! Reading a var, writing and reading it again. -/
namespace Verif
namespace Ent
open Spec
variable {V : Type} [LinearOrder V]

/-- A new entry that steady bytes were loaded into can be written and loads back. -/
theorem reload_base (env : Env V) {data : Bytes} {e : Ent} {ws : List Warn} (hall : AllThere data)
    (hs : Steady .entry (typeIn data) (dataIn data)) (h : load env data (fresh env) = ⟨.ok (), e, ws⟩) :
    Sections e ∧ ∃ b ws', e.bytes = .ok b ∧ load env b (fresh env) = ⟨.ok (), e, ws'⟩ ∧
      ∀ w ∈ ws', w ∉ layoutWarns ∧ w ∉ frameWarns := by
  obtain ⟨e₁, ws₀, h0, hsec, hfl, hno, ⟨t, ht, htt⟩, hbody, hbase⟩ := loadBase_all env data (fresh env) hall
  have h0 : e₁.cls = .entry := h0
  have hmut : e₁.body.mutable = true := by rw [hbody]
  have hbytes : e₁.body.bytes = dataIn data := by rw [hbody]
  have hset : ∀ e' w, coerce env e₁ = ⟨.ok (), e', w⟩ → Settles env e₁ e' := fun e' w h' =>
    settles env ht hmut (by rw [h0]; decide) (by rw [h0, htt, hbytes]; exact hs) h'
  obtain ⟨v, hv⟩ := length_one hsec.version
  obtain ⟨w, hco⟩ := load_ok_coerce env hv (fun e' ⟨w, h'⟩ => (hset e' w h').1.2.2.1) hbase h
  obtain ⟨⟨hm, hn, hve, ha, ⟨t', ht'⟩, hmu, hle⟩, w2, hco2⟩ := hset e w hco
  have hsec' : Sections e := ⟨by rw [hm]; exact hsec.metaLen, by rw [ht']; rfl, by rw [hn]; exact hsec.name,
    by rw [hve]; exact hsec.version, by rw [ha]; exact hsec.archived⟩
  have hlen : e.body.bytes.length ≤ 65535 := by rw [hle, hbytes]; exact dataIn_length data
  have hfl' : e.metaLen = [0x0B, 0x00] → e.version = [0x00] ∧ e.archived = [0x00] := by rw [hm, hve, ha]; exact hfl
  have hno' : e.metaLen = [0x0D, 0x00] → ¬FlashIsLength e := by
    unfold FlashIsLength at hno ⊢
    rw [hm, hve, ha, hle]; exact hno
  obtain ⟨b, w3, hb, hl3, hw3⟩ := loadBase_written env hsec' hfl' hlen hno' (fresh env)
  have he : ({ e with cls := (fresh env).cls, body := ⟨true, e.body.bytes⟩ } : Ent) = { e with cls := e₁.cls } := by
    rw [h0]
    cases e with | mk c m t n v a b => cases b; cases hmu; rfl
  rw [he, finish_of_coerce env hco2 (hve.trans hv) (metaLen_iff (metaLen_length hsec'))] at hl3
  have hload : load env b (fresh env) = loadBase env b (fresh env) := by
    simp [load, PyM.bind_run, fresh]
  refine ⟨hsec', b, _, hb, hload.trans hl3, ?_⟩
  have hcalm := coerce_calm env (e := { e with cls := e₁.cls }) ht' hmu
  rw [hco2] at hcalm
  intro x hx
  simp only [List.mem_append] at hx
  rcases hx with hx | hx | hx
  · rcases hw3 x hx with rfl | hx
    · decide
    · revert hx
      unfold checkType
      repeat' split
      all_goals simp (config := { contextual := true }) [layoutWarns, frameWarns]
  · exact hcalm x hx
  · unfold loadWarnings at hx
    rcases List.mem_append.1 hx with h | h <;> split at h <;> simp at h
    all_goals (subst h; decide)

end Ent

namespace Var
open Spec Ent
variable {V : Type} [LinearOrder V]

/-- An entry loaded from a piece. -/
def FromPiece (env : Env V) (p : Bytes) (e : Ent) : Prop := ∃ w, Ent.load env p (Ent.fresh env) = ⟨.ok (), e, w⟩

theorem loadLoop_pieces (env : Env V) : ∀ (fuel : Nat) (left : Int) (s : Stream) (v v' : Var) (r : Int × Stream) (w : List Warn)
    (ps : List Bytes), Cut s.data s.pos left ps → loadLoop env fuel left s v = ⟨.ok r, v', w⟩ →
    ∃ es, v' = { v with entries := v.entries ++ es } ∧ List.Forall₂ (FromPiece env) ps es := by
  intro fuel
  induction fuel with
  | zero =>
    intro left s v v' r w ps _ h
    rw [loadLoop] at h
    cases congrArg Out.res h
  | succ fuel ih =>
    intro left s v v' r w ps hc h
    rw [loadLoop] at h
    cases hc with
    | done hle =>
      rw [if_neg (by omega)] at h
      have := congrArg Out.st h
      exact ⟨[], by rw [List.append_nil]; exact this.symm, .nil⟩
    | next hpos hd hm =>
      rename_i d more
      rw [if_pos hpos] at h
      obtain ⟨ws, hne⟩ := nextEntryLength_ahead s
      rw [PyM.bind_ok (addEntry_none env v), hne] at h
      have hrd : Stream.read ⟨s.data, aheadFrom s.data s.pos⟩ (aheadLength s.data s.pos) =
          (d, ⟨s.data, aheadFrom s.data s.pos + d.length⟩) := by
        simp only [Stream.read, Stream.peek, ← hd]
      have hlast := loadLast_run env v v.entries (Ent.fresh env) d
      rcases hld : Ent.load env d (Ent.fresh env) with ⟨_ | _, e', w'⟩
      · rw [hld] at hlast
        simp only [PyM.bind_run, PyM.warnAll_run, hlast, hrd] at h
        cases congrArg Out.res h
      · rw [hld] at hlast
        have : ∃ w'', loadLoop env fuel (left - aheadLength s.data s.pos) ⟨s.data, aheadFrom s.data s.pos + d.length⟩
            { v with entries := v.entries ++ [e'] } = ⟨.ok r, v', w''⟩ := by
          rcases hlo : loadLoop env fuel (left - aheadLength s.data s.pos) ⟨s.data, aheadFrom s.data s.pos + d.length⟩
            { v with entries := v.entries ++ [e'] } with ⟨r', v'', w''⟩
          by_cases hdl : d.length ≠ aheadLength s.data s.pos
          · simp only [PyM.bind_run, PyM.warnAll_run, hlast, hrd, if_pos hdl, PyM.warn_run, hlo] at h
            have h1 := congrArg Out.res h
            have h2 := congrArg Out.st h
            simp only at h1 h2
            exact ⟨w'', by rw [h1, h2]⟩
          · simp only [PyM.bind_run, PyM.warnAll_run, hlast, hrd, if_neg hdl, hlo] at h
            have h1 := congrArg Out.res h
            have h2 := congrArg Out.st h
            simp only at h1 h2
            exact ⟨w'', by rw [h1, h2]⟩
        obtain ⟨w'', h'⟩ := this
        obtain ⟨es, h1, h2⟩ := ih _ _ _ _ _ _ more hm h'
        exact ⟨e' :: es, by rw [h1]; simp, .cons ⟨w', hld⟩ h2⟩

omit [LinearOrder V] in
/-- The checks at the end leave the var alone. -/
theorem afterLoop_st (me : ModelEnv) (sum : Bytes) (v : Var) : (afterLoop me sum v).st = v := by
  have hk : (checkModel me v).st = v := by
    simp only [checkModel, PyM.bind_run, PyM.get_run]
    rcases v.model with _ | m
    · rfl
    · simp only [PyM.bind_run, PyM.ofExcept_run]
      rcases v.hdr.targets with _ | ts
      · rfl
      · simp only
        rcases minModels me.ord (me.iter ts) with _ | l
        · rfl
        · simp only [PyM.ite_run]
          split <;> rfl
  unfold afterLoop
  rcases h : checkModel me v with ⟨_ | _, v', w⟩ <;> rw [h] at hk <;> simp only at hk <;> subst hk
  · rw [PyM.bind_error h]
  · rw [PyM.bind_ok h]
    simp only [PyM.bind_run, PyM.get_run, PyM.ofExcept_run]
    rcases v'.checksum with _ | c
    · rfl
    · simp only [PyM.ite_run]
      split <;> rfl

/-- Whatever a var loads: the header is what the first 53 bytes say, the entries are the pieces loaded one by one. -/
theorem load_pieces (env : Env V) (me : ModelEnv) {data : Bytes} {v v' : Var} {w : List Warn} {ps : List Bytes}
    (hc : Cut data (min 55 data.length) (fromLE ((data.drop 53).take 2) : Nat) ps)
    (h : load env me data v = ⟨.ok (), v', w⟩) :
    v'.hdr = ⟨(ljust 53 (data.take 53)).take 8, ((ljust 53 (data.take 53)).drop 8).take 2, ((ljust 53 (data.take 53)).drop 10).take 1,
      ((ljust 53 (data.take 53)).drop 11).take 42⟩ ∧ v'.model = v.model ∧ List.Forall₂ (FromPiece env) ps v'.entries := by
  unfold load at h
  rcases hr1 : (Stream.ofBytes data).read 53 with ⟨hh, s1⟩
  rcases hr2 : s1.read 2 with ⟨l, s2⟩
  have hl : hh = data.take 53 ∧ l = (data.drop 53).take 2 ∧ s2 = ⟨data, min 55 data.length⟩ := by
    simp only [Stream.read, Stream.peek, Stream.ofBytes, Prod.mk.injEq] at hr1 hr2
    obtain ⟨rfl, rfl⟩ := hr1
    obtain ⟨rfl, rfl⟩ := hr2
    simp only [List.drop_zero, List.length_take, List.length_drop, true_and]
    constructor
    · by_cases hd : 53 ≤ data.length
      · rw [show 0 + min 53 data.length = 53 by omega]
      · rw [List.drop_eq_nil_of_le (by omega), List.drop_eq_nil_of_le (by omega)]
    · rw [Stream.mk.injEq]
      exact ⟨rfl, by omega⟩
  obtain ⟨rfl, rfl, rfl⟩ := hl
  generalize hL : fromLE ((data.drop 53).take 2) = L at hc
  have hoh : onHeader (Hdr.load (data.take 53)) v = ⟨.ok (), { v with hdr := (Hdr.load (data.take 53) v.hdr).st }, []⟩ := by
    simp [onHeader, Hdr.load_run]
  simp only [hr1, hr2, hL] at h
  rw [PyM.bind_ok hoh, PyM.bind_ok (PyM.modify_run _ _)] at h
  simp only at h
  rcases hlo : loadLoop env (L + 1) (L : Nat) ⟨data, min 55 data.length⟩
    { v with hdr := (Hdr.load (data.take 53) v.hdr).st, entries := [] } with ⟨_ | r, v'', w''⟩
  · rw [PyM.bind_error hlo] at h
    cases congrArg Out.res h
  · obtain ⟨es, h1, h2⟩ := loadLoop_pieces env _ _ _ _ _ _ _ ps hc hlo
    rw [PyM.bind_ok hlo] at h
    have hv : v' = v'' := by
      by_cases hneg : r.1 < 0
      · simp only [if_pos hneg] at h
        rw [PyM.bind_ok (PyM.warn_run _ _)] at h
        exact (congrArg Out.st h).symm.trans (afterLoop_st me _ v'')
      · simp only [if_neg hneg] at h
        exact (congrArg Out.st h).symm.trans (afterLoop_st me _ v'')
    rw [hv, h1]
    exact ⟨by simp [Hdr.load_run], rfl, by simpa using h2⟩

end Var
end Verif
