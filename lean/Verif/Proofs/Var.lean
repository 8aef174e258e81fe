import Verif.Model.Var
import Verif.Proofs.EntryLoad
import Verif.Proofs.Header
import Mathlib.Data.List.Forall2

/-! Lemmas about var files: reading entries back from their concatenation. -/

namespace Verif
open Spec

/-! ### Streams positioned between two parts -/

theorem Stream.read_app (pre mid post : Bytes) {n : Nat} (h : mid.length = n) :
    Stream.read ⟨pre ++ (mid ++ post), pre.length⟩ n =
      (mid, ⟨pre ++ (mid ++ post), pre.length + n⟩) := by
  simp [Stream.read, Stream.peek, List.drop_left', List.take_left' h, h]

theorem Stream.read_app' {data pre mid post : Bytes} {n p : Nat} (hd : data = pre ++ (mid ++ post))
    (hp : p = pre.length) (h : mid.length = n) :
    Stream.read ⟨data, p⟩ n = (mid, ⟨data, p + n⟩) := by
  subst hd hp
  exact Stream.read_app pre mid post h

namespace Ent
variable {V : Type} [LinearOrder V]

/-- The layout of a serialised entry. -/
theorem bytes_layout {e : Ent} (hs : Sections e) {b : Bytes} (hb : e.bytes = .ok b) :
    e.body.bytes.length ≤ 65535 ∧ b.length = e.len ∧
      ∃ r, b = e.metaLen ++ (toLE 2 e.body.bytes.length ++ r) := by
  have hlen : e.body.bytes.length ≤ 65535 := by
    by_contra hcon
    rw [bytes_error (by unfold calcLength; omega)] at hb
    cases hb
  rw [bytes_ok hlen] at hb
  injection hb with hb
  have hf := flashBytes_length hs
  have hm := metaLen_length hs
  refine ⟨hlen, ?_, ⟨e.typeId ++ (e.name ++ (e.flashBytes ++ (toLE 2 e.calcLength ++ e.body.bytes))),
    ?_⟩⟩
  · rw [← hb]
    simp only [List.length_append, length_toLE, hm, hs.typeId, hs.name, Ent.len, calcLength]
    omega
  · rw [← hb]
    simp only [List.append_assoc]
    rfl

theorem len_ge {e : Ent} : 4 ≤ e.len := by unfold len; omega

end Ent

/-- Looking ahead at a serialised entry gives its length and stays put. -/
theorem nextEntryLength_bytes {e : Ent} (hs : Sections e) {b pre post : Bytes}
    (hb : e.bytes = .ok b) :
    nextEntryLength ⟨pre ++ (b ++ post), pre.length⟩ =
      ([], e.len, ⟨pre ++ (b ++ post), pre.length⟩) := by
  obtain ⟨hlen, hbl, r, hr⟩ := Ent.bytes_layout hs hb
  have h1 := Stream.read_app' (data := pre ++ (b ++ post)) (pre := pre) (mid := e.metaLen)
    (post := toLE 2 e.body.bytes.length ++ r ++ post) (n := 2) (by rw [hr]; simp) rfl
    (Ent.metaLen_length hs)
  have h2 := Stream.read_app' (data := pre ++ (b ++ post)) (pre := pre ++ e.metaLen)
    (mid := toLE 2 e.body.bytes.length) (post := r ++ post) (n := 2) (p := pre.length + 2)
    (by rw [hr]; simp) (by simp [Ent.metaLen_length hs]) (length_toLE 2 _)
  have hd : fromLE (toLE 2 e.body.bytes.length) = e.body.bytes.length :=
    fromLE_toLE_of_lt (by have : 256 ^ 2 = 65536 := rfl; omega)
  have hm : fromLE e.metaLen = 11 ∨ fromLE e.metaLen = 13 := by
    rcases hs.metaLen with h | h <;> rw [h]
    · exact Or.inl rfl
    · exact Or.inr rfl
  unfold nextEntryLength
  simp only [h1, h2, hd, if_pos hm, Stream.seekRel]
  refine Prod.ext rfl (Prod.ext rfl ?_)
  simp
  omega

namespace Var
variable {V : Type} [LinearOrder V]

theorem entryBytes_cons {e : Ent} {es : List Ent} {b : Bytes}
    (h : entryBytes (e :: es) = .ok b) :
    ∃ b1 b2, e.bytes = .ok b1 ∧ entryBytes es = .ok b2 ∧ b = b1 ++ b2 := by
  unfold entryBytes at h
  cases h1 : e.bytes with
  | error x => rw [h1] at h; cases h
  | ok b1 =>
    rw [h1] at h
    simp only at h
    cases h2 : entryBytes es with
    | error x => rw [h2] at h; cases h
    | ok b2 => rw [h2] at h; injection h with h; exact ⟨b1, b2, rfl, rfl, h.symm⟩

theorem entryBytes_length {es : List Ent} (hs : ∀ e ∈ es, Sections e) {b : Bytes}
    (h : entryBytes es = .ok b) : b.length = (es.map Ent.len).sum := by
  induction es generalizing b with
  | nil => injection h with h; subst h; rfl
  | cons e es ih =>
    obtain ⟨b1, b2, h1, h2, rfl⟩ := entryBytes_cons h
    rw [List.length_append, (Ent.bytes_layout (hs e (by simp)) h1).2.1,
      ih (fun x hx => hs x (by simp [hx])) h2]
    simp

theorem entrySums_eq {es : List Ent} {b : Bytes} (h : entryBytes es = .ok b) :
    entrySums es = .ok (b.map UInt8.toNat).sum := by
  induction es generalizing b with
  | nil => injection h with h; subst h; rfl
  | cons e es ih =>
    obtain ⟨b1, b2, h1, h2, rfl⟩ := entryBytes_cons h
    unfold entrySums
    rw [h1, ih h2]
    simp

theorem checksum_eq {v : Var} {b : Bytes} (h : entryBytes v.entries = .ok b) :
    v.checksum = .ok (toLE 2 ((b.map UInt8.toNat).sum % 65536)) := by
  unfold checksum
  rw [entrySums_eq h]
  simp only
  have hand : (b.map UInt8.toNat).sum &&& 0xFFFF = (b.map UInt8.toNat).sum % 65536 :=
    Nat.and_two_pow_sub_one_eq_mod _ 16
  rw [hand]
  unfold intToBytesLE
  rw [if_neg]
  · rfl
  · have : (b.map UInt8.toNat).sum % 65536 < 65536 := Nat.mod_lt _ (by decide)
    have e : ((256 ^ 2 : Nat) : Int) = 65536 := rfl
    rw [e]; omega

/-! ### The loop of `load_bytes` -/

/-- The serialised entry loads into a fresh entry as `e'`, with the warnings `ws`. -/
def Loads (env : Env V) (e e' : Ent) (ws : List Warn) : Prop :=
  ∃ b, e.bytes = .ok b ∧ Ent.load env b (Ent.fresh env) = ⟨.ok (), e', ws⟩

omit [LinearOrder V] in
/-- The warning for a new entry: unless the first entry has meta length 13. -/
def conflictOf : List Ent → List Warn
  | [] => []
  | x :: _ => if x.metaLength = 13 then [] else [.metaConflict]

omit [LinearOrder V] in
theorem addEntry_none (env : Env V) (v : Var) :
    addEntry env none v =
      ⟨.ok (), { v with entries := v.entries ++ [Ent.fresh env] }, conflictOf v.entries⟩ := by
  have h13 : (Ent.fresh env).metaLength = 13 := rfl
  cases h : v.entries with
  | nil => simp [addEntry, PyM.bind_run, h, conflictOf]
  | cons x xs =>
    by_cases hm : x.metaLength = 13
    · simp [addEntry, PyM.bind_run, h, hm, h13, conflictOf]
    · simp [addEntry, PyM.bind_run, h, hm, h13, conflictOf, Ne.symm hm]

/-- An outcome with warnings put in front. -/
def warned {σ α : Type} (ws : List Warn) (o : Out σ α) : Out σ α := ⟨o.res, o.st, ws ++ o.warns⟩

theorem loadLast_run (env : Env V) (v : Var) (es : List Ent) (e : Ent) (d : Bytes) :
    loadLast env d { v with entries := es ++ [e] } =
      ⟨(Ent.load env d e).res, { v with entries := es ++ [(Ent.load env d e).st] },
        (Ent.load env d e).warns⟩ := by
  simp [loadLast]

/-- One step of the loop on a serialised entry. -/
theorem loadLoop_step (env : Env V) {e : Ent} (hs : Sections e) {b pre post : Bytes}
    (hb : e.bytes = .ok b) (fuel : Nat) (total : Int) (ht : 0 < total) (v : Var) :
    loadLoop env (fuel + 1) total ⟨pre ++ (b ++ post), pre.length⟩ v =
      match Ent.load env b (Ent.fresh env) with
      | ⟨.error x, e', w⟩ => ⟨.error x, { v with entries := v.entries ++ [e'] }, conflictOf v.entries ++ w⟩
      | ⟨.ok _, e', w⟩ =>
        warned (conflictOf v.entries ++ w) (loadLoop env fuel (total - e.len)
          ⟨pre ++ (b ++ post), (pre ++ b).length⟩ { v with entries := v.entries ++ [e'] }) := by
  have hadd := addEntry_none env v
  have hbl := (Ent.bytes_layout hs hb).2.1
  have hread := Stream.read_app pre b post hbl
  rw [loadLoop, if_pos ht, PyM.bind_ok hadd, nextEntryLength_bytes hs hb]
  simp only [hread]
  rcases hl : Ent.load env b (Ent.fresh env) with ⟨r, e', w⟩
  have hlast := loadLast_run env v v.entries (Ent.fresh env) b
  rw [hl] at hlast
  cases r with
  | error x => simp [PyM.bind_run, hlast]
  | ok u =>
    simp [PyM.bind_run, hlast, hbl, warned]

/-- The loop over the concatenation of serialised entries. -/
theorem loadLoop_entries (env : Env V) (es : List Ent) (hs : ∀ e ∈ es, Sections e) {b : Bytes}
    (hb : entryBytes es = .ok b) (fuel : Nat) (hf : es.length < fuel) (pre post : Bytes) (v : Var) :
    (∃ es' ws, List.Forall₂ (fun e e' => ∃ w, Loads env e e' w) es es' ∧
      (∀ w ∈ ws, (w = .metaConflict ∧ ∃ f, (v.entries ++ es').head? = some f ∧ f.metaLength ≠ 13) ∨
        ∃ e e' w', e ∈ es ∧ Loads env e e' w' ∧ w ∈ w') ∧
      (∀ f, (v.entries ++ es').head? = some f → f.metaLength ≠ 13 →
        1 ≤ v.entries.length ∧ 1 ≤ es.length ∨ 2 ≤ es.length → .metaConflict ∈ ws) ∧
      loadLoop env fuel (b.length : Int) ⟨pre ++ (b ++ post), pre.length⟩ v =
        ⟨.ok (0, ⟨pre ++ (b ++ post), (pre ++ b).length⟩),
          { v with entries := v.entries ++ es' }, ws⟩) ∨
    (∃ e ∈ es, ∃ b' x, e.bytes = .ok b' ∧ (Ent.load env b' (Ent.fresh env)).res = .error x ∧
      (loadLoop env fuel (b.length : Int) ⟨pre ++ (b ++ post), pre.length⟩ v).res = .error x) := by
  induction es generalizing b fuel pre v with
  | nil =>
    injection hb with hb
    subst hb
    cases fuel with
    | zero => simp at hf
    | succ fuel =>
      refine Or.inl ⟨[], [], List.Forall₂.nil, by simp, by simp, ?_⟩
      rw [loadLoop]
      simp
  | cons e es ih =>
    obtain ⟨b1, b2, h1, h2, rfl⟩ := entryBytes_cons hb
    cases fuel with
    | zero => simp at hf
    | succ fuel =>
      have hse := hs e (by simp)
      have hbl := (Ent.bytes_layout hse h1).2.1
      have hpos : 0 < ((b1 ++ b2).length : Int) := by
        have := Ent.len_ge (e := e)
        rw [List.length_append, hbl]; omega
      have hstep := loadLoop_step env hse (pre := pre) (post := b2 ++ post) h1 fuel _
        hpos v
      have hsub : ((b1 ++ b2).length : Int) - e.len = (b2.length : Int) := by
        rw [List.length_append, hbl]; omega
      have hassoc : pre ++ (b1 ++ (b2 ++ post)) = pre ++ (b1 ++ b2 ++ post) := by simp
      rw [hassoc] at hstep
      rw [hstep]
      rcases hl : Ent.load env b1 (Ent.fresh env) with ⟨r, e', w⟩
      cases r with
      | error x =>
        refine Or.inr ⟨e, by simp, b1, x, h1, by rw [hl], rfl⟩
      | ok u =>
        simp only [hsub]
        have hassoc2 : pre ++ (b1 ++ b2 ++ post) = (pre ++ b1) ++ (b2 ++ post) := by simp
        rw [hassoc2]
        rcases ih (fun x hx => hs x (by simp [hx])) h2 fuel (by simpa using hf) (pre ++ b1)
          { v with entries := v.entries ++ [e'] } with ⟨es', ws, hf2, hws, hws2, hrun⟩ | ⟨x, hx, b', y, hy⟩
        · refine Or.inl ⟨e' :: es', conflictOf v.entries ++ w ++ ws,
            List.Forall₂.cons ⟨w, b1, h1, hl⟩ hf2, ?_, ?_, ?_⟩
          · intro y hy
            rcases List.mem_append.1 hy with hy | hy
            · rcases List.mem_append.1 hy with hy | hy
              · cases hve : v.entries with
                | nil => rw [hve] at hy; simp [conflictOf] at hy
                | cons x xs =>
                  rw [hve] at hy
                  simp only [conflictOf] at hy
                  split at hy
                  · simp at hy
                  · rename_i hx
                    simp only [List.mem_singleton] at hy
                    exact Or.inl ⟨hy, x, by simp, hx⟩
              · exact Or.inr ⟨e, e', w, by simp, ⟨b1, h1, hl⟩, hy⟩
            · rcases hws y hy with h | ⟨a, a', w', ha, hl, hw⟩
              · exact Or.inl (by simpa using h)
              · exact Or.inr ⟨a, a', w', by simp [ha], hl, hw⟩
          · intro f hf1 hf13 hlen
            cases hve : v.entries with
            | nil =>
              rw [hve] at hf1 hlen
              have := hws2 f (by rw [hve]; simpa using hf1) hf13
                (Or.inl ⟨by simp [hve], by simp at hlen; omega⟩)
              simp [this]
            | cons x xs =>
              rw [hve] at hf1
              simp only [List.cons_append, List.head?_cons, Option.some.injEq] at hf1
              subst hf1
              simp [conflictOf, hf13]
          · rw [hrun]
            simp [warned]
        · refine Or.inr ⟨x, by simp [hx], b', y, hy.1, hy.2.1, ?_⟩
          exact hy.2.2

/-- Fuel beyond the remaining length does not matter. -/
theorem loadLoop_fuel (env : Env V) (n : Nat) : ∀ (fuel fuel' : Nat) (length : Int) (s : Stream)
    (v : Var), length ≤ n → n < fuel → n < fuel' →
    loadLoop env fuel length s v = loadLoop env fuel' length s v := by
  induction n using Nat.strongRecOn with
  | ind n ih =>
    intro fuel fuel' length s v hl hf hf'
    cases fuel with
    | zero => omega
    | succ fuel =>
      cases fuel' with
      | zero => omega
      | succ fuel' =>
        rw [loadLoop, loadLoop]
        split
        · rename_i hpos
          have hge : 4 ≤ (nextEntryLength s).2.1 := by simp only [nextEntryLength]; omega
          have key : ∀ s' v', loadLoop env fuel (length - ((nextEntryLength s).2.1 : Int)) s' v' =
              loadLoop env fuel' (length - ((nextEntryLength s).2.1 : Int)) s' v' := by
            intro s' v'
            exact ih (n - 1) (by omega) fuel fuel' _ s' v' (by omega) (by omega) (by omega)
          have key' : ∀ s', loadLoop env fuel (length - ((nextEntryLength s).2.1 : Int)) s' =
              loadLoop env fuel' (length - ((nextEntryLength s).2.1 : Int)) s' := by
            intro s'
            exact congrArg PyM.mk (funext fun v' => key s' v')
          rcases hne : nextEntryLength s with ⟨ws, l, s1⟩
          rw [hne] at key'
          simp only at key' ⊢
          simp only [key']
        · rfl

/-- Each step of the loop adds one entry and consumes at least four bytes of the length. -/
theorem loadLoop_count (env : Env V) : ∀ (fuel : Nat) (length : Int) (s : Stream) (v : Var),
    (loadLoop env fuel length s v).st.entries.length ≤ v.entries.length + (length.toNat + 3) / 4 := by
  intro fuel
  induction fuel with
  | zero => intro length s v; simp [loadLoop]
  | succ fuel ih =>
    intro length s v
    rw [loadLoop]
    split
    · rename_i hpos
      have hadd := addEntry_none env v
      rw [PyM.bind_ok hadd]
      have hge : 4 ≤ (nextEntryLength s).2.1 := by simp only [nextEntryLength]; omega
      rcases hne : nextEntryLength s with ⟨ws, l, s1⟩
      rw [hne] at hge
      simp only at hge
      rcases hrd : s1.read l with ⟨d, s2⟩
      have hlast := loadLast_run env v v.entries (Ent.fresh env) d
      rcases hl : Ent.load env d (Ent.fresh env) with ⟨r, e', w⟩
      rw [hl] at hlast
      have h3 : 1 ≤ (length.toNat + 3) / 4 := by omega
      cases r with
      | error x =>
        simp [PyM.bind_run, hlast, hrd]
        omega
      | ok u =>
        have hih := ih (length - l) s2 { v with entries := v.entries ++ [e'] }
        have h4 : ((length - l).toNat + 3) / 4 + 1 ≤ (length.toNat + 3) / 4 := by omega
        by_cases hd : d.length = l <;>
        · simp [PyM.bind_run, hlast, hrd, hd]
          simp only [List.length_append, List.length_singleton] at hih
          omega
    · simp

/-! ### The end of `load_bytes` -/

/-- What `load_bytes` does after the entries (var.py:1220-1236). -/
def afterLoop (me : ModelEnv) (sum : Bytes) : PyM Var Unit := do
  checkModel me
  let v ← PyM.get
  let own ← PyM.ofExcept v.checksum
  if sum ≠ own then PyM.warn .checksum else pure ()

/-- Loading a framed file whose entries load. -/
theorem load_framed (env : Env V) (me : ModelEnv) {h : Hdr} (hw : h.Widths) {es : List Ent}
    (hs : ∀ e ∈ es, Sections e) {region c : Bytes} (hr : entryBytes es = .ok region)
    (hlen : region.length ≤ 65535) (hc : c.length = 2) (v₀ : Var) :
    (∃ es' ws, List.Forall₂ (fun e e' => ∃ w, Loads env e e' w) es es' ∧
      (∀ w ∈ ws, (w = .metaConflict ∧ ∃ f, es'.head? = some f ∧ f.metaLength ≠ 13) ∨
        ∃ e e' w', e ∈ es ∧ Loads env e e' w' ∧ w ∈ w') ∧
      (∀ f, es'.head? = some f → f.metaLength ≠ 13 → 2 ≤ es.length → .metaConflict ∈ ws) ∧
      load env me (h.bytes ++ toLE 2 region.length ++ region ++ c) v₀ =
        warned ws (afterLoop me c ⟨h, es', v₀.model⟩)) ∨
    (∃ e ∈ es, ∃ b' x, e.bytes = .ok b' ∧ (Ent.load env b' (Ent.fresh env)).res = .error x ∧
      (load env me (h.bytes ++ toLE 2 region.length ++ region ++ c) v₀).res = .error x) := by
  have hb := Hdr.bytes_length hw
  have hn : fromLE (toLE 2 region.length) = region.length :=
    fromLE_toLE_of_lt (by have : 256 ^ 2 = 65536 := rfl; omega)
  have hcount : es.length < region.length + 1 := by
    have : es.length ≤ (es.map Ent.len).sum := by
      clear hr hs
      induction es with
      | nil => simp
      | cons e es ih =>
        have := Ent.len_ge (e := e)
        simp only [List.length_cons, List.map_cons, List.sum_cons]
        omega
    rw [← entryBytes_length hs hr] at this
    omega
  have hdata : h.bytes ++ toLE 2 region.length ++ region ++ c =
      (h.bytes ++ toLE 2 region.length) ++ (region ++ c) := by simp
  have hread1 := Stream.read_app' (data := h.bytes ++ toLE 2 region.length ++ region ++ c) (p := 0)
    (pre := []) (mid := h.bytes) (post := toLE 2 region.length ++ region ++ c) (n := 53)
    (by simp) rfl hb
  have hread2 := Stream.read_app' (data := h.bytes ++ toLE 2 region.length ++ region ++ c) (p := 53)
    (pre := h.bytes) (mid := toLE 2 region.length) (post := region ++ c) (n := 2)
    (by simp) hb.symm (length_toLE 2 _)
  have hp : 53 + 2 = (h.bytes ++ toLE 2 region.length).length := by simp [hb]
  have hdrl : onHeader (Hdr.load h.bytes) v₀ = ⟨.ok (), { v₀ with hdr := h }, []⟩ := by
    simp [onHeader, Hdr.load_bytes hw]
  rcases loadLoop_entries env es hs hr (region.length + 1) hcount
    (h.bytes ++ toLE 2 region.length) c { v₀ with hdr := h, entries := [] } with
    ⟨es', ws, hf, hws, hws2, hrun⟩ | ⟨e, he, b', x, h1, h2, h3⟩
  · refine Or.inl ⟨es', ws, hf, by simpa using hws, fun f h1 h2 h3 => hws2 f (by simpa using h1) h2
      (Or.inr h3), ?_⟩
    have hread3 := Stream.read_app' (data := (h.bytes ++ toLE 2 region.length) ++ (region ++ c))
      (p := ((h.bytes ++ toLE 2 region.length) ++ region).length)
      (pre := (h.bytes ++ toLE 2 region.length) ++ region) (mid := c) (post := []) (n := 2)
      (by simp) rfl hc
    unfold load
    simp only [Stream.ofBytes, hread1, Nat.zero_add, hread2, hn]
    rw [PyM.bind_ok hdrl, hp, hdata]
    simp only [PyM.bind_run, PyM.modify_run, hrun, List.nil_append, hread3]
    simp [afterLoop, warned, PyM.bind_run]
  · refine Or.inr ⟨e, he, b', x, h1, h2, ?_⟩
    unfold load
    simp only [Stream.ofBytes, hread1, Nat.zero_add, hread2, hn]
    rw [PyM.bind_ok hdrl, hp, hdata]
    rcases hr' : loadLoop env (region.length + 1) (region.length : Int)
      ⟨h.bytes ++ toLE 2 region.length ++ (region ++ c), (h.bytes ++ toLE 2 region.length).length⟩
      { v₀ with hdr := h, entries := [] } with ⟨r, v', w'⟩
    rw [hr'] at h3
    simp only at h3
    subst h3
    simp only [PyM.bind_run, PyM.modify_run, hr']

end Var
end Verif
