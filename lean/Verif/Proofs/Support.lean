import Verif.Spec.Support
import Verif.Proofs.Array
import Verif.Proofs.GdbEq
import Verif.Proofs.Decode

/-! Lemmas about the minimum OS of entries and the support of models. -/

namespace Verif
open Spec Ent
variable {V : Type} [LinearOrder V]

/-! ### Greatest versions -/

theorem foldl_max_le {l : List V} {v : V} : v ≤ l.foldl max v ∧ (∀ x ∈ l, x ≤ l.foldl max v) ∧
    (l.foldl max v = v ∨ l.foldl max v ∈ l) := by
  induction l generalizing v with
  | nil => simp
  | cons y ys ih =>
    obtain ⟨h1, h2, h3⟩ := ih (v := max v y)
    simp only [List.foldl_cons]
    refine ⟨le_trans (le_max_left _ _) h1, ?_, ?_⟩
    · intro x hx
      rcases List.mem_cons.1 hx with rfl | hx
      · exact le_trans (le_max_right _ _) h1
      · exact h2 x hx
    · rcases h3 with h | h
      · rcases (le_total y v).imp (max_eq_left) (max_eq_right (a := v)) with hm | hm
        · left; rw [h, hm]
        · right; rw [h, hm]; exact List.mem_cons_self ..
      · right; exact List.mem_cons_of_mem _ h

theorem maxOs_greatest (initial : V) (l : List V) : Greatest initial (maxOs initial l) l := by
  cases l with
  | nil => exact ⟨by simp, Or.inr ⟨rfl, rfl⟩⟩
  | cons v vs =>
    obtain ⟨h1, h2, h3⟩ := foldl_max_le (l := vs) (v := v)
    refine ⟨?_, Or.inl ?_⟩
    · intro x hx
      rcases List.mem_cons.1 hx with rfl | hx
      · exact h1
      · exact h2 x hx
    · rcases h3 with h | h
      · rw [show maxOs initial (v :: vs) = vs.foldl max v from rfl, h]; exact List.mem_cons_self ..
      · exact List.mem_cons_of_mem _ h

theorem mapE_ok {α β : Type} {f : α → Except PyErr β} {g : α → β} {l : List α} (h : ∀ x ∈ l, f x = .ok (g x)) :
    mapE f l = .ok (l.map g) := by
  induction l with
  | nil => rfl
  | cons a as ih =>
    unfold mapE
    rw [h a (List.mem_cons_self ..), ih fun x hx => h x (List.mem_cons_of_mem _ hx)]
    rfl

theorem mapE_error {α β : Type} {f : α → Except PyErr β} {x : PyErr} {l : List α} (h : ∃ a ∈ l, f a = .error x)
    (ho : ∀ a ∈ l, ∀ y, f a = .error y → y = x) : mapE f l = .error x := by
  induction l with
  | nil => simp at h
  | cons a as ih =>
    unfold mapE
    cases hf : f a with
    | error y => rw [ho a (List.mem_cons_self ..) y hf]
    | ok b =>
      rcases h with ⟨c, hc, he⟩
      rcases List.mem_cons.1 hc with rfl | hc
      · rw [hf] at he; cases he
      · simp only
        rw [ih ⟨c, hc, he⟩ fun c hc => ho c (List.mem_cons_of_mem _ hc)]

theorem runAll_ok {β : Type} {rs : List (List Warn × Except PyErr β)} {bs : List β}
    (h : List.Forall₂ (fun r b => r.2 = .ok b) rs bs) : runAll rs = (rs.flatMap Prod.fst, .ok bs) := by
  induction h with
  | nil => rfl
  | @cons r b rs bs hr _ ih =>
    obtain ⟨ws, r⟩ := r
    simp only at hr
    subst hr
    simp [runAll, ih, Except.map]

theorem runAll_error {β : Type} {pre post : List (List Warn × Except PyErr β)} {ws : List Warn} {x : PyErr}
    (h : ∀ r ∈ pre, ∃ b, r.2 = .ok b) :
    runAll (pre ++ (ws, .error x) :: post) = (pre.flatMap Prod.fst ++ ws, .error x) := by
  induction pre with
  | nil => rfl
  | cons r pre ih =>
    obtain ⟨b, hb⟩ := h r (by simp)
    obtain ⟨w, r⟩ := r
    simp only at hb
    subst hb
    have := ih fun r hr => h r (by simp [hr])
    simp [runAll, this, Except.map]

/-! ### Entries taken out of a group are shorter than it -/

theorem Stream.read_length (s : Stream) (n : Nat) :
    (s.read n).1.length + (s.read n).2.rest.length = s.rest.length := by
  simp only [Stream.read, Stream.rest, Stream.peek, List.length_take, List.length_drop]
  omega

theorem Stream.readAll_length (s : Stream) :
    s.readAll.1.length + s.readAll.2.rest.length = s.rest.length := by
  simp only [Stream.readAll, Stream.rest, List.length_drop]
  omega

theorem readPred_length (s : Stream) (n : Nat) :
    (readPred s n).1.length + (readPred s n).2.rest.length = s.rest.length := by
  unfold readPred
  split
  · exact s.readAll_length
  · exact s.read_length _

theorem vatName_rest {t : Nat} {s s' : Stream} {page : UInt8} {name : Bytes} {u : Unit} {ws : List Warn}
    (h : vatName t s () = ⟨.ok (page, name, s'), u, ws⟩) : s'.rest.length ≤ s.rest.length := by
  unfold vatName at h
  split at h
  · have h1 := s.read_length 4
    generalize s.read 4 = r at h h1
    obtain ⟨b, s1⟩ := r
    simp only at h h1
    split at h
    · rename_i len page' tl hb
      have h2 := s1.read_length len.toNat
      by_cases hl : len.toNat > 8 <;> simp [PyM.bind_run, hl] at h <;> obtain ⟨⟨-, -, rfl⟩, -⟩ := h <;> omega
    · simp at h
  · split at h
    · have h1 := s.read_length 4
      generalize s.read 4 = r at h h1
      obtain ⟨b, s1⟩ := r
      simp only at h h1
      split at h
      · rename_i len page' tl hb
        have h2 := readPred_length s1 len.toNat
        have h3 := (readPred s1 len.toNat).2.read_length 1
        by_cases hl : len.toNat > 7 <;> simp [PyM.bind_run, hl] at h <;> obtain ⟨⟨-, -, rfl⟩, -⟩ := h <;> omega
      · simp at h
    · have h1 := s.read_length 3
      generalize s.read 3 = r at h h1
      obtain ⟨b, s1⟩ := r
      simp only at h h1
      split at h
      · have h2 := s1.read_length 3
        simp at h
        obtain ⟨⟨-, -, rfl⟩, -⟩ := h
        omega
      · simp at h

theorem dataSection_length (c : Cls) (s : Stream) :
    (dataSection c s).1.length + (dataSection c s).2.rest.length = s.rest.length := by
  unfold dataSection readEquation
  have h1 := s.read_length 1
  have h2 := s.read_length 2
  split
  · have h3 := (s.read 1).2.read_length 2
    have h4 := ((s.read 1).2.read 2).2.read_length (fromLE ((s.read 1).2.read 2).1)
    simp only [List.length_append]
    omega
  · split
    · have h4 := (s.read 2).2.read_length (fromLE (s.read 2).1)
      simp only [List.length_append]
      omega
    · split
      · have h3 := (s.read 1).2.read_length 1
        have h4 := ((s.read 1).2.read 1).2.read_length (fromLE (s.read 1).1 * fromLE ((s.read 1).2.read 1).1)
        simp only [List.length_append]
        omega
      · split
        · exact s.read_length _
        · split
          · exact s.read_length _
          · exact s.readAll_length

theorem ungroupOne_length (env : Env V) {flash : Bool} {t : UInt8} {s s' : Stream} {e : Ent} {u : Unit}
    {ws : List Warn} (h : ungroupOne env flash t s () = ⟨.ok (e, s'), u, ws⟩) :
    e.body.bytes.length + s'.rest.length ≤ s.rest.length := by
  have h1 := s.read_length 2
  unfold ungroupOne at h
  generalize s.read 2 = r at h h1
  obtain ⟨b, s1⟩ := r
  simp only at h h1
  split at h
  · rw [PyM.bind_run] at h
    rcases hv : vatName (t.toNat &&& 63) s1 () with ⟨r, u1, w1⟩
    rw [hv] at h
    cases r with
    | error x => simp at h
    | ok p =>
      obtain ⟨page, name, s2⟩ := p
      have h2 := vatName_rest hv
      generalize hf : (do setTypeId ((t.toNat &&& 63 : Nat) : Int); coerce env : PyM Ent Unit) = f at h
      cases hm : initMeta flash with
      | error x => simp [hm, PyM.bind_run] at h
      | ok m =>
        simp only [PyM.bind_run, hm, PyM.ofExcept_run, PyM.warnAll_run] at h
        generalize f _ = o at h
        obtain ⟨r, st, w⟩ := o
        cases r with
        | error x => simp at h
        | ok a =>
          have h3 := dataSection_length st.cls s2
          by_cases hc : st.cls = .graphedEquation
          · simp [hc] at h
          · simp [hc] at h
            obtain ⟨⟨rfl, rfl⟩, -⟩ := h
            simp only [List.length_cons, List.length_nil] at h1
            show (dataSection st.cls s2).1.length + _ ≤ _
            omega
  · simp at h

theorem ungroupLoop_length (env : Env V) {flash : Bool} {fuel : Nat} {s : Stream} {es : List Ent} {u : Unit}
    {ws : List Warn} (h : ungroupLoop env flash fuel s () = ⟨.ok es, u, ws⟩) :
    ∀ e ∈ es, e.body.bytes.length < s.rest.length := by
  induction fuel generalizing s es u ws with
  | zero =>
    have h : (⟨.ok [], (), []⟩ : Out Unit (List Ent)) = ⟨.ok es, u, ws⟩ := h
    cases h
    simp
  | succ n ih =>
    have h1 := s.read_length 1
    unfold ungroupLoop at h
    generalize s.read 1 = r at h h1
    obtain ⟨b, s1⟩ := r
    simp only at h h1
    split at h
    · rename_i t tl s1' heq
      cases heq
      rw [PyM.bind_run] at h
      rcases hv : ungroupOne env flash t s1 () with ⟨r, u1, w1⟩
      rw [hv] at h
      cases r with
      | error x => simp at h
      | ok p =>
        obtain ⟨e, s2⟩ := p
        have h2 := ungroupOne_length env hv
        simp only [List.length_cons] at h1
        simp only [PyM.bind_run] at h
        rcases hl : ungroupLoop env flash n s2 () with ⟨r, u2, w2⟩
        rw [hl] at h
        cases r with
        | error x => simp at h
        | ok es' =>
          simp at h
          obtain ⟨rfl, -⟩ := h
          intro x hx
          rcases List.mem_cons.1 hx with rfl | hx
          · omega
          · have := ih hl x hx
            omega
    · have h : (⟨.ok [], (), []⟩ : Out Unit (List Ent)) = ⟨.ok es, u, ws⟩ := h
      cases h
      simp

/-- An entry taken out of a group is shorter than the group. -/
theorem ungroup_shorter (env : Env V) {g : Ent} {es : List Ent} {u : Unit} {ws : List Warn}
    (h : ungroup env g [] () = ⟨.ok es, u, ws⟩) : ∀ e ∈ es, e.body.bytes.length < g.body.bytes.length := by
  intro e he
  have := ungroupLoop_length env h e he
  simp only [List.isEmpty_nil, if_true, Stream.rest, Stream.ofBytes, List.drop_zero, Ent.data, List.length_drop] at this
  omega

/-- The bound on the nesting of groups does not matter. -/
theorem getMinOsN_fuel (env : OsEnv V) {n m : Nat} {e : Ent} (hn : e.body.bytes.length < n)
    (hm : e.body.bytes.length < m) : getMinOsN env n e [] = getMinOsN env m e [] := by
  induction n generalizing m e with
  | zero => omega
  | succ n ih =>
    obtain ⟨m, rfl⟩ : ∃ k, m = k + 1 := ⟨m - 1, by omega⟩
    by_cases hg : e.cls = .group
    · unfold getMinOsN
      simp only [hg]
      rcases hu : ungroup env.toEnv e [] () with ⟨r, u, ws⟩
      cases r with
      | error x => rfl
      | ok es =>
        have hs := ungroup_shorter env.toEnv hu
        have : (es.map fun x => getMinOsN env n x []) = es.map fun x => getMinOsN env m x [] := by
          refine List.map_congr_left fun x hx => ih ?_ ?_ <;> have := hs x hx <;> omega
        simp only [this]
    · unfold getMinOsN
      rcases hc : e.cls <;> first | exact absurd hc hg | rfl

/-- The minimum OS of a group is asked of its entries. -/
theorem getMinOs_group (env : OsEnv V) {g : Ent} (hg : g.cls = .group) {es : List Ent} {u : Unit} {ws : List Warn}
    (h : ungroup env.toEnv g [] () = ⟨.ok es, u, ws⟩) :
    getMinOs env g [] = (ws ++ (runAll (es.map fun x => getMinOs env x [])).1,
      (runAll (es.map fun x => getMinOs env x [])).2.map (maxOs env.initial)) := by
  have hs := ungroup_shorter env.toEnv h
  have : (es.map fun x => getMinOsN env g.body.bytes.length x []) = es.map fun x => getMinOs env x [] := by
    refine List.map_congr_left fun x hx => getMinOsN_fuel env (hs x hx) ?_
    simp
  rw [← this]
  show getMinOsN env (g.body.bytes.length + 1) g [] = _
  rw [getMinOsN]
  simp only [hg, h]

/-! ### Complex numbers, lists and matrices, assembly programs -/

omit [LinearOrder V] in
theorem complexMinOs_eq (env : OsEnv V) {d : Bytes} (hl : 10 ≤ d.length) :
    complexMinOs env d =
      if max (d.getD 0 0).toNat (d.getD 9 0).toNat = 0x0C then .ok env.os83
      else if max (d.getD 0 0).toNat (d.getD 9 0).toNat = 0x1B then .ok env.p255 else .error .typeError := by
  have h0 : d[0]? = some (d.getD 0 0) := by
    rw [List.getD_eq_getElem?_getD, List.getElem?_eq_getElem (by omega)]; rfl
  have h9 : d[9]? = some (d.getD 9 0) := by
    rw [List.getD_eq_getElem?_getD, List.getElem?_eq_getElem (by omega)]; rfl
  unfold complexMinOs complexVersion
  rw [h0, h9]
  simp only
  generalize max (d.getD 0 0).toNat (d.getD 9 0).toNat = k
  by_cases ha : k = 0x0C
  · simp [ha]
  · by_cases hb : k = 0x1B <;> simp [ha, hb]

theorem kindOf_drop (d : Bytes) : kindByte (d.drop 9) = (d.getD 9 0).toNat % 64 := by
  unfold kindByte
  rw [List.getD_eq_getElem?_getD, List.getD_eq_getElem?_getD, List.getElem?_drop]

theorem unsigned_drop (d : Bytes) : Unsigned (d.drop 9) ↔ (d.getD 9 0).toNat < 64 := by
  unfold Unsigned
  rw [List.getD_eq_getElem?_getD, List.getD_eq_getElem?_getD, List.getElem?_drop]

omit [LinearOrder V] in
theorem complexMinOs_plain (env : OsEnv V) {d : Bytes} (h : PlainComplex d) :
    complexMinOs env d = .ok (complexOs env d) := by
  obtain ⟨hl, h1, h2, h3, h4⟩ := h
  rw [complexMinOs_eq env hl]
  rw [unsigned_drop] at h2
  rw [kindOf_drop] at h4
  unfold complexOs
  rw [kindOf_drop]
  unfold Unsigned at h1
  unfold kindByte at h3 ⊢
  rw [Nat.mod_eq_of_lt h1] at h3 ⊢
  rw [Nat.mod_eq_of_lt h2] at h4 ⊢
  simp only [List.mem_cons, List.not_mem_nil, or_false] at h3 h4
  rcases h3 with h3 | h3 <;> rcases h4 with h4 | h4 <;> rw [h3, h4] <;> simp

omit [LinearOrder V] in
theorem complexMinOs_other (env : OsEnv V) {d : Bytes} (hl : 10 ≤ d.length)
    (h : ¬Unsigned d ∨ ¬Unsigned (d.drop 9) ∨ kindByte d ∈ [0x1C, 0x1D, 0x1E, 0x1F, 0x20, 0x21] ∨
      kindByte (d.drop 9) ∈ [0x1C, 0x1D, 0x1E, 0x1F, 0x20, 0x21]) : complexMinOs env d = .error .typeError := by
  rw [complexMinOs_eq env hl]
  rw [unsigned_drop, kindOf_drop] at h
  unfold Unsigned kindByte at h
  simp only [List.mem_cons, List.not_mem_nil, or_false] at h
  rw [if_neg (by omega), if_neg (by omega)]

omit [LinearOrder V] in
theorem complexMinOs_cases (env : OsEnv V) {d : Bytes} (hl : 10 ≤ d.length) :
    (∃ os, complexMinOs env d = .ok os) ∨ complexMinOs env d = .error .typeError := by
  rw [complexMinOs_eq env hl]
  split
  · exact Or.inl ⟨_, rfl⟩
  · split
    · exact Or.inl ⟨_, rfl⟩
    · exact Or.inr rfl

theorem chunks_flatten {α : Type} {n : Nat} (hn : 0 < n) {xs : List (List α)} (h : ∀ x ∈ xs, x.length = n) :
    chunks n xs.flatten = xs := by
  have := chunks_flatMap hn id xs h
  simpa [List.flatMap_id] using this

theorem getMinOs_reals (env : OsEnv V) {e : Ent} (hc : e.cls = .realList ∨ e.cls = .matrix) {xs : List Bytes}
    (hd : e.body.bytes.drop 2 = xs.flatten) (hx : ∀ x ∈ xs, x.length = 9) :
    getMinOs env e [] = ([], (mapE (realMinOs env) xs).map (maxOs env.initial)) := by
  have h : getMinOs env e [] = ([], (mapE (realMinOs env) (chunks 9 (e.body.bytes.drop 2))).map (maxOs env.initial)) := by
    obtain ⟨c, m, t, n, v, a, ⟨mu, d⟩⟩ := e
    rcases hc with h | h <;> simp only at h <;> subst h <;> rfl
  rw [h, hd, chunks_flatten (by decide) hx]

theorem getMinOs_complexes (env : OsEnv V) {e : Ent} (hc : e.cls = .complexList) {xs : List Bytes}
    (hd : e.body.bytes.drop 2 = xs.flatten) (hx : ∀ x ∈ xs, x.length = 18) :
    getMinOs env e [] = ([], (mapE (complexMinOs env) xs).map (maxOs env.initial)) := by
  have h : getMinOs env e [] =
      ([], (mapE (complexMinOs env) (chunks 18 (e.body.bytes.drop 2))).map (maxOs env.initial)) := by
    obtain ⟨c, m, t, n, v, a, ⟨mu, d⟩⟩ := e
    simp only at hc
    subst hc
    rfl
  rw [h, hd, chunks_flatten (by decide) hx]

theorem asmMinOs_eq (env : OsEnv V) (d : Bytes) : asmMinOs env.toEnv d =
    maxOs env.initial (((asmMarks env).filter fun p => hasSub p.1 d).map Prod.snd) := by
  have hm : (fun best y : V => if best < y then y else best) = max := by
    funext a b
    split
    · rename_i h; exact (max_eq_right (le_of_lt h)).symm
    · rename_i h; exact (max_eq_left (not_lt.1 h)).symm
  unfold asmMinOs asmMarks
  simp only [hm]
  by_cases h1 : hasSub [0xBB, 0x6D] d <;> by_cases h2 : hasSub [0xEF, 0x69] d <;> by_cases h3 : hasSub [0xEF, 0x7B] d <;>
    simp [h1, h2, h3, maxOs]

/-! ### Support -/

theorem getVersion_reals (env : Env V) {e : Ent} (hc : e.cls = .listE ∨ e.cls = .realList ∨ e.cls = .matrix) {m : Model} :
    orExact (getVersion env e []).2 0x0B m = .ok true := by
  have hmax : ∀ l : List Bytes, maxVersion (l.map fun _ => 0) = 0 := by
    intro l
    induction l with
    | nil => rfl
    | cons x xs ih => exact ih
  obtain ⟨c, mm, t, n, v, a, ⟨mu, d⟩⟩ := e
  rcases hc with h | h | h <;> simp only at h <;> subst h
  · rfl
  · show orExact (.ok (arrayVersion (maxVersion ((chunks 9 _).map fun _ => 0)))) 0x0B m = _
    rw [hmax]; rfl
  · show orExact (.ok (arrayVersion (maxVersion ((chunks 9 _).map fun _ => 0)))) 0x0B m = _
    rw [hmax]; rfl

/-- A list of complex numbers that can be asked for its minimum OS has version zero. -/
theorem getVersion_complexes (env : OsEnv V) {e : Ent} (hc : e.cls = .complexList) {os : V}
    (hos : (getMinOs env e []).2 = .ok os) {m : Model} : orExact (getVersion env.toEnv e []).2 0x0B m = .ok true := by
  have aux : ∀ (l : List Bytes) (oss : List V), mapE (complexMinOs env) l = .ok oss →
      ∃ vs, mapE complexVersion l = .ok vs ∧ ∀ v ∈ vs, v ≤ 0x0B := by
    intro l
    induction l with
    | nil => intro _ _; exact ⟨[], rfl, by simp⟩
    | cons a as ih =>
      intro oss h
      unfold mapE at h
      cases ha : complexMinOs env a with
      | error x => rw [ha] at h; cases h
      | ok b =>
        rw [ha] at h
        simp only at h
        cases has : mapE (complexMinOs env) as with
        | error x => rw [has] at h; cases h
        | ok bs =>
          obtain ⟨vs, h1, h2⟩ := ih bs has
          unfold complexMinOs at ha
          cases hv : complexVersion a with
          | error x => rw [hv] at ha; cases ha
          | ok v =>
            rw [hv] at ha
            refine ⟨v :: vs, by unfold mapE; rw [hv, h1], ?_⟩
            intro w hw
            rcases List.mem_cons.1 hw with rfl | hw
            · simp only at ha
              by_cases h0 : w = 0
              · omega
              · rw [if_neg h0] at ha
                by_cases hB : w = 0x0B
                · omega
                · rw [if_neg hB] at ha; cases ha
            · exact h2 w hw
  have hmax : ∀ vs : List Nat, (∀ v ∈ vs, v ≤ 0x0B) → maxVersion vs ≤ 0x0B := by
    intro vs h
    unfold maxVersion
    have : ∀ (l : List Nat) (a : Nat), a ≤ 0x0B → (∀ v ∈ l, v ≤ 0x0B) → l.foldl max a ≤ 0x0B := by
      intro l
      induction l with
      | nil => intro a ha _; exact ha
      | cons x xs ih =>
        intro a ha h
        exact ih _ (max_le ha (h x (by simp))) fun v hv => h v (by simp [hv])
    exact this vs 0 (by omega) h
  obtain ⟨c, mm, t, n, v, a, ⟨mu, d⟩⟩ := e
  simp only at hc
  subst hc
  have h1 : (getMinOs env ⟨.complexList, mm, t, n, v, a, ⟨mu, d⟩⟩ []).2 =
      (mapE (complexMinOs env) (chunks 18 (d.drop 2))).map (maxOs env.initial) := rfl
  rw [h1] at hos
  cases h2 : mapE (complexMinOs env) (chunks 18 (d.drop 2)) with
  | error x => rw [h2] at hos; cases hos
  | ok oss =>
    obtain ⟨vs, h3, h4⟩ := aux _ _ h2
    have h5 : (getVersion env.toEnv ⟨.complexList, mm, t, n, v, a, ⟨mu, d⟩⟩ []).2 =
        match mapE complexVersion (chunks 18 (d.drop 2)) with
        | .error x => .error x
        | .ok vs => .ok (arrayVersion (maxVersion vs)) := rfl
    rw [h5, h3]
    have h6 := hmax vs h4
    have h7 : arrayVersion (maxVersion vs) = 0 := by
      unfold arrayVersion
      rw [if_neg (by omega), if_neg (by omega)]
    simp only [h7]
    rfl

theorem getVersion_plain (env : Env V) {e : Ent} (hc : e.cls ∈ complexEntries) (hp : PlainComplex e.body.bytes) :
    ∃ v, getVersion env e [] = ([], .ok v) ∧ v ≤ 0x0B := by
  have h : getVersion env e [] = ([], complexVersion e.body.bytes) := by
    obtain ⟨c, m, t, n, v, a, ⟨mu, d⟩⟩ := e
    simp only [complexEntries, List.mem_cons, List.not_mem_nil, or_false] at hc
    rcases hc with rfl | rfl | rfl | rfl | rfl | rfl <;> rfl
  rw [h]
  obtain ⟨hl, h1, h2, h3, h4⟩ := hp
  generalize e.body.bytes = d at *
  have h0 : d[0]? = some (d.getD 0 0) := by
    rw [List.getD_eq_getElem?_getD, List.getElem?_eq_getElem (by omega)]; rfl
  have h9 : d[9]? = some (d.getD 9 0) := by
    rw [List.getD_eq_getElem?_getD, List.getElem?_eq_getElem (by omega)]; rfl
  unfold complexVersion
  rw [h0, h9]
  rw [unsigned_drop] at h2
  rw [kindOf_drop] at h4
  unfold Unsigned at h1
  unfold kindByte at h3
  rw [Nat.mod_eq_of_lt h1] at h3
  rw [Nat.mod_eq_of_lt h2] at h4
  simp only [List.mem_cons, List.not_mem_nil, or_false] at h3 h4
  rcases h3 with h3 | h3 <;> rcases h4 with h4 | h4 <;> simp only [h3, h4] <;> exact ⟨_, rfl, by decide⟩

theorem allBelow_eq (env : OsEnv V) (m : Model) {es : List Ent} {oss : List V}
    (h : List.Forall₂ (fun e os => (getMinOs env e []).2 = .ok os) es oss) :
    (allBelow env m es).2 = .ok (decide (∀ os ∈ oss, os < env.latest m)) := by
  induction h with
  | nil => rfl
  | @cons e os es oss hos _ ih =>
    have hb : supportedBase env e m = ((getMinOs env e []).1, .ok (decide (os < env.latest m))) := by
      unfold supportedBase; rw [hos]; rfl
    unfold allBelow
    rw [hb]
    by_cases hlt : os < env.latest m
    · simp only [hlt, decide_true, ih]
      simp [hlt]
    · simp [hlt]

theorem forall₂_of_exists {α β : Type} {R : α → β → Prop} {l : List α} (h : ∀ a ∈ l, ∃ b, R a b) :
    ∃ bs, List.Forall₂ R l bs := by
  induction l with
  | nil => exact ⟨[], .nil⟩
  | cons a as ih =>
    obtain ⟨b, hb⟩ := h a (List.mem_cons_self ..)
    obtain ⟨bs, hbs⟩ := ih fun x hx => h x (List.mem_cons_of_mem _ hx)
    exact ⟨b :: bs, .cons hb hbs⟩

/-! ### Graph databases -/

theorem gdbEquations_plot {p : Plot} {e : Ent} (hc : e.cls ∈ plotClasses) (hp : p.Fits e.cls)
    (hb : e.body.bytes = p.bytes) :
    gdbEquations e.cls (e.body.bytes.drop (gdbOffset e.cls)) = p.eqs.map PlotEq.bytes := by
  obtain ⟨h1, h2, h3, h4, h5, h6, -⟩ := plot_counts hc
  have hdrop : (Stream.ofBytes ((e.body.bytes.drop (gdbOffset e.cls)).drop (gdbCounts e.cls).2.2)).rest =
      (p.eqs.flatMap PlotEq.bytes ++ tailBytes p.tail) := by
    rw [hb, h2, h4, ← hp.head, ← hp.styles]
    simp [Stream.rest, Stream.ofBytes, Plot.bytes]
  have hq := readEquations_rest p.eqs hp.tokens hdrop
  unfold gdbEquations
  rw [h1, ← hp.eqs]
  exact hq.1

theorem plotEq_data {q : PlotEq} (h : q.tokens.length < 256) : q.bytes.drop 2 = 0x00 :: q.tokens := by
  have : q.tokens.length / 256 = 0 := Nat.div_eq_of_lt h
  simp [PlotEq.bytes, toLE, this]

/-- The tokens behind a null byte decide the version. -/
theorem decode_null_since (initial : V) (tbl : TokTable V) {d : Bytes} (hd : d.head? ≠ some 0) :
    (∀ t ∈ (decode initial tbl d).out, t.since ≤ (decode initial tbl (0x00 :: d)).since) ∧
    ((decode initial tbl (0x00 :: d)).since = initial ∨
      ∃ t ∈ (decode initial tbl d).out, (decode initial tbl (0x00 :: d)).since = t.since) := by
  cases d with
  | nil => exact ⟨fun t ht => (by cases ht), .inl rfl⟩
  | cons b rest =>
    have hb : b ≠ 0 := by rintro rfl; exact hd rfl
    obtain ⟨h1, h2, h3⟩ := decodeLoop_since initial tbl (0x00 :: b :: rest) [] ⟨[], initial, []⟩
      ⟨le_refl _, by simp, Or.inl rfl⟩
    have hn := (decode_null initial tbl hb rest).1
    unfold decode at hn ⊢
    rw [hn] at h2 h3
    refine ⟨fun t ht => h2 t (List.mem_cons_of_mem _ ht), ?_⟩
    rcases h3 with h3 | ⟨t, ht, h3⟩
    · exact .inl h3
    · rcases List.mem_cons.1 ht with rfl | ht
      · exact .inl h3
      · exact .inr ⟨t, ht, h3⟩

end Verif
