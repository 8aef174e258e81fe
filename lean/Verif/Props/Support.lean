import Verif.Proofs.Support
import Verif.Props.GdbBack
import Verif.Props.Token
import Verif.Spec.Sample

/-! Property theorems about the minimum OS of entries (C103) and the support of models (C104). -/

namespace Verif
open Spec Ent
variable {V : Type} [LinearOrder V]

/-- An environment for the examples: the sample one, the TI-83 between the initial OS and the TI-83+, every model up
to the TI-84+ ending before OS 2.53 and the later ones after all. -/
def exOs : OsEnv Nat :=
  { sampleEnv with os83 := 1, latest := fun m => if m ∈ featureModels.getD 4 [] then 20 else 5 }

/-! ### C103 – the minimum OS -/

/-- **C103, real numbers without sign and graph bit**: fractions need OS 2.53, other numbers none in particular. -/
theorem C103_real_partial (env : OsEnv V) (e : Ent) (hc : e.cls ∈ realEntries) (hl : e.body.bytes ≠ [])
    (hu : Unsigned e.body.bytes) : getMinOs env e [] = ([], .ok (realOs env e.body.bytes)) := by
  obtain ⟨c, m, t, n, v, a, ⟨mu, d⟩⟩ := e
  obtain ⟨x, xs, rfl⟩ := List.exists_cons_of_ne_nil hl
  have hx : x.toNat < 64 := hu
  have h : getMinOs env ⟨c, m, t, n, v, a, ⟨mu, x :: xs⟩⟩ [] = ([], realMinOs env (x :: xs)) := by
    simp only [realEntries, List.mem_cons, List.not_mem_nil, or_false] at hc
    rcases hc with rfl | rfl | rfl | rfl | rfl | rfl | rfl | rfl <;> rfl
  rw [h]
  have hk : kindByte (x :: xs) = x.toNat := Nat.mod_eq_of_lt hx
  simp only [realMinOs, realOs, hk, List.getElem?_cons_zero, List.mem_cons, List.not_mem_nil, or_false]
  split <;> rfl

/-- **C103 fails for negative numbers**: the sign bit (and the graph bit) hide the kind of the number, so that a
negative fraction is reported to run anywhere. -/
theorem C103_real_false (env : OsEnv V) (e : Ent) (hc : e.cls ∈ realEntries) (hl : e.body.bytes ≠ [])
    (hu : ¬Unsigned e.body.bytes) : getMinOs env e [] = ([], .ok env.initial) := by
  obtain ⟨c, m, t, n, v, a, ⟨mu, d⟩⟩ := e
  obtain ⟨x, xs, rfl⟩ := List.exists_cons_of_ne_nil hl
  have hx : ¬x.toNat < 64 := hu
  have h : getMinOs env ⟨c, m, t, n, v, a, ⟨mu, x :: xs⟩⟩ [] = ([], realMinOs env (x :: xs)) := by
    simp only [realEntries, List.mem_cons, List.not_mem_nil, or_false] at hc
    rcases hc with rfl | rfl | rfl | rfl | rfl | rfl | rfl | rfl <;> rfl
  rw [h]
  simp only [realMinOs, List.getElem?_cons_zero]
  rw [if_neg (by omega)]

/-- The fractions 1/2 and -1/2: only the first is said to need OS 2.53. -/
example : getMinOs exOs ⟨.realFraction, [0x0D, 0x00], [0x18], sampleEnv.unnamed, [0x00], [0x00],
      ⟨true, [0x18, 0x7F, 0x50, 0, 0, 0, 0, 0, 0]⟩⟩ [] = ([], .ok 6) ∧
    getMinOs exOs ⟨.realFraction, [0x0D, 0x00], [0x18], sampleEnv.unnamed, [0x00], [0x00],
      ⟨true, [0x98, 0x7F, 0x50, 0, 0, 0, 0, 0, 0]⟩⟩ [] = ([], .ok 0) := by decide +kernel

/-- **C103, complex numbers without sign and graph bits whose parts are decimals or fractions**: fractions need OS
2.55, others the TI-83. -/
theorem C103_complex_partial (env : OsEnv V) (e : Ent) (hc : e.cls ∈ complexEntries) (hp : PlainComplex e.body.bytes) :
    getMinOs env e [] = ([], .ok (complexOs env e.body.bytes)) := by
  have h : getMinOs env e [] = ([], complexMinOs env e.body.bytes) := by
    obtain ⟨c, m, t, n, v, a, ⟨mu, d⟩⟩ := e
    simp only [complexEntries, List.mem_cons, List.not_mem_nil, or_false] at hc
    rcases hc with rfl | rfl | rfl | rfl | rfl | rfl <;> rfl
  rw [h, complexMinOs_plain env hp]

/-- **C103 fails for the other complex numbers**: if a part has a sign or graph bit, or is a radical or a multiple of
pi, asking for the minimum OS raises `TypeError`, since a model is called. -/
theorem C103_complex_false (env : OsEnv V) (e : Ent) (hc : e.cls ∈ complexEntries) (hl : 10 ≤ e.body.bytes.length)
    (h : ¬Unsigned e.body.bytes ∨ ¬Unsigned (e.body.bytes.drop 9) ∨
      kindByte e.body.bytes ∈ [0x1C, 0x1D, 0x1E, 0x1F, 0x20, 0x21] ∨
      kindByte (e.body.bytes.drop 9) ∈ [0x1C, 0x1D, 0x1E, 0x1F, 0x20, 0x21]) :
    getMinOs env e [] = ([], .error .typeError) := by
  have hm : getMinOs env e [] = ([], complexMinOs env e.body.bytes) := by
    obtain ⟨c, m, t, n, v, a, ⟨mu, d⟩⟩ := e
    simp only [complexEntries, List.mem_cons, List.not_mem_nil, or_false] at hc
    rcases hc with rfl | rfl | rfl | rfl | rfl | rfl <;> rfl
  rw [hm, complexMinOs_other env hl h]

/-- 1+2i and -1+2i. -/
example : getMinOs exOs ⟨.complex, [0x0D, 0x00], [0x0C], sampleEnv.unnamed, [0x00], [0x00],
      ⟨true, [0x0C, 0x80, 0x10, 0, 0, 0, 0, 0, 0, 0x0C, 0x80, 0x20, 0, 0, 0, 0, 0, 0]⟩⟩ [] = ([], .ok 1) ∧
    getMinOs exOs ⟨.complex, [0x0D, 0x00], [0x0C], sampleEnv.unnamed, [0x00], [0x00],
      ⟨true, [0x8C, 0x80, 0x10, 0, 0, 0, 0, 0, 0, 0x0C, 0x80, 0x20, 0, 0, 0, 0, 0, 0]⟩⟩ [] = ([], .error .typeError) := by
  decide +kernel

/-- **C103, lists and matrices of real numbers without sign and graph bits**: the greatest of their elements. -/
theorem C103_list_partial (env : OsEnv V) (e : Ent) (hc : e.cls = .realList ∨ e.cls = .matrix) (xs : List Bytes)
    (hd : e.body.bytes.drop 2 = xs.flatten) (hx : ∀ x ∈ xs, x.length = 9 ∧ Unsigned x) :
    ∃ os, getMinOs env e [] = ([], .ok os) ∧ Greatest env.initial os (xs.map (realOs env)) := by
  refine ⟨_, ?_, maxOs_greatest ..⟩
  rw [getMinOs_reals env hc hd fun x h => (hx x h).1, mapE_ok (g := realOs env)]
  · rfl
  · intro x h
    obtain ⟨h9, hu⟩ := hx x h
    obtain ⟨y, ys, rfl⟩ := List.exists_cons_of_ne_nil (l := x) (by rintro rfl; simp at h9)
    have hy : y.toNat < 64 := hu
    have hk : kindByte (y :: ys) = y.toNat := Nat.mod_eq_of_lt hy
    simp only [realMinOs, realOs, hk, List.getElem?_cons_zero, List.mem_cons, List.not_mem_nil, or_false]
    split <;> rfl

/-- **C103, lists of complex numbers of the same kinds**: the greatest of their elements. -/
theorem C103_complex_list_partial (env : OsEnv V) (e : Ent) (hc : e.cls = .complexList) (xs : List Bytes)
    (hd : e.body.bytes.drop 2 = xs.flatten) (hx : ∀ x ∈ xs, x.length = 18 ∧ PlainComplex x) :
    ∃ os, getMinOs env e [] = ([], .ok os) ∧ Greatest env.initial os (xs.map (complexOs env)) := by
  refine ⟨_, ?_, maxOs_greatest ..⟩
  rw [getMinOs_complexes env hc hd fun x h => (hx x h).1,
    mapE_ok (g := complexOs env) fun x h => complexMinOs_plain env (hx x h).2]
  rfl

/-- **C103 fails for lists of complex numbers** as soon as one of them has a sign bit. -/
theorem C103_complex_list_false (env : OsEnv V) (e : Ent) (hc : e.cls = .complexList) (xs : List Bytes)
    (hd : e.body.bytes.drop 2 = xs.flatten) (hx : ∀ x ∈ xs, x.length = 18)
    (h : ∃ x ∈ xs, ¬Unsigned x ∨ ¬Unsigned (x.drop 9)) : getMinOs env e [] = ([], .error .typeError) := by
  rw [getMinOs_complexes env hc hd hx, mapE_error (x := .typeError)]
  · rfl
  · obtain ⟨x, hm, h⟩ := h
    exact ⟨x, hm, complexMinOs_other env (by rw [hx x hm]; omega) (h.imp_right Or.inl)⟩
  · intro x hm y hy
    rcases complexMinOs_cases env (d := x) (by rw [hx x hm]; omega) with ⟨os, ho⟩ | ho <;> rw [ho] at hy <;> cases hy
    rfl

/-- A list of 1 and 1/2. -/
example : getMinOs exOs ⟨.realList, [0x0D, 0x00], [0x01], sampleEnv.unnamed, [0x00], [0x00],
    ⟨true, [0x02, 0x00, 0x00, 0x80, 0x10, 0, 0, 0, 0, 0, 0, 0x18, 0x7F, 0x50, 0, 0, 0, 0, 0, 0]⟩⟩ [] = ([], .ok 6) := by
  decide +kernel

/-- **C103, programs, strings and equations**: no token is newer than the minimum OS, which is that of one of the
tokens or the initial one. -/
theorem C103_tokens (env : OsEnv V) (e : Ent) (hc : e.cls ∈ tokenClasses) : ∃ os ws,
    getMinOs env e [] = (ws, .ok os) ∧ (∀ t ∈ (tokens env.toEnv e).2, t.since ≤ os) ∧
    (os = env.initial ∨ ∃ t ∈ (tokens env.toEnv e).2, os = t.since) := by
  have h : getMinOs env e [] = ((decode env.initial env.table e.data).warns,
      .ok (decode env.initial env.table e.data).since) := by
    obtain ⟨c, m, t, n, v, a, ⟨mu, d⟩⟩ := e
    simp only [tokenClasses, List.mem_cons, List.not_mem_nil, or_false] at hc
    rcases hc with rfl | rfl | rfl | rfl | rfl | rfl | rfl <;> rfl
  obtain ⟨-, h2, h3⟩ := C46_decode_since env.initial env.table e.data
  exact ⟨_, _, h, h2, h3⟩

example : getMinOs exOs ⟨.program, [0x0D, 0x00], [0x05], sampleEnv.unnamed, [0x00], [0x00],
    ⟨true, [0x03, 0x00, 0x41, 0xEF, 0x00]⟩⟩ [] = ([], .ok 4) := by decide +kernel

/-- **C103, assembly programs**: the greatest of the models whose marks occur in the program. -/
theorem C103_asm (env : OsEnv V) (e : Ent) (hc : e.cls = .asmProgram ∨ e.cls = .protAsmProgram) : ∃ os,
    getMinOs env e [] = ([], .ok os) ∧
    Greatest env.initial os (((asmMarks env).filter fun p => hasSub p.1 e.data).map Prod.snd) := by
  have h : getMinOs env e [] = ([], .ok (asmMinOs env.toEnv e.data)) := by
    obtain ⟨c, m, t, n, v, a, ⟨mu, d⟩⟩ := e
    rcases hc with h | h <;> simp only at h <;> subst h <;> rfl
  refine ⟨_, h, ?_⟩
  rw [asmMinOs_eq]
  exact maxOs_greatest ..

/-- **C103, groups**: the greatest of the entries that come out of the group, with the warnings of all of them; if asking
one of them raises, so does asking the group, and the entries after the first such one are not asked. -/
theorem C103_group (env : OsEnv V) (g : Ent) (hg : g.cls = .group) (es : List Ent) (u : Unit) (ws : List Warn)
    (h : ungroup env.toEnv g [] () = ⟨.ok es, u, ws⟩) :
    (∀ oss, List.Forall₂ (fun x os => (getMinOs env x []).2 = .ok os) es oss →
      ∃ os, getMinOs env g [] = (ws ++ es.flatMap (fun x => (getMinOs env x []).1), .ok os) ∧
        Greatest env.initial os oss) ∧
    (∀ pre x post err, es = pre ++ x :: post → (∀ y ∈ pre, ∃ os, (getMinOs env y []).2 = .ok os) →
      (getMinOs env x []).2 = .error err →
      getMinOs env g [] = (ws ++ (pre ++ [x]).flatMap (fun y => (getMinOs env y []).1), .error err)) := by
  rw [getMinOs_group env hg h]
  refine ⟨fun oss ho => ?_, ?_⟩
  · have : List.Forall₂ (fun r b => r.2 = .ok b) (es.map fun x => getMinOs env x []) oss := by
      clear h
      induction ho with
      | nil => exact .nil
      | cons hr _ ih => exact .cons hr ih
    rw [runAll_ok this, List.flatMap_map]
    exact ⟨_, rfl, maxOs_greatest ..⟩
  · intro pre x post err he hpre hx
    obtain ⟨w, hw⟩ : ∃ w, getMinOs env x [] = (w, .error err) := ⟨_, Prod.ext rfl hx⟩
    rw [he, List.map_append, List.map_cons, hw, runAll_error (by
      intro r hr
      obtain ⟨y, hy, rfl⟩ := List.mem_map.1 hr
      exact hpre y hy)]
    simp [List.flatMap_map, List.flatMap_append, hw, Except.map]

/-- **C103, graph databases whose equations have fewer than 256 bytes and do not start with a null byte**: no token of
an equation is newer than the minimum OS, which is that of one of the tokens or the initial one. -/
theorem C103_gdb_partial (env : OsEnv V) (e : Ent) (hc : e.cls ∈ plotClasses) (p : Plot) (hp : p.Fits e.cls)
    (hb : e.body.bytes = p.bytes) (hq : ∀ q ∈ p.eqs, q.tokens.length < 256 ∧ q.tokens.head? ≠ some 0) : ∃ os ws,
    getMinOs env e [] = (ws, .ok os) ∧
    (∀ q ∈ p.eqs, ∀ t ∈ (decode env.initial env.table q.tokens).out, t.since ≤ os) ∧
    (os = env.initial ∨ ∃ q ∈ p.eqs, ∃ t ∈ (decode env.initial env.table q.tokens).out, os = t.since) := by
  have h : getMinOs env e [] = ((gdbMinOs env e []).1, .ok (gdbMinOs env e []).2) := by
    obtain ⟨c, m, t, n, v, a, ⟨mu, d⟩⟩ := e
    have hc : c ∈ plotClasses := hc
    simp only [plotClasses, List.mem_cons, List.not_mem_nil, or_false] at hc
    rcases hc with rfl | rfl | rfl | rfl | rfl | rfl | rfl | rfl <;> rfl
  obtain ⟨os, ho, hg⟩ : ∃ os, (gdbMinOs env e []).2 = os ∧ Greatest env.initial os
      (p.eqs.map fun q => (decode env.initial env.table (0x00 :: q.tokens)).since) := by
    refine ⟨_, rfl, ?_⟩
    unfold gdbMinOs
    simp only [List.isEmpty_nil, if_true]
    rw [gdbEquations_plot hc hp hb, List.map_map, List.map_map]
    have : (p.eqs.map ((fun r : DecAcc V => r.since) ∘ (fun b => decode env.initial env.table (b.drop 2)) ∘ PlotEq.bytes)) =
        p.eqs.map fun q => (decode env.initial env.table (0x00 :: q.tokens)).since := by
      refine List.map_congr_left fun q h => ?_
      simp only [Function.comp, plotEq_data (hq q h).1]
    simp only [Function.comp_def] at this ⊢
    rw [this]
    exact maxOs_greatest ..
  refine ⟨_, _, h, ?_, ?_⟩
  · intro q hm t ht
    rw [ho]
    exact le_trans ((decode_null_since env.initial env.table (hq q hm).2).1 t ht) (hg.1 _ (List.mem_map.2 ⟨q, hm, rfl⟩))
  · rw [ho]
    rcases hg.2 with h | h
    · obtain ⟨q, hm, rfl⟩ := List.mem_map.1 h
      exact (decode_null_since env.initial env.table (hq q hm).2).2.imp_right fun ⟨t, h1, h2⟩ => ⟨q, hm, t, h1, h2⟩
    · exact .inl h.2

/-- A polar database, one equation having a token that came with a later OS. -/
example :
    let p : Plot := { samplePolar with eqs := ⟨0x23, [0x41, 0xEF, 0x00]⟩ :: samplePolar.eqs.drop 1 }
    getMinOs exOs (plotEntry .polar p) [] = ([.nullBytes], .ok 4) := by decide +kernel

/-- **C103, the other classes**: what is in them does not matter. -/
theorem C103_class (env : OsEnv V) (e : Ent)
    (hc : e.cls ∉ realEntries ++ complexEntries ++ tokenClasses ++ otherClasses) :
    getMinOs env e [] = ([], .ok (classOs env e.cls)) := by
  obtain ⟨c, m, t, n, v, a, ⟨mu, d⟩⟩ := e
  have hc : c ∉ realEntries ++ complexEntries ++ tokenClasses ++ otherClasses := hc
  revert hc
  cases c <;> intro hc <;> first | rfl | exact absurd hc (by decide)

/-! ### C104 – support of models -/

/-- **C104, features**: the models that have each of the eight features. -/
theorem C104_features (m : Model) (k : Nat) (hk : k < 8) : m.has (feature k) = .ok (decide (m ∈ featureModels.getD k [])) := by
  have : ∀ m : Model, ∀ k : Fin 8, m.has (feature k) = .ok (decide (m ∈ featureModels.getD k [])) := by
    intro m; cases m <;> decide +kernel
  exact this m ⟨k, hk⟩

/-- **C104, real numbers**: a number is supported if its minimum OS is older than the latest of the model and, if it
is a radical or a multiple of pi, the model has exact math. -/
theorem C104_real (env : OsEnv V) (e : Ent) (hc : e.cls ∈ realEntries) (hl : e.body.bytes ≠ []) (m : Model) :
    ∃ os, (getMinOs env e []).2 = .ok os ∧ supportedBy env e m =
      ([], .ok (decide (os < env.latest m ∧ (kindByte e.body.bytes ≤ 0x19 ∨ m ∈ exactModels)))) := by
  have hos : ∃ os, getMinOs env e [] = ([], .ok os) := by
    by_cases hu : Unsigned e.body.bytes
    · exact ⟨_, C103_real_partial env e hc hl hu⟩
    · exact ⟨_, C103_real_false env e hc hl hu⟩
  obtain ⟨os, hos⟩ := hos
  refine ⟨os, by rw [hos], ?_⟩
  have hex : m.hasExact = .ok (decide (m ∈ exactModels)) := C104_features m 6 (by decide)
  have hb : supportedBase env e m = ([], .ok (decide (os < env.latest m))) := by
    unfold supportedBase; rw [hos]; rfl
  obtain ⟨c, mm, t, n, v, a, ⟨mu, d⟩⟩ := e
  obtain ⟨x, xs, rfl⟩ := List.exists_cons_of_ne_nil hl
  have hk : kindByte (x :: xs) = x.toNat % 64 := rfl
  have key : supportedBy env ⟨c, mm, t, n, v, a, ⟨mu, x :: xs⟩⟩ m =
      if os < env.latest m then ([], orExact (.ok (x.toNat % 64)) 0x19 m) else ([], .ok false) := by
    unfold supportedBy
    rw [hb]
    simp only [realEntries, List.mem_cons, List.not_mem_nil, or_false] at hc
    by_cases hlt : os < env.latest m
    · simp only [hlt, decide_true, if_true]
      rcases hc with rfl | rfl | rfl | rfl | rfl | rfl | rfl | rfl <;> rfl
    · simp only [hlt, decide_false, if_false]
  rw [key]
  simp only [hk]
  by_cases hlt : os < env.latest m <;> by_cases h19 : x.toNat % 64 ≤ 0x19 <;>
    simp [hlt, h19, orExact, hex]

example : (∀ m ∈ Model.all, supportedBy exOs ⟨.realRadical, [0x0D, 0x00], [0x1C], sampleEnv.unnamed, [0x00], [0x00],
    ⟨true, [0x1C, 0, 0x10, 0, 0, 0, 0, 0, 0]⟩⟩ m = ([], .ok (decide (m ∈ exactModels)))) ∧
    supportedBy exOs ⟨.realFraction, [0x0D, 0x00], [0x18], sampleEnv.unnamed, [0x00], [0x00],
    ⟨true, [0x18, 0x7F, 0x50, 0, 0, 0, 0, 0, 0]⟩⟩ .ti83p = ([], .ok false) := by decide +kernel

/-- **C104, everything but numbers**: an entry is supported if its minimum OS is older than the latest of the model. -/
theorem C104_other (env : OsEnv V) (e : Ent) (hc : e.cls ∉ realEntries ++ complexEntries) (m : Model)
    (os : V) (hos : (getMinOs env e []).2 = .ok os) :
    (supportedBy env e m).2 = .ok (decide (os < env.latest m)) := by
  have hb : supportedBase env e m = ((getMinOs env e []).1, .ok (decide (os < env.latest m))) := by
    unfold supportedBase; rw [hos]; rfl
  unfold supportedBy
  rw [hb]
  by_cases hlt : os < env.latest m
  · simp only [hlt, decide_true]
    by_cases ha : e.cls = .listE ∨ e.cls = .realList ∨ e.cls = .matrix
    · have hv := getVersion_reals env.toEnv ha (m := m)
      rcases ha with h | h | h <;> simp only [h] <;> exact hv
    · by_cases hl : e.cls = .complexList
      · have hv := getVersion_complexes env hl hos (m := m)
        simp only [hl]
        exact hv
      · rcases hcls : e.cls <;> first | rfl | (rw [hcls] at ha hc hl; exfalso; revert ha hc hl; decide)
  · simp only [hlt, decide_false]

/-- **C104 fails for lists and matrices**: the kinds of their numbers are not looked at, so that a list or matrix of
radicals is supported by every model, with exact math or not. -/
theorem C104_list_false (env : OsEnv V) (e : Ent) (hc : e.cls = .realList ∨ e.cls = .matrix) (xs : List Bytes)
    (hd : e.body.bytes.drop 2 = xs.flatten) (hx : ∀ x ∈ xs, x.length = 9 ∧ x.getD 0 0 = 0x1C) (m : Model)
    (hm : env.initial < env.latest m) : (supportedBy env e m).2 = .ok true := by
  have hk : ∀ x ∈ xs, realOs env x = env.initial := by
    intro x h
    unfold realOs kindByte
    rw [(hx x h).2]
    rfl
  obtain ⟨os, hos, hg⟩ := C103_list_partial env e hc xs hd fun x h => ⟨(hx x h).1, by
    unfold Unsigned; rw [(hx x h).2]; decide⟩
  have : os = env.initial := by
    rcases hg.2 with h | h
    · obtain ⟨x, h1, h2⟩ := List.mem_map.1 h
      rw [← h2, hk x h1]
    · exact h.2
  subst this
  rw [C104_other env e (by rcases hc with h | h <;> rw [h] <;> decide) m env.initial (by rw [hos])]
  simp [hm]

/-- **C104, complex numbers without sign and graph bits whose parts are decimals or fractions.** -/
theorem C104_complex_partial (env : OsEnv V) (e : Ent) (hc : e.cls ∈ complexEntries) (hp : PlainComplex e.body.bytes)
    (m : Model) : supportedBy env e m = ([], .ok (decide (complexOs env e.body.bytes < env.latest m))) := by
  have hb : supportedBase env e m = ([], .ok (decide (complexOs env e.body.bytes < env.latest m))) := by
    unfold supportedBase; rw [C103_complex_partial env e hc hp]; rfl
  unfold supportedBy
  rw [hb]
  by_cases hlt : complexOs env e.body.bytes < env.latest m
  · obtain ⟨v, hv, hle⟩ := getVersion_plain env.toEnv hc hp
    simp only [hlt, decide_true]
    simp only [complexEntries, List.mem_cons, List.not_mem_nil, or_false] at hc
    rcases hc with h | h | h | h | h | h <;> simp only [h, hv, orExact, hle, if_true, List.append_nil]
  · simp only [hlt, decide_false]

/-- **C104 fails for the other complex numbers**: asking raises `TypeError`. -/
theorem C104_complex_false (env : OsEnv V) (e : Ent) (hc : e.cls ∈ complexEntries) (hl : 10 ≤ e.body.bytes.length)
    (h : ¬Unsigned e.body.bytes ∨ ¬Unsigned (e.body.bytes.drop 9) ∨
      kindByte e.body.bytes ∈ [0x1C, 0x1D, 0x1E, 0x1F, 0x20, 0x21] ∨
      kindByte (e.body.bytes.drop 9) ∈ [0x1C, 0x1D, 0x1E, 0x1F, 0x20, 0x21]) (m : Model) :
    supportedBy env e m = ([], .error .typeError) := by
  unfold supportedBy supportedBase
  rw [C103_complex_false env e hc hl h]
  rfl

/-- **C104, lists of complex numbers of these kinds**: the greatest of the elements is to be older than the latest of the
model. -/
theorem C104_complex_list_partial (env : OsEnv V) (e : Ent) (hc : e.cls = .complexList) (xs : List Bytes)
    (hd : e.body.bytes.drop 2 = xs.flatten) (hx : ∀ x ∈ xs, x.length = 18 ∧ PlainComplex x) (m : Model) :
    (supportedBy env e m).2 =
      .ok (decide ((∀ x ∈ xs, complexOs env x < env.latest m) ∧ (xs = [] → env.initial < env.latest m))) := by
  obtain ⟨os, hos, h1, h2⟩ := C103_complex_list_partial env e hc xs hd hx
  rw [C104_other env e (by rw [hc]; decide) m os (by rw [hos])]
  congr 1
  refine decide_eq_decide.2 ⟨fun h => ⟨fun x hm => lt_of_le_of_lt (h1 _ (List.mem_map.2 ⟨x, hm, rfl⟩)) h, ?_⟩, ?_⟩
  · rintro rfl
    rcases h2 with h2 | h2
    · simp at h2
    · rw [← h2.2]; exact h
  · rintro ⟨h3, h4⟩
    rcases h2 with h2 | h2
    · obtain ⟨x, hm, rfl⟩ := List.mem_map.1 h2
      exact h3 x hm
    · rw [h2.2]
      exact h4 (by simpa using h2.1)

/-- **C104 fails for the other lists of complex numbers**: asking raises `TypeError` as soon as one element has a sign
bit. -/
theorem C104_complex_list_false (env : OsEnv V) (e : Ent) (hc : e.cls = .complexList) (xs : List Bytes)
    (hd : e.body.bytes.drop 2 = xs.flatten) (hx : ∀ x ∈ xs, x.length = 18)
    (h : ∃ x ∈ xs, ¬Unsigned x ∨ ¬Unsigned (x.drop 9)) (m : Model) :
    supportedBy env e m = ([], .error .typeError) := by
  unfold supportedBy supportedBase
  rw [C103_complex_list_false env e hc xs hd hx h]
  rfl

/-- The list of 1/2+1i is supported by the TI-84+CE, not by the TI-83+; that of -1+2i raises. -/
example :
    let l (d : Bytes) : Ent := ⟨.complexList, [0x0D, 0x00], [0x0D], sampleEnv.unnamed, [0x00], [0x00], ⟨true, [1, 0] ++ d⟩⟩
    supportedBy exOs (l [0x1B, 0x7F, 0x50, 0, 0, 0, 0, 0, 0, 0x0C, 0x80, 0x10, 0, 0, 0, 0, 0, 0]) .ti84pce = ([], .ok true) ∧
    supportedBy exOs (l [0x1B, 0x7F, 0x50, 0, 0, 0, 0, 0, 0, 0x0C, 0x80, 0x10, 0, 0, 0, 0, 0, 0]) .ti83p = ([], .ok false) ∧
    supportedBy exOs (l [0x8C, 0x80, 0x10, 0, 0, 0, 0, 0, 0, 0x0C, 0x80, 0x20, 0, 0, 0, 0, 0, 0]) .ti84pce =
      ([], .error .typeError) := by decide +kernel

/-- **C104, vars**: a var is supported by a model if its header is for that model and the minimum OS of every entry is
older than the latest of the model. -/
theorem C104_var (env : OsEnv V) (v : Var) (model : Option Model) (m : Model) (hm : model.or v.model = some m)
    (ts : List Model) (ht : v.hdr.targets = .ok ts) (oss : List V)
    (ho : List.Forall₂ (fun e os => (getMinOs env e []).2 = .ok os) v.entries oss) :
    (v.supportedBy env model).2 = .ok (decide (m ∈ ts ∧ ∀ os ∈ oss, os < env.latest m)) := by
  unfold Var.supportedBy
  rw [hm]
  simp only [ht]
  by_cases hmem : m ∈ ts
  · simp only [hmem, if_true, true_and]
    rw [allBelow_eq env m ho]
  · simp [hmem]

/-- **C104, vars, and their entries**: unless an entry is a radical or a multiple of pi, this is so if and only if the
header is for the model and every entry is supported by it. -/
theorem C104_var_partial (env : OsEnv V) (v : Var) (model : Option Model) (m : Model) (hm : model.or v.model = some m)
    (ts : List Model) (ht : v.hdr.targets = .ok ts)
    (ho : ∀ e ∈ v.entries, ∃ os, (getMinOs env e []).2 = .ok os)
    (he : ∀ e ∈ v.entries, (e.cls ∈ realEntries ∧ e.body.bytes ≠ [] ∧ kindByte e.body.bytes ≤ 0x19) ∨
      (e.cls ∈ complexEntries ∧ PlainComplex e.body.bytes) ∨
      e.cls ∉ realEntries ++ complexEntries) :
    (v.supportedBy env model).2 = .ok true ↔
      m ∈ ts ∧ ∀ e ∈ v.entries, (supportedBy env e m).2 = .ok true := by
  have key : ∀ e ∈ v.entries, ∀ os, (getMinOs env e []).2 = .ok os →
      (supportedBy env e m).2 = .ok (decide (os < env.latest m)) := by
    intro e hmem os hos
    rcases he e hmem with ⟨h1, h2, h3⟩ | ⟨h1, h2⟩ | h1
    · obtain ⟨os', hos', hs⟩ := C104_real env e h1 h2 m
      rw [hos] at hos'
      cases hos'
      rw [hs]
      simp [h3]
    · rw [C104_complex_partial env e h1 h2 m]
      rw [C103_complex_partial env e h1 h2] at hos
      cases hos
      rfl
    · exact C104_other env e h1 m os hos
  obtain ⟨oss, hoss⟩ := forall₂_of_exists ho
  rw [C104_var env v model m hm ts ht oss hoss]
  simp only [Except.ok.injEq, decide_eq_true_eq]
  refine and_congr_right fun _ => ?_
  clear ho he hm ht
  generalize v.entries = es at key hoss
  induction hoss with
  | nil => simp
  | @cons e os es oss hos _ ih =>
    have h1 := key e (List.mem_cons_self ..) os hos
    have h2 := ih fun e he => key e (List.mem_cons_of_mem _ he)
    simp only [List.forall_mem_cons, h2, h1, Except.ok.injEq, decide_eq_true_eq]

/-- **C104 fails for vars with radicals**: a var of a radical is supported by every model its header is for, but its
entry is not if the model has no exact math. -/
theorem C104_var_false (env : OsEnv V) (m : Model) (hm : m ∉ exactModels) (hlt : env.initial < env.latest m) (e : Ent)
    (hc : e.cls ∈ realEntries) (hl : e.body.bytes ≠ []) (hk : e.body.bytes.getD 0 0 = 0x1C) (h : Hdr)
    (ts : List Model) (ht : h.targets = .ok ts) (hmem : m ∈ ts) :
    (Var.supportedBy env ⟨h, [e], none⟩ (some m)).2 = .ok true ∧ supportedBy env e m = ([], .ok false) := by
  have hu : Unsigned e.body.bytes := by unfold Unsigned; rw [hk]; decide
  have hK : kindByte e.body.bytes = 0x1C := by unfold kindByte; rw [hk]; decide
  have hr : realOs env e.body.bytes = env.initial := by unfold realOs; rw [hK]; rfl
  have ho := C103_real_partial env e hc hl hu
  rw [hr] at ho
  refine ⟨?_, ?_⟩
  · rw [C104_var env ⟨h, [e], none⟩ (some m) m rfl ts ht [env.initial] (.cons (by rw [ho]) .nil)]
    simp [hmem, hlt]
  · obtain ⟨os, hos, hs⟩ := C104_real env e hc hl m
    rw [hs, hK]
    simp [hm]

/-- A radical in a var for the TI-84+CE: the var is said to be supported by that model, the entry not. -/
example :
    (Var.supportedBy exOs ⟨⟨"**TI83F*".toList.map fun c => UInt8.ofNat c.toNat, [0x1A, 0x0A], [0x13], []⟩,
      [⟨.realRadical, [0x0D, 0x00], [0x1C], sampleEnv.unnamed, [0x10], [0x00], ⟨true, [0x1C, 0, 0x10, 0, 0, 0, 0, 0, 0]⟩⟩],
      none⟩ (some .ti84pce)) = ([], .ok true) ∧
    supportedBy exOs ⟨.realRadical, [0x0D, 0x00], [0x1C], sampleEnv.unnamed, [0x10], [0x00],
      ⟨true, [0x1C, 0, 0x10, 0, 0, 0, 0, 0, 0]⟩⟩ .ti84pce = ([], .ok false) := by decide +kernel

end Verif
