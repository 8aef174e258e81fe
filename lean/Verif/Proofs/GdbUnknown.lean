import Verif.Proofs.GdbFull

/-! Helper lemmas about unknown names in the dictionaries of graph databases. -/

namespace Verif
open Spec
variable {V : Type} [LinearOrder V]

/-- The two runs differ in that the first gives some more warnings. -/
structure Louder {σ α : Type} (o o' : Out σ α) (ws : List Warn) : Prop where
  res : o.res = o'.res
  st : o.st = o'.st
  sub : o'.warns.Sublist o.warns
  perm : ∀ a, o.res = .ok a → o.warns.Perm (o'.warns ++ ws)

theorem Louder.refl {σ α : Type} (o : Out σ α) : Louder o o [] :=
  ⟨rfl, rfl, List.Sublist.refl _, fun _ _ => by simp⟩

theorem Louder.bind {σ α β : Type} {x x' : PyM σ α} {f f' : α → PyM σ β} {s : σ} {u w : List Warn}
    (h : Louder (x s) (x' s) u) (hf : ∀ a, (x' s).res = .ok a → Louder (f a (x' s).st) (f' a (x' s).st) w) :
    Louder ((x >>= f) s) ((x' >>= f') s) (u ++ w) := by
  obtain ⟨h1, h2, h3, h4⟩ := h
  rw [PyM.bind_run, PyM.bind_run]
  generalize x s = o at h1 h2 h3 h4
  generalize x' s = o' at h1 h2 h3 h4 hf
  obtain ⟨r, t, v⟩ := o
  obtain ⟨r', t', v'⟩ := o'
  simp only at h1 h2 h3 h4 hf
  subst h1 h2
  cases r with
  | error e => exact ⟨rfl, rfl, h3, fun a h => by cases h⟩
  | ok a =>
    obtain ⟨g1, g2, g3, g4⟩ := hf a rfl
    refine ⟨g1, g2, h3.append g3, fun b hb => ?_⟩
    have p1 := h4 a rfl
    have p2 := g4 b hb
    refine (p1.append p2).trans ?_
    simp only [List.append_assoc]
    refine List.Perm.append_left _ ?_
    rw [← List.append_assoc, ← List.append_assoc]
    exact List.Perm.append_right _ List.perm_append_comm

/-- The run leaves the class of the entry. -/
def KeepsClass {α : Type} (x : PyM Ent α) : Prop := ∀ e, (x e).st.cls = e.cls

theorem KeepsClass.bind {α β : Type} {x : PyM Ent α} {f : α → PyM Ent β} (h : KeepsClass x) (hf : ∀ a, KeepsClass (f a)) :
    KeepsClass (x >>= f) := by
  intro e
  have hx := h e
  rw [PyM.bind_run]
  generalize x e = o at hx
  obtain ⟨r, t, v⟩ := o
  cases r with
  | error e => exact hx
  | ok a => exact (hf a t).trans hx

namespace Ent

theorem keeps_pure {α : Type} (a : α) : KeepsClass (pure a : PyM Ent α) := fun _ => rfl
theorem keeps_get : KeepsClass (PyM.get : PyM Ent Ent) := fun _ => rfl
theorem keeps_warn (w : Warn) : KeepsClass (PyM.warn w) := fun _ => rfl
theorem keeps_ofExcept {α : Type} (x : Except PyErr α) : KeepsClass (PyM.ofExcept x) := fun _ => rfl
theorem keeps_lift {α : Type} (x : PyM Unit α) : KeepsClass (PyM.lift x) := fun _ => rfl
theorem keeps_viewPut {α : Type} (v : View α) (x : α) : KeepsClass (viewPut v x) := fun _ => rfl

theorem keeps_orFlags (v : View FlagItems) (s : FlagItems) : KeepsClass (orFlags v s) :=
  keeps_get.bind fun _ => (keeps_ofExcept _).bind fun _ => keeps_viewPut _ _

theorem keeps_format (s : Str) : KeepsClass (loadFormat s) := by
  unfold loadFormat
  split
  · exact keeps_orFlags _ _
  · exact keeps_warn _

theorem keeps_setField (num : Ent → Except PyErr (Int × Bool)) (name : Str) (v : Ent) : KeepsClass (setField num name v) := by
  refine keeps_get.bind fun e => ?_
  split
  · exact keeps_viewPut _ _
  · exact keeps_pure _

theorem keeps_number {J : Type} (env : Env V) (nm : Bytes) (io : NumIO J) (kv : Str × J) :
    KeepsClass (loadNumber env nm io kv) := by
  refine keeps_get.bind fun e => ?_
  split
  · exact keeps_warn _
  · exact (keeps_lift _).bind fun _ => (keeps_lift _).bind fun _ => keeps_setField _ _ _

theorem keeps_entry (eq : Str → PyM Unit Ent) (kv : Str × EqDict) : KeepsClass (loadEntry eq kv) := by
  refine keeps_get.bind fun e => ?_
  split
  · exact keeps_warn _
  · exact (keeps_lift _).bind fun _ => keeps_get.bind fun _ => keeps_viewPut _ _

theorem keeps_showExpr (b : Option Bool) : KeepsClass (putShowExpr b) := by
  unfold putShowExpr
  split
  · exact keeps_orFlags _ _
  · exact keeps_pure _

theorem keeps_check {J : Type} (d : GdbDict J) : KeepsClass (checkSequence d) := by
  unfold checkSequence
  split
  · split
    · exact fun _ => rfl
    · exact keeps_warn _
  · exact keeps_pure _

theorem keeps_each {α : Type} {f : α → PyM Ent Unit} (h : ∀ a, KeepsClass (f a)) (l : List α) : KeepsClass (eachM f l) := by
  induction l with
  | nil => exact keeps_pure _
  | cons a l ih => exact (h a).bind fun _ => ih

/-- Leaving out what only warns. -/
theorem each_filter {α : Type} {f : α → PyM Ent Unit} {p : α → Bool} {w : Warn} {c : Cls} (hk : ∀ a, KeepsClass (f a))
    (l : List α) (hw : ∀ a ∈ l, p a = false → ∀ e : Ent, e.cls = c → f a e = ⟨.ok (), e, [w]⟩) (e : Ent) (he : e.cls = c) :
    Louder (eachM f l e) (eachM f (l.filter p) e) (List.replicate (l.countP fun a => !p a) w) := by
  induction l generalizing e with
  | nil => exact Louder.refl _
  | cons a l ih =>
    have ih := ih fun b hb => hw b (List.mem_cons_of_mem _ hb)
    rw [eachM]
    by_cases hp : p a = true
    · rw [List.filter_cons_of_pos hp, List.countP_cons_of_neg (by simp [hp]), eachM]
      have h := Louder.bind (x := f a) (x' := f a) (f := fun _ => eachM f l) (f' := fun _ => eachM f (l.filter p)) (s := e)
        (Louder.refl _) fun _ _ => ih _ ((hk a e).trans he)
      exact h
    · have hp : p a = false := by simpa using hp
      rw [List.filter_cons_of_neg (by simp [hp]), List.countP_cons_of_pos (by simp [hp]),
        PyM.bind_ok (hw a (by simp) hp e he)]
      obtain ⟨g1, g2, g3, g4⟩ := ih e he
      refine ⟨g1, g2, g3.trans (List.sublist_cons_self _ _), fun b hb => ?_⟩
      rw [List.replicate_succ]
      exact ((g4 b hb).cons w).trans List.perm_middle.symm

theorem format_names : modeNames.map Prod.fst = (formatBits.map Prod.fst ++ otherFlags).map String.toList := by decide +kernel

theorem field_names : ∀ c ∈ plotClasses, (graphFields c).map Prod.fst = (fieldNames c).map String.toList := by decide +kernel

theorem curve_names : ∀ c ∈ plotClasses, equationNames c = (curveNames c).map String.toList := by decide +kernel

theorem nameIn_false {names : List String} {s : Str} (h : nameIn names s = false) : s ∉ names.map String.toList := by
  intro hc
  obtain ⟨n, hn, rfl⟩ := List.mem_map.mp hc
  have : nameIn names n.toList = true := List.any_eq_true.mpr ⟨n, hn, by simp⟩
  rw [this] at h
  cases h

theorem lookup_absent {α : Type} {l : List (Str × α)} {s : Str} (h : s ∉ l.map Prod.fst) : l.lookup s = none :=
  List.lookup_eq_none_iff.mpr fun _ hkv => bne_iff_ne.mpr fun hc => h (hc ▸ List.mem_map_of_mem hkv)

theorem format_unknown {s : Str} (h : nameIn (formatBits.map Prod.fst) s = false) (ho : nameIn otherFlags s = false)
    (e : Ent) : loadFormat s e = ⟨.ok (), e, [.gdbFormat]⟩ := by
  have : modeNames.lookup s = none := by
    refine lookup_absent ?_
    rw [format_names, List.map_append, List.mem_append]
    exact fun hc => hc.elim (nameIn_false h) (nameIn_false ho)
  unfold loadFormat
  rw [this]
  rfl

theorem number_unknown {J : Type} (env : Env V) (nm : Bytes) (io : NumIO J) {e : Ent} (hc : e.cls ∈ plotClasses)
    {kv : Str × J} (h : nameIn (fieldNames e.cls) kv.1 = false) :
    loadNumber env nm io kv e = ⟨.ok (), e, [.settingUnknown]⟩ := by
  have : (graphFields e.cls).lookup kv.1 = none := lookup_absent (by rw [field_names _ hc]; exact nameIn_false h)
  unfold loadNumber
  rw [PyM.bind_ok (PyM.get_run _), this]
  rfl

theorem entry_unknown {eq : Str → PyM Unit Ent} {e : Ent} (hc : e.cls ∈ plotClasses) {kv : Str × EqDict}
    (h : nameIn (curveNames e.cls) kv.1 = false) : loadEntry eq kv e = ⟨.ok (), e, [.gdbEquation]⟩ := by
  have : (equationNames e.cls).idxOf? kv.1 = none := by
    rw [List.idxOf?_eq_none_iff, curve_names _ hc]
    exact nameIn_false h
  unfold loadEntry
  rw [PyM.bind_ok (PyM.get_run _), this]
  rfl

/-- Unknown names only add warnings. -/
theorem loadGdbDict_unknown (env : Env V) (nm : Bytes) {J : Type} (io : NumIO J) (eq : Str → PyM Unit Ent) (d : GdbDict J)
    (e : Ent) (hc : e.cls ∈ plotClasses) (hf : ∀ s ∈ d.format, nameIn otherFlags s = false) :
    Louder (loadGdbDict env nm io eq d e) (loadGdbDict env nm io eq (onlyKnown e.cls d) e) (unknownWarns e.cls d) := by
  have hnum : ∀ (l : List (Str × J)) (t : Ent), t.cls = e.cls → Louder (eachM (loadNumber env nm io) l t)
      (eachM (loadNumber env nm io) (l.filter fun kv => nameIn (fieldNames e.cls) kv.1) t)
      (List.replicate (l.countP fun kv => !nameIn (fieldNames e.cls) kv.1) .settingUnknown) := fun l t ht =>
    each_filter (p := fun kv => nameIn (fieldNames e.cls) kv.1) (keeps_number env nm io) l
      (fun a _ hp e' he' => number_unknown env nm io (by rw [he']; exact hc) (by rw [he']; exact hp)) t ht
  have key : Louder (loadGdbDict env nm io eq d e) (loadGdbDict env nm io eq (onlyKnown e.cls d) e)
      ([] ++ ([] ++ (List.replicate (d.format.countP fun s => !nameIn (formatBits.map Prod.fst) s) .gdbFormat ++ ([] ++ ([] ++
        (List.replicate (d.window.countP fun kv => !nameIn (fieldNames e.cls) kv.1) .settingUnknown ++
        (List.replicate (d.settings.countP fun kv => !nameIn (fieldNames e.cls) kv.1) .settingUnknown ++
        (List.replicate (d.equations.countP fun kv => !nameIn (curveNames e.cls) kv.1) .gdbEquation ++ [])))))))) := by
    unfold loadGdbDict
    refine Louder.bind (Louder.refl _) fun _ _ => ?_
    refine Louder.bind (Louder.refl _) fun _ _ => ?_
    generalize hs1 : (PyM.run (PyM.modify _) _ : Out Ent Unit).st = s1
    have h1 : s1.cls = e.cls := by rw [← hs1]; rfl
    refine Louder.bind (each_filter (p := nameIn (formatBits.map Prod.fst)) (c := e.cls) keeps_format _
      (fun a ha hp e' _ => format_unknown hp (hf a ha) e') _ h1) fun _ _ => ?_
    generalize hs2 : (PyM.run (eachM loadFormat _) _ : Out Ent Unit).st = s2
    have h2 : s2.cls = e.cls := by rw [← hs2]; exact (keeps_each keeps_format _ _).trans h1
    refine Louder.bind (Louder.refl _) fun _ _ => ?_
    generalize hs3 : (PyM.run (putShowExpr _) _ : Out Ent Unit).st = s3
    have h3 : s3.cls = e.cls := by rw [← hs3]; exact (keeps_showExpr _ _).trans h2
    refine Louder.bind (Louder.refl _) fun _ _ => ?_
    generalize hs4 : (PyM.run (checkSequence _) _ : Out Ent Unit).st = s4
    have h4 : s4.cls = e.cls := by rw [← hs4]; exact (keeps_check _ _).trans h3
    refine Louder.bind (hnum _ _ h4) fun _ _ => ?_
    generalize hs5 : (PyM.run (eachM (loadNumber env nm io) _) _ : Out Ent Unit).st = s5
    have h5 : s5.cls = e.cls := by rw [← hs5]; exact (keeps_each (keeps_number env nm io) _ _).trans h4
    refine Louder.bind (hnum _ _ h5) fun _ _ => ?_
    generalize hs6 : (PyM.run (eachM (loadNumber env nm io) _) _ : Out Ent Unit).st = s6
    have h6 : s6.cls = e.cls := by rw [← hs6]; exact (keeps_each (keeps_number env nm io) _ _).trans h5
    refine Louder.bind (each_filter (p := fun kv => nameIn (curveNames e.cls) kv.1) (c := e.cls) (keeps_entry eq) _
      (fun a _ hp e' he' => entry_unknown (by rw [he']; exact hc) (by rw [he']; exact hp)) _ h6) fun _ _ => ?_
    exact Louder.refl _
  have hw : ∀ n m k l : Nat, ([] ++ ([] ++ (List.replicate n Warn.gdbFormat ++ ([] ++ ([] ++
      (List.replicate m .settingUnknown ++ (List.replicate k .settingUnknown ++
      (List.replicate l .gdbEquation ++ [])))))))) = List.replicate n .gdbFormat ++ List.replicate (m + k) .settingUnknown ++
        List.replicate l .gdbEquation := by
    intro n m k l
    simp [← List.replicate_append_replicate]
  rw [hw] at key
  unfold unknownWarns
  rw [List.countP_append]
  exact key

end Ent
end Verif
