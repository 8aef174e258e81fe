import Verif.Props.Group
import Verif.Props.ValueFile
import Verif.Props.Entry

/-! C143: groups made of entries, saved in a file, opened again and ungrouped. -/

namespace Verif
open Spec Ent
variable {V : Type} [LinearOrder V]

/-- The group made of entries, in full. -/
theorem group_made (env : Env V) (nm : Bytes) (es : List Ent) (hes : ∀ x ∈ es, Groupable x)
    (hflash : ∀ x ∈ es.head?, x.flashBytes ≠ []) (hn : (es.flatMap groupBytes).length < 65536) :
    ∃ g ws, group env nm es () = ⟨.ok g, (), ws⟩ ∧ Making g (es.flatMap groupBytes) ∧ g.name = nm ∧ g.typeId = [0x17] := by
  have h0 : Making ⟨.group, [0x0D, 0x00], [0x17], nm, [0x00], [0x80], ⟨true, [0x00, 0x00]⟩⟩
      (([] : List Ent).flatMap groupBytes) := ⟨rfl, rfl, ⟨_, rfl⟩, rfl, rfl⟩
  rcases es with _ | ⟨x, xs⟩
  · refine ⟨_, [.groupSmall], ?_, h0, rfl, rfl⟩
    unfold group
    simp only [PyM.bind_run, PyM.warn_run, new_group env nm true rfl]
    rfl
  · have hf := hflash x (by simp)
    have hfl : (!x.flashBytes.isEmpty) = true := by
      rcases hb : x.flashBytes with _ | ⟨b, bs⟩
      · exact absurd hb hf
      · rfl
    obtain ⟨g, ws, hr, hm, hnm, ht⟩ := addEntries_ok env [] (x :: xs) (by simp) hes h0 (by simpa using hn)
    refine ⟨g, (if xs = [] then [.groupSmall] else []) ++ ws, ?_, hm, hnm, ht⟩
    unfold group
    simp only [PyM.bind_run, PyM.ite_run, new_group env nm _ hfl, hr, PyM.warnAll_run, PyM.ofExcept_run,
      PyM.pure_run, PyM.warn_run]
    by_cases h : xs = [] <;> simp [h]

/-- Taking entries out of a group gives the same content. -/
theorem unpack_same (es : List Ent) : List.Forall₂ SameContent es (es.map fun x => unpack x x.body.bytes) := by
  induction es with
  | nil => exact List.Forall₂.nil
  | cons x xs ih =>
    refine List.Forall₂.cons ⟨rfl, rfl, rfl, ?_, rfl⟩ ih
    simp only [unpack]
    by_cases h : x.archived = [0x00]
    · simp [h]
    · simp [h]

/-- **C143, the part that holds**: a group of entries that can be grouped, saved and opened, ungroups into entries with the same
types, names, versions, archived flags and data, in order; nothing is reported as damaged and no other file is changed. Missing:
groups whose data has between 32766 and 33021 bytes, see `C143_length_false`, and the entries that C62 leaves out. -/
theorem C143_group_partial (env : OsEnv V) (ord : Model → Nat) (nm nm' : Bytes) (hnm : nm.length = 8) (es : List Ent)
    (hes : ∀ x ∈ es, Groupable x) (hflash : ∀ x ∈ es.head?, x.flashBytes ≠ [])
    (hn : (es.flatMap groupBytes).length + 19 < 65536)
    (hl : (es.flatMap groupBytes).length < 32766 ∨ 33021 < (es.flatMap groupBytes).length)
    (name filename : Str) (hdot : '.' ∉ filename) (fs : Files) :
    ∃ g ws, group env.toEnv nm es () = ⟨.ok g, (), ws⟩ ∧
      ∃ fs' ws', g.save env ord name filename none none fs = ⟨.ok (), fs', ws'⟩ ∧
        (∀ n, n ≠ pathOf name filename "8xg".toList → fs' n = fs n) ∧
        ∃ o ws'', openAs env.toEnv .group nm' (pathOf name filename "8xg".toList) fs' = ⟨.ok o, fs', ws''⟩ ∧
          (∀ w ∈ ws'', w ∉ corruption) ∧ o.name = nm ∧ o.version = g.version ∧ o.archived = [0x80] ∧
          ∃ out, ungroup env.toEnv o [] () = ⟨.ok out, (), es.flatMap ungroupWarnings⟩ ∧ List.Forall₂ SameContent es out := by
  obtain ⟨g, ws, hr, hm, hgn, ht⟩ := group_made env.toEnv nm es hes hflash (by omega)
  obtain ⟨v, hv⟩ := hm.version
  have hblen : g.body.bytes.length = (es.flatMap groupBytes).length + 2 := by
    rw [hm.body]; simp only [List.length_append, length_toLE]; omega
  have hw : WF g := ⟨⟨Or.inr hm.metaLen, by rw [ht]; rfl, by rw [hgn]; exact hnm, by rw [hv]; rfl, by rw [hm.archived]; rfl⟩,
    Or.inr hm.archived, fun h => by rw [hm.metaLen] at h; exact absurd h (by decide), by omega⟩
  have hrd : Ready g := ⟨hw, hm.metaLen, by rw [hm.cls, ht]; rfl, by rw [hm.body]⟩
  obtain ⟨fs', ws', h1, h2, ws'', h3, h4, -⟩ := stored_open env ord (e := g) (e' := g) (wc := []) name filename nm' fs hrd rfl rfl rfl rfl rfl
    (by rw [hv]; rfl) hrd.writable (by omega) (by intro h; rw [h] at hblen; simp at hblen)
    (by
      rw [hv, hm.archived, hblen]
      have := v.toNat_lt
      have h : fromLE ([v] ++ [0x80]) = v.toNat + 32768 := by simp [fromLE]
      rw [h]
      omega)
    (by rw [hm.cls]; decide) (coerce_plain env.toEnv (by rw [hm.cls]; rfl)) (by simp) hdot
  have hx : (Cls.extensions .group).1 = "8xg".toList := rfl
  rw [hm.cls, hx] at h2 h3
  have hpk : ∀ y ∈ es, ∃ t v a, Packable y t v a := fun y hy => groupable_packable (hes y hy)
  have hu := ungroup_ok env.toEnv es hpk hm.flash [] (by rw [if_pos rfl, hm.data])
  exact ⟨g, ws, hr, fs', ws', h1, h2, g, ws'', h3, h4, hgn, rfl, hm.archived, _, hu, unpack_same es⟩

/-- What comes out of a group of the entries that is saved and opened. -/
def refile (es : List Ent) : Option (List (Bytes × Bytes × Bytes)) :=
  match (group exOs.toEnv [0x47, 0x31, 0, 0, 0, 0, 0, 0] es ()).res with
  | .error _ => none
  | .ok g =>
    match (openAs exOs.toEnv .group [] "G1.8xg".toList
        (g.save exOs (fun _ => 0) "G1".toList [] none none (fun _ => none)).st).res with
    | .error _ => none
    | .ok o =>
      match (ungroup exOs.toEnv o [] ()).res with
      | .error _ => none
      | .ok out => some (out.map fun x => (x.typeId, x.name, x.body.bytes))

example : refile [sampleProgram,
      ⟨.real, [0x0D, 0x00], [0x00], [0x42, 0, 0, 0, 0, 0, 0, 0], [0x00], [0x00], ⟨true, [0x00, 0x80, 0x31, 0x41, 0x50, 0, 0, 0, 0]⟩⟩,
      ⟨.string, [0x0B, 0x00], [0x04], [0xAA, 0x00, 0, 0, 0, 0, 0, 0], [0x00], [0x00], ⟨true, [0x01, 0x00, 0x41]⟩⟩] =
    some [([0x05], [0x41, 0, 0, 0, 0, 0, 0, 0], [0x03, 0x00, 0x41, 0x3F, 0x42]),
      ([0x00], [0x42, 0, 0, 0, 0, 0, 0, 0], [0x00, 0x80, 0x31, 0x41, 0x50, 0, 0, 0, 0]),
      ([0x04], [0xAA, 0, 0, 0, 0, 0, 0, 0], [0x01, 0x00, 0x41])] := by
  decide +kernel

/-- Storing data that ungroups into entries of version zero. -/
theorem Ent.Making.setData_zero {env : Env V} {g : Ent} {d value : Bytes} (h : Making g d) (hn : value.length < 65536)
    {x : Ent} {ws : List Warn} (hu : ∀ g' : Ent, g'.flashBytes ≠ [] → ungroup env g' value () = ⟨.ok [x], (), ws⟩)
    (hv : ∀ fuel, getVersionN env (fuel + 1) x [] = ([], .ok 0)) (hne : value ≠ []) :
    ∃ g' ws, Ent.setData (getVersion env) value g = ⟨.ok (), g', ws⟩ ∧ Making g' value ∧ g'.name = g.name ∧
      g'.typeId = g.typeId ∧ g'.version = [0x00] := by
  have hgv : ∃ ws, getVersion env { g with body := ⟨true, toLE 2 value.length ++ (toLE 2 d.length ++ d).drop 2⟩ } value =
      (ws, .ok 0) := by
    obtain ⟨k, hk⟩ : ∃ k, (toLE 2 value.length ++ (toLE 2 d.length ++ d).drop 2).length + value.length = k + 1 := by
      refine ⟨(toLE 2 value.length ++ (toLE 2 d.length ++ d).drop 2).length + value.length - 1, ?_⟩
      have : 0 < value.length := List.length_pos_of_ne_nil hne
      omega
    have h1 := hu { g with body := ⟨true, toLE 2 value.length ++ (toLE 2 d.length ++ d).drop 2⟩ } h.flash
    have h2 : ({ g with body := ⟨true, toLE 2 value.length ++ (toLE 2 d.length ++ d).drop 2⟩ } : Ent).cls = .group := h.cls
    have hs : mapE Prod.snd ([x].map fun x => getVersionN env (k + 1) x []) = .ok [0] := by
      simp only [List.map_cons, List.map_nil, hv k]; rfl
    unfold getVersion
    simp only [hk]
    generalize ({ g with body := ⟨true, toLE 2 value.length ++ (toLE 2 d.length ++ d).drop 2⟩ } : Ent) = g' at h1 h2 ⊢
    unfold getVersionN
    rw [h2]
    simp only [h1, hs]
    exact ⟨_, rfl⟩
  obtain ⟨ws', hgv⟩ := hgv
  have hrun := setData_ok (e := g) (by rw [h.cls]; decide) (by rw [h.cls]; decide) (by rw [h.cls]; decide) h.body
    (by rw [List.length_append, length_toLE]; omega) hn hgv
  exact ⟨_, _, hrun, ⟨h.cls, h.metaLen, ⟨_, rfl⟩, h.archived, rfl⟩, rfl, rfl, rfl⟩

/-- An AppVar of 32756 null bytes. -/
def bigAppVar : Ent :=
  ⟨.appVar, [0x0D, 0x00], [0x15], [0x41, 0, 0, 0, 0, 0, 0, 0], [0x00], [0x00],
    ⟨true, toLE 2 32756 ++ List.replicate 32756 0x00⟩⟩

theorem bigAppVar_groupable : Groupable bigAppVar :=
  .long _ 0x15 0x00 0x00 (by decide) (by decide) rfl rfl rfl rfl (by decide)
    ⟨List.replicate 32756 0x00, by rw [List.length_replicate]; decide, by rw [List.length_replicate]; rfl⟩

/-- **C143 is false** of a group that is archived, as all are, and has 32766 bytes of data, or as many more as its version says:
version and archived flag are taken for the length. A group of one AppVar of 32756 bytes can be made and saved, but what is loaded
is shifted by two bytes; its data begins with the length instead of a type. -/
theorem C143_length_false (env : Env V) (nm : Bytes) (hnm : nm.length = 8) (e₀ : Ent) (h₀ : e₀.cls = .group) :
    ∃ g ws, group env nm [bigAppVar] () = ⟨.ok g, (), ws⟩ ∧ g.data = groupBytes bigAppVar ∧ g.data.take 1 = [0x15] ∧
      ∃ b o ws', g.bytes = .ok b ∧ load env b e₀ = ⟨.ok (), o, ws'⟩ ∧ .flashMissing ∈ ws' ∧
        o.data = (toLE 2 32766 ++ groupBytes bigAppVar).take 32766 ∧ o.data ≠ g.data := by
  obtain ⟨t, v, a, hp⟩ := groupable_packable bigAppVar_groupable
  have h0 : Making ⟨.group, [0x0D, 0x00], [0x17], nm, [0x00], [0x80], ⟨true, [0x00, 0x00]⟩⟩ [] :=
    ⟨rfl, rfl, ⟨_, rfl⟩, rfl, rfl⟩
  have hgb := groupBytes_eq bigAppVar
  have hne : (bigAppVar.typeId ++ vatRest bigAppVar) ≠ [] := by intro h; cases h
  have hlen : (groupBytes bigAppVar).length = 32766 := by
    rw [hgb]
    have h1 : bigAppVar.typeId.length = 1 := rfl
    have h2 : (vatRest bigAppVar).length = 7 := rfl
    have h3 : bigAppVar.body.bytes.length = 32758 := by
      show (toLE 2 32756 ++ List.replicate 32756 (0x00 : UInt8)).length = _
      rw [List.length_append, length_toLE, List.length_replicate]
    simp only [List.length_append]
    omega
  obtain ⟨g1, w1, hr1, hm1, hn1, ht1, -⟩ := h0.setData_zero (env := env) (value := bigAppVar.typeId ++ vatRest bigAppVar)
    (by decide) (fun g' hf => by simpa using ungroup_value env [] (by simp) hp hf) (fun _ => rfl) hne
  obtain ⟨g2, w2, hr2, hm2, hn2, ht2, hv2⟩ := hm1.setData_zero (env := env) (value := groupBytes bigAppVar)
    (by omega)
    (fun g' hf => by
      simpa using ungroup_ok env [bigAppVar] (by simpa using ⟨t, v, a, hp⟩) hf (groupBytes bigAppVar)
        (by rw [if_neg (by intro h; rw [h] at hlen; simp at hlen)]; simp))
    (fun _ => rfl) (by intro h; rw [h] at hlen; simp at hlen)
  have hb2 : g2.body.bytes = toLE 2 32766 ++ groupBytes bigAppVar := by rw [hm2.body, hlen]
  have hbl : g2.body.bytes.length = 32768 := by rw [hb2, List.length_append, length_toLE, hlen]
  have hw : WF g2 := ⟨⟨Or.inr hm2.metaLen, by rw [ht2, ht1]; rfl, by rw [hn2, hn1]; exact hnm, by rw [hv2]; rfl,
    by rw [hm2.archived]; rfl⟩, Or.inr hm2.archived, fun h => by rw [hm2.metaLen] at h; exact absurd h (by decide), by omega⟩
  obtain ⟨b, o, ws', h1, h2, h3, -, -, -, h7, h8, -, -⟩ := C23_misfire_false env g2 e₀ hw hm2.metaLen
    (by unfold FlashIsLength; rw [hv2, hm2.archived, hbl]; rfl) (by rw [h₀]; rfl)
  have hoc : o.cls = .group := h8.trans h₀
  have hod : o.data = (toLE 2 32766 ++ groupBytes bigAppVar).take 32766 := by
    unfold Ent.data
    rw [hoc, show dataStart .group = 2 by decide, h7, hbl, hv2, hm2.archived, hb2]
    rfl
  have hhead : (groupBytes bigAppVar).take 1 = [0x15] := rfl
  refine ⟨g2, .groupSmall :: (w1 ++ w2), ?_, hm2.data, by rw [hm2.data]; rfl, b, o, ws', h1, h2, h3, hod, ?_⟩
  · have h : addEntries env [bigAppVar] ⟨.group, [0x0D, 0x00], [0x17], nm, [0x00], [0x80], ⟨true, [0x00, 0x00]⟩⟩ =
        ⟨.ok (), g2, w1 ++ w2⟩ := by
      have hr2' := hr2
      rw [hgb, ← List.append_assoc] at hr2'
      unfold addEntries addEntry
      simp only [PyM.bind_run, getTypeId_one hp.typeId, getVersionByte_one hp.version, PyM.ofExcept_run,
        if_neg hp.cls, PyM.get_run, h0.data, vatEntry_eq hp, List.nil_append, hr1, hm1.data, hr2',
        if_neg (show ¬ bigAppVar.getArchived = true by decide)]
      simp [addEntries]
    unfold group
    simp only [PyM.bind_run, PyM.ite_run, new_group env nm (!bigAppVar.flashBytes.isEmpty) rfl, h, PyM.warnAll_run, PyM.ofExcept_run,
      PyM.pure_run, PyM.warn_run]
    simp
  · intro h
    rw [hod, hm2.data] at h
    have := congrArg (List.take 1) h
    rw [hhead, List.take_take] at this
    exact absurd this (by decide)

end Verif
