import Verif.Model.Group
import Verif.Spec.Group
import Verif.Spec.Entry
import Verif.Proofs.Array
import Verif.Proofs.Gdb
import Mathlib.Data.List.Forall2

/-! Lemmas about groups. -/

namespace Verif
open Spec

theorem Stream.read_mid {s : Stream} {n : Nat} {mid post : Bytes} (h : s.rest = mid ++ post)
    (hn : mid.length = n) : ∃ s', s.read n = (mid, s') ∧ s'.rest = post :=
  ⟨(s.read n).2, Prod.ext (Stream.read_rest h hn).1 rfl, (Stream.read_rest h hn).2⟩

theorem Stream.read_nil {s : Stream} {n : Nat} (h : s.rest = []) :
    ∃ s', s.read n = ([], s') ∧ s'.rest = [] := by
  refine ⟨(s.read n).2, Prod.ext ?_ rfl, ?_⟩
  · show (s.data.drop s.pos).take n = []
    rw [show s.data.drop s.pos = s.rest from rfl, h, List.take_nil]
  · show s.data.drop (s.pos + _) = []
    rw [← List.drop_drop, show s.data.drop s.pos = s.rest from rfl, h, List.drop_nil]

namespace Ent
variable {V : Type} [LinearOrder V]

def groupTypes : List UInt8 := longTypes ++ sizedTypes ++ realTypes

def groupCls (t : UInt8) : Cls := (Cls.getType t.toNat).getD .entry

def typeWarn (t : UInt8) : List Warn :=
  if t = 0x07 ∨ t = 0x1A then [.pictureLength] else if t = 0x08 then [.gdbMode] else []

theorem coerced (env : Env V) {t : UInt8} (ht : t ∈ groupTypes) (nm : Bytes) (v a : UInt8) :
    (do setTypeId (t.toNat &&& 63 : Nat); coerce env : PyM Ent Unit)
      ⟨.entry, [0x0D, 0x00], [0xFF], nm, [v], [a], ⟨true, []⟩⟩ =
    ⟨.ok (), ⟨groupCls t, [0x0D, 0x00], [t], nm, [v], [a], ⟨true, []⟩⟩, typeWarn t⟩ := by
  simp only [groupTypes, longTypes, sizedTypes, realTypes, List.mem_append, List.mem_cons, List.not_mem_nil,
    or_false] at ht
  rcases ht with ((rfl | rfl | rfl | rfl) | (rfl | rfl | rfl | rfl | rfl | rfl | rfl | rfl | rfl)) |
    (rfl | rfl | rfl | rfl | rfl | rfl) <;> rfl

/-- The name of an entry in a group. -/
def nameField (t : UInt8) (n : Bytes) : Bytes :=
  if t ∈ longTypes then UInt8.ofNat n.length :: n else n ++ List.replicate (3 - n.length) 0x00

theorem vatName_ok {t : UInt8} (ht : t ∈ groupTypes) (page : UInt8) {n post : Bytes} {s : Stream}
    (hn : n.length ≤ if t ∈ longTypes then 8 else 3)
    (h : s.rest = [0x00, 0x00, page] ++ nameField t n ++ post) :
    ∃ s', vatName t.toNat s () = ⟨.ok (page, if t ∈ longTypes then n else n ++ List.replicate (3 - n.length) 0x00, s'), (), []⟩ ∧
      s'.rest = post := by
  by_cases hl : t ∈ longTypes
  · have ht' : t.toNat = 0x05 ∨ t.toNat = 0x06 ∨ t.toNat = 0x15 ∨ t.toNat = 0x17 :=
      (by decide : ∀ t ∈ longTypes, t.toNat = 0x05 ∨ t.toNat = 0x06 ∨ t.toNat = 0x15 ∨ t.toNat = 0x17) t hl
    rw [if_pos hl] at hn ⊢
    have hlen : (UInt8.ofNat n.length).toNat = n.length := by simp; omega
    rw [nameField, if_pos hl] at h
    obtain ⟨s1, h1, hr1⟩ := Stream.read_mid (s := s) (n := 4) (mid := [0x00, 0x00, page, UInt8.ofNat n.length])
      (post := n ++ post) (by rw [h]; simp) rfl
    obtain ⟨s2, h2, hr2⟩ := Stream.read_mid (n := n.length) hr1 rfl
    refine ⟨s2, ?_, hr2⟩
    unfold vatName
    rw [if_pos ht', h1]
    simp only [List.reverse_cons, List.reverse_nil, List.nil_append, List.cons_append, hlen, PyM.bind_run, PyM.ite_run]
    rw [if_neg (by omega), h2]
    rfl
  · have ht' : ¬ (t.toNat = 0x05 ∨ t.toNat = 0x06 ∨ t.toNat = 0x15 ∨ t.toNat = 0x17) ∧
        ¬ (t.toNat = 0x01 ∨ t.toNat = 0x0D) :=
      (by decide : ∀ t ∈ groupTypes, t ∉ longTypes → ¬ (t.toNat = 0x05 ∨ t.toNat = 0x06 ∨ t.toNat = 0x15 ∨ t.toNat = 0x17) ∧
        ¬ (t.toNat = 0x01 ∨ t.toNat = 0x0D)) t ht hl
    rw [if_neg hl] at hn ⊢
    rw [nameField, if_neg hl] at h
    obtain ⟨s1, h1, hr1⟩ := Stream.read_mid (s := s) (n := 3) (mid := [0x00, 0x00, page])
      (post := (n ++ List.replicate (3 - n.length) 0x00) ++ post) (by rw [h]; simp) rfl
    obtain ⟨s2, h2, hr2⟩ := Stream.read_mid (n := 3) hr1 (by simp; omega)
    refine ⟨s2, ?_, hr2⟩
    unfold vatName
    rw [if_neg ht'.1, if_neg ht'.2, h1]
    simp only [List.reverse_cons, List.reverse_nil, List.nil_append, List.cons_append, h2]
    rfl

/-- The data of an entry that can be read back. -/
def BodyOK (t : UInt8) (d : Bytes) : Prop := if t ∈ realTypes then d.length = 9 else Measured d

theorem groupCls_kind {t : UInt8} (ht : t ∈ groupTypes) : groupCls t ≠ .graphedEquation ∧ groupCls t ≠ .matrix ∧
    (t ∈ realTypes → (groupCls t).isSized = false ∧ (groupCls t).isSub .realE = true) ∧
    (t ∉ realTypes → (groupCls t).isSized = true) :=
  (by decide : ∀ t ∈ groupTypes, groupCls t ≠ .graphedEquation ∧ groupCls t ≠ .matrix ∧
    (t ∈ realTypes → (groupCls t).isSized = false ∧ (groupCls t).isSub .realE = true) ∧
    (t ∉ realTypes → (groupCls t).isSized = true)) t ht

theorem dataSection_ok {t : UInt8} (ht : t ∈ groupTypes) {d post : Bytes} {s : Stream} (hd : BodyOK t d)
    (h : s.rest = d ++ post) :
    ∃ s', dataSection (groupCls t) s = (d, s') ∧ s'.rest = post := by
  obtain ⟨k1, k2, k3, k4⟩ := groupCls_kind ht
  unfold dataSection
  rw [if_neg k1]
  by_cases hr : t ∈ realTypes
  · rw [BodyOK, if_pos hr] at hd
    obtain ⟨s', h1, h2⟩ := Stream.read_mid h hd
    rw [if_neg (by rw [(k3 hr).1]; decide), if_neg k2, if_pos (k3 hr).2, h1]
    exact ⟨s', rfl, h2⟩
  · rw [BodyOK, if_neg hr] at hd
    obtain ⟨b, hb, rfl⟩ := hd
    rw [if_pos (k4 hr)]
    obtain ⟨s1, h1, hr1⟩ := Stream.read_mid (s := s) (n := 2) (mid := toLE 2 b.length) (post := b ++ post)
      (by rw [h, List.append_assoc]) (length_toLE 2 _)
    obtain ⟨s2, h2, hr2⟩ := Stream.read_mid (n := b.length) hr1 rfl
    refine ⟨s2, ?_, hr2⟩
    have hf : fromLE (toLE 2 b.length) = b.length := fromLE_toLE_of_lt (by simpa using hb)
    simp only [h1, hf, h2]

theorem dataSection_nil {t : UInt8} (ht : t ∈ groupTypes) {s : Stream} (h : s.rest = []) :
    ∃ s', dataSection (groupCls t) s = ([], s') ∧ s'.rest = [] := by
  obtain ⟨k1, k2, k3, k4⟩ := groupCls_kind ht
  unfold dataSection
  rw [if_neg k1]
  by_cases hr : t ∈ realTypes
  · obtain ⟨s', h1, h2⟩ := Stream.read_nil (n := 9) h
    rw [if_neg (by rw [(k3 hr).1]; decide), if_neg k2, if_pos (k3 hr).2, h1]
    exact ⟨s', rfl, h2⟩
  · rw [if_pos (k4 hr)]
    obtain ⟨s1, h1, hr1⟩ := Stream.read_nil (n := 2) h
    obtain ⟨s2, h2, hr2⟩ := Stream.read_nil (n := fromLE []) hr1
    refine ⟨s2, ?_, hr2⟩
    simp only [h1, h2]
    rfl

/-- What grouping needs to know of an entry. -/
structure Packable (x : Ent) (t v a : UInt8) : Prop where
  type : t ∈ groupTypes
  typeId : x.typeId = [t]
  version : x.version = [v]
  archived : x.archived = [a]
  name : x.name.length = 8
  short : (nameText x.name).length ≤ if t ∈ longTypes then 8 else 3
  cls : x.cls ≠ .graphedEquation
  body : BodyOK t x.body.bytes

theorem nameText_le (d : Bytes) : (nameText d).length ≤ d.length := by
  have := (List.dropWhile_suffix (l := d.reverse) (fun b => b == 0x00)).length_le
  simpa [nameText] using this

theorem groupable_packable {x : Ent} (h : Groupable x) : ∃ t v a, Packable x t v a := by
  cases h with
  | long _ t v a ht hg h1 h2 h3 hn hc hb =>
    refine ⟨t, v, a, by simp [groupTypes, ht], h1, h2, h3, hn, ?_, hc, ?_⟩
    · rw [if_pos ht, ← hn]; exact nameText_le _
    · rw [BodyOK, if_neg ((by decide : ∀ t ∈ longTypes, t ∉ realTypes) t ht)]; exact hb
  | sized _ t v a ht h1 h2 h3 hn hl hc hb =>
    refine ⟨t, v, a, by simp [groupTypes, ht], h1, h2, h3, hn, ?_, hc, ?_⟩
    · rw [if_neg ((by decide : ∀ t ∈ sizedTypes, t ∉ longTypes) t ht)]; exact hl
    · rw [BodyOK, if_neg ((by decide : ∀ t ∈ sizedTypes, t ∉ realTypes) t ht)]; exact hb
  | real _ t v a ht h1 h2 h3 hn hl hc hb =>
    refine ⟨t, v, a, by simp [groupTypes, ht], h1, h2, h3, hn, ?_, hc, ?_⟩
    · rw [if_neg ((by decide : ∀ t ∈ realTypes, t ∉ longTypes) t ht)]; exact hl
    · rw [BodyOK, if_pos ht]; exact hb
  | group _ v a es h1 h2 h3 hn hc hes hs hb =>
    refine ⟨0x17, v, a, by decide, h1, h2, h3, hn, ?_, hc, ?_⟩
    · rw [if_pos (by decide), ← hn]; exact nameText_le _
    · rw [BodyOK, if_neg (by decide)]; exact ⟨_, hs, hb⟩

def pageOf (x : Ent) : UInt8 := if x.archived = [0x00] then 0x00 else 0x01

/-- What an entry is after taking it out of a group, with the given data. -/
def unpack (x : Ent) (b : Bytes) : Ent :=
  ⟨groupCls (x.typeId.headD 0xFF), [0x0D, 0x00], x.typeId, x.name, x.version,
    [if x.archived = [0x00] then 0x00 else 0x80], ⟨true, b⟩⟩

/-- The part of an entry in a group before its data, after the type. -/
def vatRest (x : Ent) : Bytes :=
  [0x00] ++ x.version ++ [0x00, 0x00, pageOf x] ++ nameField (x.typeId.headD 0xFF) (nameText x.name)

theorem groupBytes_eq (x : Ent) : groupBytes x = x.typeId ++ (vatRest x ++ x.body.bytes) := by
  simp [groupBytes, vatRest, nameField, pageOf]

theorem nameText_pad {d : Bytes} : nameText d ++ List.replicate (d.length - (nameText d).length) 0x00 = d := by
  have h : ∀ l : Bytes, List.replicate (l.length - (l.dropWhile (· == 0x00)).length) 0x00 ++
      l.dropWhile (· == 0x00) = l := by
    intro l
    induction l with
    | nil => rfl
    | cons b bs ih =>
      by_cases hb : b = 0x00
      · rw [List.dropWhile_cons_of_pos (by simp [hb]), List.length_cons]
        have := (List.dropWhile_suffix (l := bs) (fun b => b == 0x00)).length_le
        rw [Nat.succ_sub this, List.replicate_succ, List.cons_append, ih, hb]
      · rw [List.dropWhile_cons_of_neg (by simp [hb])]
        simp
  have := congrArg List.reverse (h d.reverse)
  simp only [List.reverse_append, List.reverse_replicate, List.reverse_reverse, List.length_reverse] at this
  simpa [nameText] using this

theorem ljust_nameText {d : Bytes} (hd : d.length = 8) (k : Nat) (hk : (nameText d).length + k ≤ 8) :
    ljust 8 (nameText d ++ List.replicate k 0x00) = d := by
  conv => rhs; rw [← nameText_pad (d := d)]
  unfold ljust
  rw [List.append_assoc, ← List.replicate_add]
  congr 2
  simp
  omega

theorem ungroupOne_ok (env : Env V) {x : Ent} {t v a : UInt8} (hp : Packable x t v a) {s : Stream}
    {r d post : Bytes} (h : s.rest = vatRest x ++ r)
    (hd : ∀ s' : Stream, s'.rest = r → ∃ s'', dataSection (groupCls t) s' = (d, s'') ∧ s''.rest = post) :
    ∃ s', ungroupOne env true t s () = ⟨.ok (unpack x d, s'), (), typeWarn t⟩ ∧ s'.rest = post := by
  obtain ⟨s1, h1, hr1⟩ := Stream.read_mid (s := s) (n := 2) (mid := [0x00, v])
    (post := [0x00, 0x00, pageOf x] ++ nameField t (nameText x.name) ++ r)
    (by rw [h]; simp [vatRest, hp.version, hp.typeId]) rfl
  obtain ⟨s2, h2, hr2⟩ := vatName_ok hp.type (pageOf x) hp.short hr1
  obtain ⟨s3, h3, hr3⟩ := hd s2 hr2
  have h63 : t.toNat &&& 63 = t.toNat := (by decide : ∀ t ∈ groupTypes, t.toNat &&& 63 = t.toNat) t hp.type
  have hco := coerced env hp.type env.unnamed v (if (pageOf x).toNat > 0 then 0x80 else 0x00)
  rw [h63] at hco
  have hname : ljust 8 (if t ∈ longTypes then nameText x.name else
      nameText x.name ++ List.replicate (3 - (nameText x.name).length) 0x00) = x.name := by
    by_cases hl : t ∈ longTypes
    · rw [if_pos hl]
      have := ljust_nameText hp.name 0 (by have := nameText_le x.name; rw [hp.name] at this; omega)
      simpa using this
    · rw [if_neg hl]
      have := hp.short
      rw [if_neg hl] at this
      exact ljust_nameText hp.name _ (by omega)
  refine ⟨s3, ?_, hr3⟩
  unfold ungroupOne
  simp only [h1]
  simp only [PyM.bind_run, h63, h2, initMeta, PyM.ofExcept_run, if_true, PyM.warnAll_run]
  simp only [PyM.bind_run] at hco
  simp only [hco, h3, if_neg (groupCls_kind hp.type).1, PyM.pure_run, hname]
  have hpage : (if (pageOf x).toNat > 0 then (0x80 : UInt8) else 0x00) =
      if x.archived = [0x00] then 0x00 else 0x80 := by
    unfold pageOf
    by_cases ha : x.archived = [0x00]
    · rw [if_pos ha, if_pos ha]; rfl
    · rw [if_neg ha, if_neg ha]; rfl
  simp [unpack, hp.typeId, hp.version, hpage]

theorem ungroupLoop_end (env : Env V) {fuel : Nat} {s : Stream} (h : s.rest = []) :
    ungroupLoop env true (fuel + 1) s () = ⟨.ok [], (), []⟩ := by
  obtain ⟨s', h1, -⟩ := Stream.read_nil (n := 1) h
  unfold ungroupLoop
  simp only [h1]
  rfl

theorem ungroupLoop_cons (env : Env V) {x : Ent} {t v a : UInt8} (hp : Packable x t v a) {s : Stream}
    {r d post : Bytes} (h : s.rest = x.typeId ++ (vatRest x ++ r)) {fuel : Nat} {out : List Ent} {ws : List Warn}
    (hd : ∀ s' : Stream, s'.rest = r → ∃ s'', dataSection (groupCls t) s' = (d, s'') ∧ s''.rest = post)
    (hn : ∀ s' : Stream, s'.rest = post → ungroupLoop env true fuel s' () = ⟨.ok out, (), ws⟩) :
    ungroupLoop env true (fuel + 1) s () = ⟨.ok (unpack x d :: out), (), typeWarn t ++ ws⟩ := by
  obtain ⟨s1, h1, hr1⟩ := Stream.read_mid (s := s) (n := 1) (mid := [t]) (post := vatRest x ++ r)
    (by rw [h, hp.typeId]) rfl
  obtain ⟨s2, h2, hr2⟩ := ungroupOne_ok env hp hr1 hd
  rw [ungroupLoop]
  simp only [h1]
  simp only [PyM.bind_run, h2, hn s2 hr2, PyM.pure_run]
  simp

theorem ungroupLoop_ok (env : Env V) (es : List Ent) (hes : ∀ x ∈ es, ∃ t v a, Packable x t v a) {s : Stream}
    {post : Bytes} (h : s.rest = es.flatMap groupBytes ++ post) {fuel k : Nat} {out : List Ent} {ws : List Warn}
    (hf : fuel = es.length + k)
    (hn : ∀ s' : Stream, s'.rest = post → ungroupLoop env true k s' () = ⟨.ok out, (), ws⟩) :
    ungroupLoop env true fuel s () =
      ⟨.ok (es.map (fun x => unpack x x.body.bytes) ++ out), (), es.flatMap ungroupWarnings ++ ws⟩ := by
  induction es generalizing s fuel with
  | nil =>
    rw [show fuel = k by simpa using hf]
    exact hn s (by simpa using h)
  | cons x xs ih =>
    obtain ⟨t, v, a, hp⟩ := hes x (by simp)
    have hw : ungroupWarnings x = typeWarn t := by simp [ungroupWarnings, typeWarn, hp.typeId]
    rw [show fuel = (xs.length + k) + 1 by simp at hf; omega]
    rw [ungroupLoop_cons env hp (r := x.body.bytes ++ (xs.flatMap groupBytes ++ post)) (post := xs.flatMap groupBytes ++ post)
      (d := x.body.bytes) (by rw [h]; simp [groupBytes_eq])
      (fun s' hs' => dataSection_ok hp.type hp.body hs')
      (fun s' hs' => ih (fun y hy => hes y (List.mem_cons_of_mem _ hy)) hs' rfl)]
    simp [hw]

/-- A bound that is large enough makes no difference. -/
theorem groupBytes_pos {x : Ent} {t v a : UInt8} (hp : Packable x t v a) :
    7 + x.body.bytes.length ≤ (groupBytes x).length := by
  rw [groupBytes_eq]
  simp [hp.typeId, vatRest, hp.version, nameField]
  split <;> simp <;> omega

theorem length_groupBytes_le (es : List Ent) (hes : ∀ x ∈ es, ∃ t v a, Packable x t v a) :
    es.length ≤ (es.flatMap groupBytes).length := by
  induction es with
  | nil => simp
  | cons x xs ih =>
    obtain ⟨t, v, a, hp⟩ := hes x (by simp)
    have := groupBytes_pos hp
    have := ih (fun y hy => hes y (List.mem_cons_of_mem _ hy))
    rw [List.flatMap_cons, List.length_append, List.length_cons]
    omega

theorem body_lt (es : List Ent) (hes : ∀ x ∈ es, ∃ t v a, Packable x t v a) {x : Ent} (hx : x ∈ es) :
    7 + x.body.bytes.length ≤ (es.flatMap groupBytes).length := by
  induction es with
  | nil => simp at hx
  | cons y ys ih =>
    rw [List.flatMap_cons, List.length_append]
    rcases List.mem_cons.1 hx with rfl | h
    · obtain ⟨t, v, a, hp⟩ := hes x (by simp)
      have := groupBytes_pos hp
      omega
    · have := ih (fun y hy => hes y (List.mem_cons_of_mem _ hy)) h
      omega

/-- Ungrouping the data of a group. -/
theorem ungroup_ok (env : Env V) (es : List Ent) (hes : ∀ x ∈ es, ∃ t v a, Packable x t v a) {g : Ent}
    (hf : g.flashBytes ≠ []) (d : Bytes) (hd : (if d = [] then g.data else d) = es.flatMap groupBytes) :
    ungroup env g d () = ⟨.ok (es.map fun x => unpack x x.body.bytes), (), es.flatMap ungroupWarnings⟩ := by
  have hsrc : (if d.isEmpty then g.data else d) = es.flatMap groupBytes := by
    rw [← hd]; rcases d with _ | ⟨b, bs⟩ <;> rfl
  have hfl : (!g.flashBytes.isEmpty) = true := by
    rcases hb : g.flashBytes with _ | ⟨b, bs⟩
    · exact absurd hb hf
    · rfl
  unfold ungroup
  simp only [hsrc, hfl]
  have hle := length_groupBytes_le es hes
  have := ungroupLoop_ok env es hes (s := Stream.ofBytes (es.flatMap groupBytes)) (post := [])
    (by simp [Stream.rest, Stream.ofBytes]) (fuel := (es.flatMap groupBytes).length + 1)
    (k := (es.flatMap groupBytes).length - es.length + 1) (out := []) (ws := []) (by omega)
    (fun s' hs' => ungroupLoop_end env hs')
  rw [this]
  simp

/-! ### Versions -/

theorem version_leaf (env : Env V) {t : UInt8} (ht : t ∈ groupTypes) (hg : t ≠ 0x17) (e : Ent) (he : e.cls = groupCls t)
    (fuel : Nat) : ∃ ws v, getVersionN env (fuel + 1) e [] = (ws, .ok v) := by
  simp only [groupTypes, longTypes, sizedTypes, realTypes, List.mem_append, List.mem_cons, List.not_mem_nil,
    or_false] at ht
  rcases ht with ((rfl | rfl | rfl | rfl) | (rfl | rfl | rfl | rfl | rfl | rfl | rfl | rfl | rfl)) |
    (rfl | rfl | rfl | rfl | rfl | rfl)
  case inl.inl.inr.inr.inr => exact absurd rfl hg
  all_goals
    have he' := he
    simp only [groupCls] at he'
    unfold getVersionN
    rw [he']
    exact ⟨_, _, rfl⟩

theorem mapE_versions (f : Ent → List Warn × Except PyErr Nat) (l : List Ent)
    (h : ∀ x ∈ l, ∃ ws v, f x = (ws, .ok v)) : ∃ vs, mapE Prod.snd (l.map f) = .ok vs := by
  induction l with
  | nil => exact ⟨[], rfl⟩
  | cons x xs ih =>
    obtain ⟨ws, v, hx⟩ := h x (by simp)
    obtain ⟨vs, hvs⟩ := ih fun y hy => h y (List.mem_cons_of_mem _ hy)
    exact ⟨v :: vs, by simp [mapE, hx, hvs]⟩

theorem version_group (env : Env V) {fuel : Nat} {g : Ent} (hg : g.cls = .group) {d : Bytes} {es : List Ent}
    {ws : List Warn} (hu : ungroup env g d () = ⟨.ok es, (), ws⟩)
    (hv : ∀ x ∈ es, ∃ ws v, getVersionN env fuel x [] = (ws, .ok v)) :
    ∃ ws v, getVersionN env (fuel + 1) g d = (ws, .ok v) := by
  obtain ⟨vs, hvs⟩ := mapE_versions (fun x => getVersionN env fuel x []) es hv
  unfold getVersionN
  rw [hg]
  simp only [hu, hvs]
  exact ⟨_, _, rfl⟩

theorem unpack_flash (x : Ent) (b : Bytes) : (unpack x b).flashBytes ≠ [] := by
  have : (unpack x b).metaLength = 13 := rfl
  simp only [flashBytes, this]
  simp only [unpack]
  rcases x.version with _ | ⟨c, cs⟩
  · simp [getSlice, Slice.bounds, Slice.indices]
    decide
  · simp [getSlice, Slice.bounds, Slice.indices]
    omega

theorem version_empty (env : Env V) {x : Ent} {t v a : UInt8} (hp : Packable x t v a) (fuel : Nat) :
    ∃ ws v, getVersionN env (fuel + 1) (unpack x []) [] = (ws, .ok v) := by
  by_cases hg : t = 0x17
  · refine version_group env (g := unpack x []) (by simp [unpack, hp.typeId, hg, groupCls]; rfl) (es := []) (ws := []) ?_ (by simp)
    have := ungroup_ok env [] (by simp) (unpack_flash x []) [] (by simp [data, unpack])
    simpa using this
  · exact version_leaf env hp.type hg _ (by simp [unpack, hp.typeId]) fuel

theorem version_full (env : Env V) {x : Ent} (hx : Groupable x) {fuel : Nat} (hf : x.body.bytes.length < fuel) :
    ∃ ws v, getVersionN env fuel (unpack x x.body.bytes) [] = (ws, .ok v) := by
  induction hx generalizing fuel with
  | long x t v a ht hg h1 h2 h3 hn hc hb =>
    obtain ⟨k, rfl⟩ : ∃ k, fuel = k + 1 := ⟨fuel - 1, by omega⟩
    exact version_leaf env (by simp [groupTypes, ht]) hg _ (by simp [unpack, h1]) k
  | sized x t v a ht h1 h2 h3 hn hl hc hb =>
    obtain ⟨k, rfl⟩ : ∃ k, fuel = k + 1 := ⟨fuel - 1, by omega⟩
    exact version_leaf env (by simp [groupTypes, ht]) ((by decide : ∀ t ∈ sizedTypes, t ≠ 0x17) t ht) _
      (by simp [unpack, h1]) k
  | real x t v a ht h1 h2 h3 hn hl hc hb =>
    obtain ⟨k, rfl⟩ : ∃ k, fuel = k + 1 := ⟨fuel - 1, by omega⟩
    exact version_leaf env (by simp [groupTypes, ht]) ((by decide : ∀ t ∈ realTypes, t ≠ 0x17) t ht) _
      (by simp [unpack, h1]) k
  | group x v a es h1 h2 h3 hn hc hes hs hb ih =>
    obtain ⟨k, rfl⟩ : ∃ k, fuel = k + 1 := ⟨fuel - 1, by omega⟩
    have hpk : ∀ y ∈ es, ∃ t v a, Packable y t v a := fun y hy => groupable_packable (hes y hy)
    have hcls : (unpack x x.body.bytes).cls = .group := by simp [unpack, h1, groupCls]; rfl
    have hdata : (unpack x x.body.bytes).data = es.flatMap groupBytes := by
      unfold data
      rw [hcls, show dataStart .group = 2 by decide]
      simp only [unpack]
      rw [hb, List.drop_left' (length_toLE 2 _)]
    refine version_group env hcls (ungroup_ok env es hpk (unpack_flash x _) [] (by rw [if_pos rfl, hdata])) ?_
    intro y hy
    obtain ⟨z, hz, rfl⟩ := List.mem_map.1 hy
    have h7 := body_lt es hpk hz
    have : x.body.bytes.length = 2 + (es.flatMap groupBytes).length := by
      rw [hb, List.length_append, length_toLE]
    exact ih z hz (by omega)

/-! ### Grouping -/

theorem vatEntry_eq {x : Ent} {t v a : UInt8} (hp : Packable x t v a) :
    vatEntry x t.toNat v.toNat = x.typeId ++ vatRest x := by
  have hpage : (if x.getArchived then (0x01 : UInt8) else 0x00) = pageOf x := by
    unfold getArchived pageOf
    by_cases h : x.archived = [0x00] <;> simp [h]
  have hlong : (t.toNat = 0x05 ∨ t.toNat = 0x06 ∨ t.toNat = 0x15 ∨ t.toNat = 0x17) ↔ t ∈ longTypes :=
    (by decide : ∀ t ∈ groupTypes, (t.toNat = 0x05 ∨ t.toNat = 0x06 ∨ t.toNat = 0x15 ∨ t.toNat = 0x17) ↔
      t ∈ longTypes) t hp.type
  have hlist : ¬ (t.toNat = 0x01 ∨ t.toNat = 0x0D) :=
    (by decide : ∀ t ∈ groupTypes, ¬ (t.toNat = 0x01 ∨ t.toNat = 0x0D)) t hp.type
  have hstrip : rstripNul x.name = nameText x.name := rfl
  unfold vatEntry vatRest nameField
  rw [hpage, hstrip, if_neg hlist, hp.typeId, hp.version]
  by_cases hl : t ∈ longTypes
  · rw [if_pos (hlong.2 hl)]
    simp [hl]
  · rw [if_neg (fun h => hl (hlong.1 h))]
    simp [hl, ljust]

/-- A group in the making, with the given data. -/
structure Making (g : Ent) (d : Bytes) : Prop where
  cls : g.cls = .group
  metaLen : g.metaLen = [0x0D, 0x00]
  version : ∃ v, g.version = [v]
  archived : g.archived = [0x80]
  body : g.body = ⟨true, toLE 2 d.length ++ d⟩

theorem Making.flash {g : Ent} {d : Bytes} (h : Making g d) : g.flashBytes ≠ [] := by
  obtain ⟨v, hv⟩ := h.version
  have hm : g.metaLength = 13 := by simp [metaLength, h.metaLen, fromLE]
  simp only [flashBytes, hm, hv, h.archived]
  simp [getSlice, Slice.bounds, Slice.indices]

theorem Making.data {g : Ent} {d : Bytes} (h : Making g d) : g.data = d := by
  unfold Ent.data
  rw [h.cls, h.body, show dataStart .group = 2 by decide]
  exact List.drop_left' (length_toLE 2 _)

theorem Making.setData {env : Env V} {g : Ent} {d value : Bytes} (h : Making g d) (hn : value.length < 65536)
    {es : List Ent} {ws : List Warn}
    (hu : ∀ g' : Ent, g'.flashBytes ≠ [] → ungroup env g' value () = ⟨.ok es, (), ws⟩)
    (hv : ∀ x ∈ es, ∀ fuel, value.length < fuel + 1 → ∃ ws v, getVersionN env fuel x [] = (ws, .ok v)) :
    ∃ g' ws, Ent.setData (getVersion env) value g = ⟨.ok (), g', ws⟩ ∧ Making g' value ∧ g'.name = g.name ∧
      g'.typeId = g.typeId := by
  have hgv : ∃ ws v, getVersion env { g with body := ⟨true, toLE 2 value.length ++ (toLE 2 d.length ++ d).drop 2⟩ } value =
      (ws, .ok v) := by
    unfold getVersion
    refine version_group env (g := { g with body := ⟨true, toLE 2 value.length ++ (toLE 2 d.length ++ d).drop 2⟩ })
      h.cls (hu _ ?_) fun x hx => hv x hx _ ?_
    · have := h.flash
      exact this
    · omega
  obtain ⟨ws', v, hgv⟩ := hgv
  have hrun := setData_ok (e := g) (by rw [h.cls]; decide) (by rw [h.cls]; decide) (by rw [h.cls]; decide) h.body
    (by rw [List.length_append, length_toLE]; omega) hn hgv
  exact ⟨_, _, hrun, ⟨h.cls, h.metaLen, ⟨_, rfl⟩, h.archived, rfl⟩, rfl, rfl⟩

theorem ungroup_value (env : Env V) (es : List Ent) (hes : ∀ x ∈ es, ∃ t v a, Packable x t v a) {x : Ent}
    {t v a : UInt8} (hp : Packable x t v a) {g : Ent} (hf : g.flashBytes ≠ []) :
    ungroup env g (es.flatMap groupBytes ++ (x.typeId ++ vatRest x)) () =
      ⟨.ok (es.map (fun x => unpack x x.body.bytes) ++ [unpack x []]), (),
        es.flatMap ungroupWarnings ++ ungroupWarnings x⟩ := by
  obtain ⟨src, hsrc⟩ : ∃ s, s = es.flatMap groupBytes ++ (x.typeId ++ vatRest x) := ⟨_, rfl⟩
  have hfl : (!g.flashBytes.isEmpty) = true := by
    rcases hb : g.flashBytes with _ | ⟨b, bs⟩
    · exact absurd hb hf
    · rfl
  have hw : ungroupWarnings x = typeWarn t := by simp [ungroupWarnings, typeWarn, hp.typeId]
  have hle := length_groupBytes_le es hes
  have hlen : src.length = (es.flatMap groupBytes).length + (1 + (vatRest x).length) := by
    rw [hsrc, List.length_append, List.length_append, hp.typeId]; rfl
  have hne : src.isEmpty = false := by
    rcases src with _ | ⟨b, bs⟩
    · simp at hlen; omega
    · rfl
  rw [← hsrc]
  unfold ungroup
  simp only [hne, hfl]
  rw [if_neg (by decide)]
  refine ungroupLoop_ok env es hes (post := x.typeId ++ vatRest x) (by simp [Stream.rest, Stream.ofBytes, hsrc])
    (k := src.length + 1 - es.length) (by omega) ?_
  intro s hs
  obtain ⟨k, hk⟩ : ∃ k, src.length + 1 - es.length = (k + 1) + 1 := ⟨src.length - es.length - 1, by omega⟩
  rw [hk, ungroupLoop_cons env hp (r := []) (post := []) (d := []) (by rw [hs]; simp)
    (fun s' hs' => dataSection_nil hp.type hs') (fun s' hs' => ungroupLoop_end env hs'), hw]
  simp

theorem addEntry_ok (env : Env V) (es : List Ent) (hes : ∀ x ∈ es, Groupable x) {x : Ent} (hx : Groupable x)
    {g : Ent} (hg : Making g (es.flatMap groupBytes))
    (hn : (es.flatMap groupBytes ++ groupBytes x).length < 65536) :
    ∃ g' ws, addEntry env x g = ⟨.ok (), g', ws⟩ ∧ Making g' ((es ++ [x]).flatMap groupBytes) ∧
      g'.name = g.name ∧ g'.typeId = g.typeId := by
  obtain ⟨t, v, a, hp⟩ := groupable_packable hx
  have hpk : ∀ y ∈ es, ∃ t v a, Packable y t v a := fun y hy => groupable_packable (hes y hy)
  have hpk' : ∀ y ∈ es ++ [x], ∃ t v a, Packable y t v a := by
    intro y hy
    rcases List.mem_append.1 hy with h | h
    · exact hpk y h
    · rw [List.mem_singleton.1 h]; exact ⟨t, v, a, hp⟩
  have hbody := groupBytes_pos hp
  have hgb := groupBytes_eq x
  obtain ⟨g1, w1, hr1, hm1, hn1, ht1⟩ := hg.setData (env := env) (value := es.flatMap groupBytes ++ (x.typeId ++ vatRest x))
    (by rw [hgb] at hn; simp only [List.length_append] at hn ⊢; omega)
    (fun g' hf => ungroup_value env es hpk hp hf)
    (by
      intro y hy fuel hfuel
      simp only [List.length_append, hp.typeId, List.length_cons, List.length_nil] at hfuel
      rcases List.mem_append.1 hy with h | h
      · obtain ⟨z, hz, rfl⟩ := List.mem_map.1 h
        have := body_lt es hpk hz
        exact version_full env (hes z hz) (by omega)
      · rw [List.mem_singleton.1 h]
        obtain ⟨k, rfl⟩ : ∃ k, fuel = k + 1 := ⟨fuel - 1, by omega⟩
        exact version_empty env hp k)
  have hsplit : (es ++ [x]).flatMap groupBytes = es.flatMap groupBytes ++ (x.typeId ++ vatRest x) ++ x.body.bytes := by
    simp [hgb]
  obtain ⟨g2, w2, hr2, hm2, hn2, ht2⟩ := hm1.setData (env := env) (value := (es ++ [x]).flatMap groupBytes)
    (by simpa using hn)
    (fun g' hf => ungroup_ok env (es ++ [x]) hpk' hf _ (by rw [if_neg (by rw [hsplit, hp.typeId]; simp)]))
    (by
      intro y hy fuel hfuel
      obtain ⟨z, hz, rfl⟩ := List.mem_map.1 hy
      have := body_lt (es ++ [x]) hpk' hz
      refine version_full env ?_ (by omega)
      rcases List.mem_append.1 hz with h | h
      · exact hes z h
      · rw [List.mem_singleton.1 h]; exact hx)
  refine ⟨g2, ?_, ?_, hm2, hn2.trans hn1, ht2.trans ht1⟩
  · exact (if x.getArchived then [.groupArchived] else []) ++ (w1 ++ w2)
  · unfold addEntry
    rw [hsplit] at hr2
    simp only [PyM.bind_run, getTypeId_one hp.typeId, getVersionByte_one hp.version, PyM.ofExcept_run, PyM.ite_run,
      PyM.warn_run, if_neg hp.cls, PyM.get_run, hg.data, vatEntry_eq hp, hr1, hm1.data, hr2]
    by_cases h : x.getArchived <;> simp [h]

theorem addEntries_ok (env : Env V) (es todo : List Ent) (hes : ∀ x ∈ es, Groupable x)
    (htodo : ∀ x ∈ todo, Groupable x) {g : Ent} (hg : Making g (es.flatMap groupBytes))
    (hn : ((es ++ todo).flatMap groupBytes).length < 65536) :
    ∃ g' ws, addEntries env todo g = ⟨.ok (), g', ws⟩ ∧ Making g' ((es ++ todo).flatMap groupBytes) ∧
      g'.name = g.name ∧ g'.typeId = g.typeId := by
  induction todo generalizing es g with
  | nil => exact ⟨g, [], rfl, by simpa using hg, rfl, rfl⟩
  | cons x xs ih =>
    obtain ⟨g1, w1, hr1, hm1, hn1, ht1⟩ := addEntry_ok env es hes (htodo x (by simp)) hg
      (by simp only [List.flatMap_append, List.flatMap_cons, List.length_append] at hn ⊢; omega)
    obtain ⟨g2, w2, hr2, hm2, hn2, ht2⟩ := ih (es ++ [x])
      (by
        intro y hy
        rcases List.mem_append.1 hy with h | h
        · exact hes y h
        · rw [List.mem_singleton.1 h]; exact htodo x (by simp))
      (fun y hy => htodo y (List.mem_cons_of_mem _ hy)) hm1 (by simpa using hn)
    refine ⟨g2, w1 ++ w2, ?_, by simpa using hm2, hn2.trans hn1, ht2.trans ht1⟩
    unfold addEntries
    simp only [PyM.bind_run, hr1, hr2]

/-- A new group. -/
theorem new_group (env : Env V) (nm : Bytes) (b : Bool) (hb : b = true) :
    (new env .group { name := nm, forFlash := b, archived := some true } []) () =
      ⟨.ok ⟨.group, [0x0D, 0x00], [0x17], nm, [0x00], [0x80], ⟨true, [0x00, 0x00]⟩⟩, (), []⟩ := by
  subst hb
  have hu := ungroup_ok env [] (by simp) (g := ⟨.group, [0x0D, 0x00], [0x17], nm, [0x00], [0x80], ⟨true, [0x00, 0x00]⟩⟩)
    (by simp [flashBytes, metaLength, fromLE, getSlice, Slice.bounds, Slice.indices]) [] (by rw [if_pos rfl]; rfl)
  have hv : getVersion env ⟨.group, [0x0D, 0x00], [0x17], nm, [0x00], [0x80], ⟨true, [0x00, 0x00]⟩⟩ [] = ([], .ok 0) := by
    unfold getVersion getVersionN
    simp only [hu]
    rfl
  have hrest : newRest env { name := nm, forFlash := true, archived := some true } [] (pure ())
      ⟨.group, [0x0D, 0x00], [0x17], nm, [0x00], [0x80], ⟨true, []⟩⟩ =
      ⟨.ok (), ⟨.group, [0x0D, 0x00], [0x17], nm, [0x00], [0x80], ⟨true, [0x00, 0x00]⟩⟩, []⟩ := by
    have hc : clearFull .group = [0x00, 0x00] := by decide
    simp only [newRest, PyM.bind_run, PyM.modify_run, hc, ne_eq, not_true_eq_false, if_false, if_true, PyM.pure_run,
      PyM.get_run, hv, PyM.warnAll_run, PyM.ofExcept_run, setVersion_run]
    simp [metaLength, fromLE]
  have hbase : newBase .group { name := nm, forFlash := true, archived := some true } =
      .ok ⟨.group, [0x0D, 0x00], [0x17], nm, [0x00], [0x80], ⟨true, []⟩⟩ := rfl
  exact new_run env (by decide) hbase hrest

end Ent
end Verif
