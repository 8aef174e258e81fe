import Verif.Model.Array
import Verif.Spec.Array
import Verif.Proofs.Assign
import Mathlib.Data.List.Forall2

/-! Lemmas about lists and matrices. -/

namespace Verif
open Spec
namespace Ent

/-! ### Groups of equal length -/

theorem chunksN_flatMap {α β : Type} {n : Nat} (hn : 0 < n) (f : α → List β) (l : List α)
    (h : ∀ x ∈ l, (f x).length = n) (fuel : Nat) (hf : l.length ≤ fuel) :
    chunksN n fuel (l.flatMap f) = l.map f := by
  induction l generalizing fuel with
  | nil =>
    cases fuel with
    | zero => rfl
    | succ k => simp [chunksN, hn]
  | cons x xs ih =>
    cases fuel with
    | zero => simp at hf
    | succ k =>
      have hx := h x (by simp)
      unfold chunksN
      rw [if_neg (by omega), if_neg (by simp only [List.flatMap_cons, List.length_append]; omega)]
      rw [List.flatMap_cons, List.take_left' hx, List.drop_left' hx,
        ih (fun y hy => h y (by simp [hy])) k (by simp at hf; omega)]
      rfl

theorem length_flatMap_const {α β : Type} {n : Nat} (f : α → List β) (l : List α)
    (h : ∀ x ∈ l, (f x).length = n) : (l.flatMap f).length = l.length * n := by
  induction l with
  | nil => simp
  | cons x xs ih =>
    rw [List.flatMap_cons, List.length_append, h x (by simp), ih fun y hy => h y (by simp [hy]),
      List.length_cons, Nat.succ_mul]
    omega

theorem chunks_flatMap {α β : Type} {n : Nat} (hn : 0 < n) (f : α → List β) (l : List α)
    (h : ∀ x ∈ l, (f x).length = n) : chunks n (l.flatMap f) = l.map f := by
  refine chunksN_flatMap hn f l h _ ?_
  rw [length_flatMap_const f l h]
  exact Nat.le_mul_of_pos_right _ hn

theorem mapW_ok {α β : Type} {f : α → PyM Unit β} (g : α → β) (l : List α)
    (h : ∀ a ∈ l, f a () = ⟨.ok (g a), (), []⟩) : mapW f l () = ⟨.ok (l.map g), (), []⟩ := by
  induction l with
  | nil => rfl
  | cons a as ih =>
    simp [mapW, PyM.bind_run, h a (by simp), ih fun b hb => h b (by simp [hb])]

/-! ### Elements -/

section
variable {V : Type} [LinearOrder V] (env : Env V)

theorem getVersion_eq (e : Ent) (d : Bytes) :
    getVersion env e d = getVersionN env (e.body.bytes.length + d.length + 1) e d := rfl

/-- `get_version` of the classes without an override. -/
theorem getVersion_plain {e : Ent} (d : Bytes)
    (h : e.cls ∈ realClasses ∨ e.cls = .realE ∨ e.cls = .graphRealE) :
    getVersion env e d = ([], .ok (e.cls.versions.headD 0)) := by
  rw [getVersion_eq]
  unfold getVersionN
  rcases h with h | h
  · simp only [realClasses, List.mem_cons, List.not_mem_nil, or_false] at h
    rcases h with h | h | h | h | h | h <;> simp [h]
  · rcases h with h | h <;> simp [h]

theorem getVersion_complex {e : Ent} (d : Bytes) (h : e.cls ∈ complexClasses ∨ e.cls = .complexE) :
    getVersion env e d = ([], complexVersion (if d.isEmpty then e.data else d)) := by
  rw [getVersion_eq]
  unfold getVersionN
  rcases h with h | h
  · simp only [complexClasses, List.mem_cons, List.not_mem_nil, or_false] at h
    rcases h with h | h | h | h | h <;> simp [h]
  · simp [h]

theorem subtype_get {e : Ent} (h : 1 ≤ e.body.bytes.length) :
    viewGet subtypeView e = .ok (((e.body.bytes.getD 0 0).toNat % 64 : Nat) : Int) := by
  obtain ⟨b, rest, hb⟩ : ∃ b rest, e.body.bytes = b :: rest := by
    rcases hh : e.body.bytes with _ | ⟨b, rest⟩
    · rw [hh] at h; simp at h
    · exact ⟨b, rest, rfl⟩
  have hs : subtypeView.slice = Slice.nat 0 1 := rfl
  unfold viewGet View.get
  rw [hs, getSlice_nat (by omega) h, hb]
  exact bits6_get b

theorem real_class {c : Cls} (h : c ∈ realClasses) :
    ∃ t, c.typeId = some t ∧ Cls.getType t = some c ∧ Plain c = true ∧ t < 256 ∧ dataStart c = 0 := by
  have : ∀ c ∈ realClasses, ∃ t, c.typeId = some t ∧ Cls.getType t = some c ∧ Plain c = true ∧
      t < 256 ∧ dataStart c = 0 := by
    intro c hc
    simp only [realClasses, List.mem_cons, List.not_mem_nil, or_false] at hc
    rcases hc with rfl | rfl | rfl | rfl | rfl | rfl <;> exact ⟨_, rfl, rfl, rfl, by decide, by decide⟩
  exact this c h

theorem complex_class {c : Cls} (h : c ∈ complexClasses) :
    ∃ t, c.typeId = some t ∧ Cls.getType t = some c ∧ t < 256 ∧ dataStart c = 0 := by
  simp only [complexClasses, List.mem_cons, List.not_mem_nil, or_false] at h
  rcases h with rfl | rfl | rfl | rfl | rfl <;> exact ⟨_, rfl, rfl, by decide, by decide⟩

/-- Assigning data to an entry that is not sized. -/
theorem assignData_unsized {e : Ent} {d d₀ : Bytes} {ws : List Warn} {v : Nat}
    (hp : plainData e.cls = false) (hz : e.cls.isSized = false) (hs : dataStart e.cls = 0)
    (hb : e.body = ⟨true, d₀⟩) (hm : e.metaLength ≠ 11) (hg : getVersion env e d = (ws, .ok v)) :
    assignData env d e =
      ⟨.ok (), { e with version := [UInt8.ofNat v], body := ⟨true, d⟩ }, ws⟩ := by
  have hdp := dataPut_ok (e := { e with version := [UInt8.ofNat v] }) (value := d) (d := d₀) hb
    (by simp [hs]) e.cls rfl
  rw [hs] at hdp
  have hu : setData (getVersion env) d e =
      ⟨.ok (), { e with version := [UInt8.ofNat v], body := ⟨true, d⟩ }, ws⟩ := by
    unfold setData
    rw [PyM.bind_run, PyM.get_run]
    simp only [hz, Bool.false_eq_true, if_false, PyM.bind_run, updateVersion_ok hg, hdp]
    simp [hm]
  unfold assignData
  rw [PyM.bind_run, PyM.get_run]
  simp only [hp, Bool.false_eq_true, if_false, hu, List.nil_append]

/-- The constructor of a class that is no colour graph database. -/
theorem new_run {c : Cls} {a : NewArgs} {d : Bytes} {load : PyM Ent Unit} {e e' : Ent} {ws : List Warn}
    (hg : c.isSub .gdb = false) (hb : newBase c a = .ok e) (hr : newRest env a d load e = ⟨.ok (), e', ws⟩) :
    (new env c a d load) () = ⟨.ok e', (), ws⟩ := by
  simp [new, newInit, hb, PyM.bind_run, hr, hg]

/-- Making an entry from data. -/
theorem new_ok {c : Cls} {nm d : Bytes} {e1 e2 : Ent} {w1 w2 w3 : List Warn} {v : Nat}
    (hsub : c.isSub .gdb = false) (hd : d ≠ [])
    (h1 : assignData env d ⟨c, [0x0D, 0x00], [UInt8.ofNat (c.typeId.getD 0xFF)], nm, [0], [0],
      ⟨true, clearFull c⟩⟩ = ⟨.ok (), e1, w1⟩)
    (h2 : coerce env e1 = ⟨.ok (), e2, w2⟩) (hm : e2.metaLength ≠ 11)
    (h3 : getVersion env e2 [] = (w3, .ok v)) :
    (new env c { name := nm, forFlash := true } d) () =
      ⟨.ok { e2 with version := [UInt8.ofNat v] }, (), w1 ++ (w2 ++ w3)⟩ := by
  have hv : UInt8.ofNat ((v : Int) % 256).toNat = UInt8.ofNat v := by
    apply UInt8.toNat_inj.1; simp; omega
  have hrest : newRest env { name := nm, forFlash := true } d (pure ())
      ⟨c, [0x0D, 0x00], [UInt8.ofNat (c.typeId.getD 0xFF)], nm, [0], [0], ⟨true, []⟩⟩ =
      ⟨.ok (), { e2 with version := [UInt8.ofNat v] }, w1 ++ (w2 ++ w3)⟩ := by
    simp only [newRest, PyM.bind_run, PyM.modify_run, hd, ne_eq, not_false_eq_true, if_true, h1, h2,
      PyM.get_run, h3, PyM.warnAll_run, PyM.ofExcept_run, setVersion_run, hv]
    simp [hm]
  have hbase : newBase c { name := nm, forFlash := true } =
      .ok ⟨c, [0x0D, 0x00], [UInt8.ofNat (c.typeId.getD 0xFF)], nm, [0], [0], ⟨true, []⟩⟩ := rfl
  exact new_run env hsub hbase hrest

/-- Without flash bytes the constructor fails. -/
theorem new_flashless (c : Cls) (a : NewArgs) (h : a.forFlash = false) (d : Bytes) (load : PyM Ent Unit) :
    (new env c a d load) () = ⟨.error .attributeError, (), []⟩ := by
  simp [new, newBase, initMeta, h]

/-- Making a real number from its nine bytes, through either base class. -/
theorem new_real' (nm : Bytes) {c₀ : Cls} (h0 : c₀ = .realE ∨ c₀ = .graphRealE) {c : Cls} (hc : c ∈ realClasses) {d : Bytes} (hd : d.length = 9)
    (ht : c.typeId = some ((d.getD 0 0).toNat % 64)) :
    (new env c₀ { name := nm, forFlash := true } d) () =
      ⟨.ok ⟨c, [0x0D, 0x00], [UInt8.ofNat ((d.getD 0 0).toNat % 64)], nm,
        [UInt8.ofNat (c.versions.headD 0)], [0x00], ⟨true, d⟩⟩, (), []⟩ := by
  obtain ⟨t, ht1, ht2, hp, ht3, hds⟩ := real_class hc
  have htt : t = (d.getD 0 0).toNat % 64 := Option.some.inj (ht1.symm.trans ht)
  subst htt
  obtain ⟨t, htdef⟩ : ∃ t, t = (d.getD 0 0).toNat % 64 := ⟨_, rfl⟩
  rw [← htdef] at ht1 ht2 ht3 ⊢
  have hne : d ≠ [] := by rintro rfl; simp at hd
  have hset := assignData_unsized env (e := ⟨c₀, [0x0D, 0x00], [0xFF], nm, [0], [0],
    ⟨true, clearFull c₀⟩⟩) (d := d) (by rcases h0 with rfl | rfl <;> rfl)
    (by rcases h0 with rfl | rfl <;> rfl) (by rcases h0 with rfl | rfl <;> rfl) rfl
    (by simp [metaLength, fromLE]) (getVersion_plain env d (Or.inr h0))
  have hco : coerce env ⟨c₀, [0x0D, 0x00], [0xFF], nm, [0], [0], ⟨true, d⟩⟩ =
      ⟨.ok (), ⟨c, [0x0D, 0x00], [UInt8.ofNat t], nm, [0], [0], ⟨true, d⟩⟩, []⟩ := by
    have hg := subtype_get (e := ⟨c₀, [0x0D, 0x00], [0xFF], nm, [0], [0], ⟨true, d⟩⟩)
      (show 1 ≤ d.length by omega)
    simp only at hg
    rw [← htdef] at hg
    have hid : UInt8.ofNat ((t : Int) % 256).toNat = UInt8.ofNat t := by
      congr 1; omega
    have htn : (UInt8.ofNat t).toNat = t := by simp; omega
    have hplain := coerceTyped_plain env (e := ⟨c, [0x0D, 0x00], [UInt8.ofNat t], nm, [0], [0],
      ⟨true, d⟩⟩) hp
    have hgt : getTypeId ⟨c₀, [0x0D, 0x00], [UInt8.ofNat t], nm, [0], [0], ⟨true, d⟩⟩ = .ok t := by
      rw [getTypeId_one (t := UInt8.ofNat t) rfl, htn]
    rcases h0 with rfl | rfl
    all_goals
      simp only [coerce, PyM.bind_run, PyM.get_run, hg, PyM.ofExcept_run, setTypeId_run, hid,
        coerceById, hgt, ht2, setClass, PyM.modify_run, hplain]
      simp
  rcases h0 with rfl | rfl
  all_goals
    have := new_ok env (by decide) hne hset hco (by simp [metaLength, fromLE]) (getVersion_plain env [] (Or.inl hc))
    simpa using this

/-- Making a real number from its nine bytes. -/
theorem new_real (nm : Bytes) {c : Cls} (hc : c ∈ realClasses) {d : Bytes} (hd : d.length = 9)
    (ht : c.typeId = some ((d.getD 0 0).toNat % 64)) :
    (new env .realE { name := nm, forFlash := true } d) () =
      ⟨.ok ⟨c, [0x0D, 0x00], [UInt8.ofNat ((d.getD 0 0).toNat % 64)], nm,
        [UInt8.ofNat (c.versions.headD 0)], [0x00], ⟨true, d⟩⟩, (), []⟩ :=
  new_real' env nm (Or.inl rfl) hc hd ht

/-- Making a complex number from its eighteen bytes. -/
theorem new_complex (nm : Bytes) {c : Cls} (hc : c ∈ complexClasses) {d : Bytes} (hd : d.length = 18)
    (ht : c.typeId = some ((d.getD 9 0).toNat % 64)) :
    ∃ v, (new env .complexE { name := nm, forFlash := true } d) () =
      ⟨.ok ⟨c, [0x0D, 0x00], [UInt8.ofNat ((d.getD 9 0).toNat % 64)], nm, [v], [0x00], ⟨true, d⟩⟩,
        (), []⟩ := by
  obtain ⟨t, ht1, ht2, ht3, hds⟩ := complex_class hc
  have htt : t = (d.getD 9 0).toNat % 64 := Option.some.inj (ht1.symm.trans ht)
  have hne : d ≠ [] := by rintro rfl; simp at hd
  obtain ⟨v, hv⟩ : ∃ v, complexVersion d = .ok v := by
    unfold complexVersion
    have h0 : 0 < d.length := by omega
    have h9 : 9 < d.length := by omega
    rw [List.getElem?_eq_getElem h0, List.getElem?_eq_getElem h9]
    simp only
    split
    · exact ⟨_, rfl⟩
    · split <;> exact ⟨_, rfl⟩
  have hg1 : getVersion env ⟨.complexE, [0x0D, 0x00], [0xFF], nm, [0], [0],
      ⟨true, clearFull .complexE⟩⟩ d = ([], .ok v) := by
    rw [getVersion_complex env d (Or.inr rfl)]
    simp [hne, hv]
  have hset := assignData_unsized env (e := ⟨.complexE, [0x0D, 0x00], [0xFF], nm, [0], [0],
    ⟨true, clearFull .complexE⟩⟩) (d := d) rfl rfl rfl rfl (by simp [metaLength, fromLE]) hg1
  have hco : coerce env ⟨.complexE, [0x0D, 0x00], [0xFF], nm, [UInt8.ofNat v], [0], ⟨true, d⟩⟩ =
      ⟨.ok (), ⟨c, [0x0D, 0x00], [UInt8.ofNat t], nm, [UInt8.ofNat v], [0], ⟨true, d⟩⟩, []⟩ := by
    have hg := imagSubtype_get (e := ⟨.complexE, [0x0D, 0x00], [0xFF], nm, [UInt8.ofNat v], [0],
      ⟨true, d⟩⟩) (show 10 ≤ d.length by omega)
    have hit : imagType d = t := htt.symm
    rw [hit] at hg
    have hid : UInt8.ofNat ((t : Int) % 256).toNat = UInt8.ofNat t := by
      congr 1; omega
    have htn : (UInt8.ofNat t).toNat = t := by simp; omega
    have hgt : getTypeId ⟨.complexE, [0x0D, 0x00], [UInt8.ofNat t], nm, [UInt8.ofNat v], [0],
        ⟨true, d⟩⟩ = .ok t := by
      rw [getTypeId_one (t := UInt8.ofNat t) rfl, htn]
    simp only [coerce, coerceComplex, PyM.bind_run, PyM.get_run, hg, PyM.ofExcept_run, setTypeId_run,
      hid, hgt, ht2, setClass, PyM.modify_run]
    simp
  have hg2 : getVersion env ⟨c, [0x0D, 0x00], [UInt8.ofNat t], nm, [UInt8.ofNat v], [0], ⟨true, d⟩⟩ [] =
      ([], .ok v) := by
    rw [getVersion_complex env [] (Or.inl hc)]
    simp [data, hds, hv]
  have := new_ok env (by decide) hne hset hco (by simp [metaLength, fromLE]) hg2
  rw [htt] at this
  exact ⟨_, by simpa using this⟩

/-! ### Storing -/

theorem field_put {e : Ent} {a b n : Nat} {d : Bytes} (hab : a ≤ b) (hb : e.body = ⟨true, d⟩)
    (hd : b ≤ d.length) (hn : n < 256 ^ (b - a)) :
    viewPut (fieldView a b) n e =
      ⟨.ok (), { e with body := ⟨true, d.take a ++ toLE (b - a) n ++ d.drop b⟩ }, []⟩ := by
  have hs : (fieldView a b).slice = Slice.nat a b := rfl
  have hl : (fieldView a b).length = some (b - a) := viewLength_nat hab
  refine viewPut_ok ?_
  rw [hb]
  have h1 : setRaw (fieldView a b).conv (fieldView a b).length
      (getSlice d (fieldView a b).slice) (n : Int) () = ⟨.ok (toLE (b - a) n), (), []⟩ := by
    rw [hl]
    refine setRaw_eq (n := b - a) ?_ (length_toLE _ n)
    show (PyM.ofExcept (intToBytesLE (n : Int) (b - a)) : PyM Unit Bytes) () = _
    rw [intToBytesLE_ok hn]
    rfl
  rw [view_put_ok h1, hs, setSlice_nat hab hd]

theorem field_put_overflow {e : Ent} {a b n : Nat} (hab : a ≤ b) (hn : 256 ^ (b - a) ≤ n) :
    viewPut (fieldView a b) n e = ⟨.error .overflowError, e, []⟩ := by
  have hl : (fieldView a b).length = some (b - a) := viewLength_nat hab
  have h1 : setRaw (fieldView a b).conv (fieldView a b).length
      (getSlice e.body.bytes (fieldView a b).slice) (n : Int) () = ⟨.error .overflowError, (), []⟩ := by
    rw [hl]
    unfold setRaw
    rw [PyM.bind_error]
    show (PyM.ofExcept (intToBytesLE (n : Int) (b - a)) : PyM Unit Bytes) () = _
    rw [intToBytesLE_overflow hn]
    rfl
  rw [viewPut_error (b := e.body) (view_put_error (m := e.body.mutable) h1)]

/-- The warnings for a list that is too long. -/
def longList (n : Nat) : List Warn := if 999 < n then [.listLong] else []

theorem setListLength_ok {e : Ent} {n : Nat} {d : Bytes} (hb : e.body = ⟨true, d⟩)
    (hd : 2 ≤ d.length) (hn : n < 65536) : setListLength n e =
      ⟨.ok (), { e with body := ⟨true, toLE 2 n ++ d.drop 2⟩ }, longList n⟩ := by
  have h := field_put (a := 0) (n := n) (by omega) hb hd (by simpa using hn)
  simp only [Nat.sub_zero, List.take_zero, List.nil_append] at h
  unfold setListLength longList
  by_cases h9 : 999 < n
  · simp [PyM.bind_run, h9, h]
  · simp [h9, h]

theorem setListLength_overflow {e : Ent} {n : Nat} (hn : 65536 ≤ n) :
    setListLength n e = ⟨.error .overflowError, e, [.listLong]⟩ := by
  have h := field_put_overflow (e := e) (a := 0) (b := 2) (n := n) (by omega) (by simpa using hn)
  have h9 : n > 999 := by omega
  unfold setListLength
  simp [PyM.bind_run, h9, h]

theorem loadList_ok {e : Ent} {lst : List Ent} {d : Bytes} (hs : dataStart e.cls = 2)
    (hb : e.body = ⟨true, d⟩) (hd : 2 ≤ d.length) (hn : lst.length < 65536) :
    loadList lst e = ⟨.ok (), { e with body := ⟨true, toLE 2 lst.length ++
      lst.flatMap fun x => x.body.bytes⟩ }, longList lst.length⟩ := by
  have h := dataPut_ok (e := { e with body := ⟨true, toLE 2 lst.length ++ d.drop 2⟩ })
    (value := lst.flatMap fun x => x.body.bytes) rfl (by simp [hs]) e.cls rfl
  rw [hs] at h
  simp only [List.take_left' (length_toLE 2 lst.length)] at h
  unfold loadList
  simp only [PyM.bind_run, setListLength_ok hb hd hn, PyM.get_run, h]
  simp

theorem coerceList_invalid {e : Ent} {c : Cls} (h : dataStart e.cls = 2) (hl : 3 ≤ e.body.bytes.length)
    (hc : Cls.getType ((e.body.bytes.getD 2 0).toNat % 32) = some c)
    (h1 : c.isSub .realE = false) (h2 : c.isSub .complexE = false) :
    coerceList e = ⟨.ok (), e, [.listInvalid]⟩ := by
  obtain ⟨l, hd⟩ := data_two h hl
  simp only [coerceList, PyM.bind_run, PyM.get_run, hd, byte0, PyM.ofExcept_run, and_31, hc, h1, h2]
  simp

/-! ### Matrices -/

/-- The warning for a matrix that is too big. -/
def tooBig (b : Bool) : List Warn := if b then [.matrixLimit] else []

theorem setSide_ok {e : Ent} {i n : Nat} {d : Bytes} (hb : e.body = ⟨true, d⟩)
    (hd : i + 1 ≤ d.length) (hn : n < 256) : setSide i n e =
      ⟨.ok (), { e with body := ⟨true, d.take i ++ toLE 1 n ++ d.drop (i + 1)⟩ },
        tooBig (99 < n) ++ tooBig (400 < n * matrixSide (1 - i) e)⟩ := by
  have h := field_put (a := i) (n := n) (by omega) hb hd (by simpa using hn)
  rw [Nat.add_sub_cancel_left] at h
  unfold setSide tooBig
  by_cases h1 : 99 < n <;> by_cases h2 : 400 < n * matrixSide (1 - i) e <;>
    simp [PyM.bind_run, h1, h2, h]

theorem loadMatrix_ok {e : Ent} {rows : List (List Ent)} {w : Nat} {a b : UInt8} {d : Bytes}
    (hc : e.cls = .matrix) (hb : e.body = ⟨true, a :: b :: d⟩) (hw : w < 256)
    (hh : rows.length < 256) (hne : rows ≠ []) (hr : ∀ r ∈ rows, r.length = w) :
    loadMatrix rows e = ⟨.ok (), { e with body := ⟨true, toLE 1 w ++ toLE 1 rows.length ++
        rows.flatMap fun r => r.flatMap fun x => x.body.bytes⟩ },
      tooBig (99 < w) ++ tooBig (400 < w * b.toNat) ++ tooBig (99 < rows.length) ++
        tooBig (400 < rows.length * w)⟩ := by
  have hhead : (rows.headD []).length = w := by
    cases rows with
    | nil => exact absurd rfl hne
    | cons r rs => exact hr r (by simp)
  have hany : rows.any (fun r => r.length != (rows.headD []).length) = false := by
    rw [List.any_eq_false]
    intro r hrm
    simp only [hhead, hr r hrm]
    simp
  have h1 := setSide_ok (e := e) (i := 0) (n := w) (d := a :: b :: d) hb (by simp) hw
  have hside : matrixSide 1 e = b.toNat := by
    unfold matrixSide; rw [hb]; simp [fromLE]
  simp only [List.take_zero, List.nil_append, List.drop_succ_cons, List.drop_zero, Nat.sub_zero,
    hside, Nat.zero_add] at h1
  obtain ⟨u, hu⟩ := length_one (length_toLE 1 w)
  have huw : u.toNat = w := by
    have := fromLE_toLE_of_lt (l := 1) (n := w) (by simpa using hw)
    rw [hu] at this
    simpa [fromLE] using this
  rw [hu] at h1 ⊢
  have h2 := setSide_ok (e := { e with body := ⟨true, [u] ++ b :: d⟩ }) (i := 1)
    (n := rows.length) (d := [u] ++ b :: d) rfl (by simp) hh
  have hside2 : matrixSide 0 { e with body := ⟨true, [u] ++ b :: d⟩ } = w := by
    unfold matrixSide; simp [fromLE, huw]
  simp only [Nat.sub_self, hside2] at h2
  simp only [List.cons_append, List.nil_append, List.take_succ_cons, List.take_zero,
    List.drop_succ_cons, List.drop_zero] at h1 h2
  obtain ⟨z, hz⟩ := length_one (length_toLE 1 rows.length)
  rw [hz] at h2 ⊢
  have h3 := dataPut_ok (e := { e with body := ⟨true, u :: z :: d⟩ })
    (value := rows.flatMap fun r => r.flatMap fun x => x.body.bytes) rfl
    (by simp [dataStart, hc]) e.cls rfl
  have hds : dataStart e.cls = 2 := by rw [hc]; rfl
  rw [hds] at h3
  simp only [List.take_succ_cons, List.take_zero] at h3
  unfold loadMatrix
  rw [hany]
  simp only [Bool.false_eq_true, if_false, PyM.bind_run, hhead, h1, PyM.get_run]
  simp only [List.cons_append, List.nil_append, h2, h3]
  simp [tooBig]

theorem loadMatrix_ragged {e : Ent} {rows : List (List Ent)} {r s : List Ent} (hr : r ∈ rows)
    (hs : s ∈ rows) (h : r.length ≠ s.length) : loadMatrix rows e = ⟨.error .indexError, e, []⟩ := by
  have hany : rows.any (fun r => r.length != (rows.headD []).length) = true := by
    rw [List.any_eq_true]
    by_cases hh : r.length = (rows.headD []).length
    · exact ⟨s, hs, by simp; intro h'; apply h; rw [hh]; simp [h']⟩
    · exact ⟨r, hr, by simpa using hh⟩
  unfold loadMatrix
  rw [hany]
  simp

/-! ### Versions -/

theorem chunksN_length {α : Type} {n fuel : Nat} {d c : List α} (h : c ∈ chunksN n fuel d) :
    c.length = n := by
  induction fuel generalizing d with
  | zero => simp [chunksN] at h
  | succ k ih =>
    unfold chunksN at h
    split at h
    · simp at h
    · split at h
      · simp at h
      · rcases List.mem_cons.1 h with h | h
        · rw [h, List.length_take]; omega
        · exact ih h

theorem mapE_complex {l : List Bytes} (h : ∀ d ∈ l, 10 ≤ d.length) :
    ∃ vs, mapE complexVersion l = .ok vs ∧ ∀ v ∈ vs, v ≤ 0x10 := by
  induction l with
  | nil => exact ⟨[], rfl, by simp⟩
  | cons d ds ih =>
    obtain ⟨vs, hvs, hle⟩ := ih fun x hx => h x (by simp [hx])
    obtain ⟨v, hv, hv2⟩ : ∃ v, complexVersion d = .ok v ∧ v ≤ 0x10 := by
      have hd := h d (by simp)
      unfold complexVersion
      rw [List.getElem?_eq_getElem (show 0 < d.length by omega),
        List.getElem?_eq_getElem (show 9 < d.length by omega)]
      simp only
      split
      · exact ⟨_, rfl, by decide⟩
      · split <;> exact ⟨_, rfl, by decide⟩
    refine ⟨v :: vs, by simp [mapE, hv, hvs], ?_⟩
    intro w hw
    rcases List.mem_cons.1 hw with rfl | hw
    exacts [hv2, hle w hw]

theorem foldl_max_le {l : List Nat} {b : Nat} (h : ∀ v ∈ l, v ≤ b) (a : Nat) (ha : a ≤ b) :
    l.foldl max a ≤ b := by
  induction l generalizing a with
  | nil => exact ha
  | cons x xs ih =>
    exact ih (fun v hv => h v (by simp [hv])) _ (Nat.max_le.2 ⟨ha, h x (by simp)⟩)

/-- Whatever a list or matrix contains, its version is zero. -/
theorem arrayGetVersion_zero (c : Cls) (d : Bytes) : arrayGetVersion c d = .ok 0 := by
  have key : ∀ {l : List Nat}, (∀ v ∈ l, v ≤ 0x10) → arrayVersion (maxVersion l) = 0 := by
    intro l h
    have := foldl_max_le h 0 (by omega)
    unfold arrayVersion maxVersion
    rw [if_neg (by omega), if_neg (by omega)]
  unfold arrayGetVersion
  split
  · obtain ⟨vs, hvs, hle⟩ := mapE_complex (l := chunks 18 d)
      fun x hx => by have := chunksN_length hx; omega
    rw [hvs]
    simp only [key hle]
  · split
    · rw [key (by simp)]
    · rw [key]
      intro v hv
      simp only [List.mem_map] at hv
      obtain ⟨_, _, rfl⟩ := hv
      decide

end
end Ent
end Verif
