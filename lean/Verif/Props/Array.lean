import Verif.Proofs.Array
import Verif.Spec.Sample

/-! Property theorems about lists and matrices (C50–C53). -/

namespace Verif
open Spec Ent
variable {V : Type} [LinearOrder V]

/-! ### C50 – lists -/

/-- What stands for a number in a list that has been read. -/
theorem fits_new (env : Env V) (nm : Bytes) {c : Cls} {x : Ent} (h : FitsList c x) :
    ∃ y, (new env (elemCls c) { name := nm, forFlash := true } x.body.bytes) () = ⟨.ok y, (), []⟩ ∧
      SameNumber x y := by
  rcases h with ⟨rfl, h1, h2, h3⟩ | ⟨rfl, h1, h2, -, h3⟩
  · exact ⟨_, new_real env nm h1 h2 h3, rfl, rfl⟩
  · obtain ⟨v, hv⟩ := new_complex env nm h1 h2 h3
    exact ⟨_, hv, rfl, rfl⟩

theorem mapW_bytes {f : Bytes → PyM Unit Ent} (lst : List Ent)
    (h : ∀ x ∈ lst, ∃ y, f x.body.bytes () = ⟨.ok y, (), []⟩ ∧ SameNumber x y) :
    ∃ es, mapW f (lst.map fun x => x.body.bytes) () = ⟨.ok es, (), []⟩ ∧
      List.Forall₂ SameNumber lst es := by
  induction lst with
  | nil => exact ⟨[], rfl, .nil⟩
  | cons x xs ih =>
    obtain ⟨y, hy, hs⟩ := h x (by simp)
    obtain ⟨ys, hys, hf⟩ := ih fun z hz => h z (by simp [hz])
    exact ⟨y :: ys, by simp [mapW, PyM.bind_run, hy, hys], .cons hs hf⟩

/-- The widths of the elements of each kind of list. -/
theorem fits_length {c : Cls} {x : Ent} (h : FitsList c x) :
    x.body.bytes.length = (elemCls c).minDataLength ∧ 0 < (elemCls c).minDataLength ∧
      dataStart c = 2 := by
  rcases h with ⟨rfl, h1, h2, h3⟩ | ⟨rfl, h1, h2, -, h3⟩
  · exact ⟨h2, by decide, by decide⟩
  · exact ⟨h2, by decide, by decide⟩

/-- C50, storing: loading fewer than 65536 numbers into a real or complex list stores their count
in the length field and their data in order, changing nothing else; there is a warning above 999. With more the length raises
`OverflowError` and the list is unchanged. -/
theorem C50_list_store (e : Ent) (lst : List Ent) (hc : e.cls = .realList ∨ e.cls = .complexList)
    (hm : e.body.mutable = true) (hb : 2 ≤ e.body.bytes.length) :
    (lst.length < 65536 → ∃ e', loadList lst e =
        ⟨.ok (), e', if 999 < lst.length then [.listLong] else []⟩ ∧
      SameEntry { e with body := e'.body } e' ∧ e'.cls = e.cls ∧ e'.body.mutable = true ∧
      2 ≤ e'.body.bytes.length ∧ fromLE (e'.body.bytes.take 2) = lst.length ∧
      e'.body.bytes.drop 2 = lst.flatMap fun x => x.body.bytes) ∧
    (65536 ≤ lst.length → loadList lst e = ⟨.error .overflowError, e, [.listLong]⟩) := by
  have hs : dataStart e.cls = 2 := by rcases hc with h | h <;> rw [h] <;> decide
  refine ⟨fun hn => ?_, fun hn => ?_⟩
  · refine ⟨_, loadList_ok hs (d := e.body.bytes) (by rw [← hm]) hb hn, ⟨rfl, rfl, rfl, rfl, rfl, rfl⟩, rfl,
      rfl, by simp, ?_, ?_⟩
    · show fromLE ((toLE 2 lst.length ++ _).take 2) = _
      rw [List.take_left' (length_toLE 2 _), fromLE_toLE_of_lt (by simpa using hn)]
    · show (toLE 2 lst.length ++ _).drop 2 = _
      rw [List.drop_left' (length_toLE 2 _)]
  · unfold loadList
    rw [PyM.bind_error (setListLength_overflow hn)]

/-- C50, the part of reading that holds: a list of a flash calculator that holds well-formed numbers
of its kind reads back as the same numbers in order, without warnings. Missing: lists without flash
bytes, for which reading raises (below). -/
theorem C50_list_read_partial (env : Env V) (nm : Bytes) (e : Ent) (lst : List Ent)
    (hf : e.flashBytes ≠ []) (hfit : ∀ x ∈ lst, FitsList e.cls x)
    (hb : e.body.bytes.drop 2 = lst.flatMap fun x => x.body.bytes)
    (hc : e.cls = .realList ∨ e.cls = .complexList) :
    ∃ es, list env nm e () = ⟨.ok es, (), []⟩ ∧ List.Forall₂ SameNumber lst es := by
  have hpos : 0 < (elemCls e.cls).minDataLength := by rcases hc with h | h <;> rw [h] <;> decide
  have hs : dataStart e.cls = 2 := by rcases hc with h | h <;> rw [h] <;> decide
  have hfl : (!e.flashBytes.isEmpty) = true := by simp [hf]
  unfold list data
  rw [hs, hb, hfl, chunks_flatMap hpos _ lst fun x hx => (fits_length (hfit x hx)).1]
  exact mapW_bytes lst fun x hx => fits_new env nm (hfit x hx)

/-- The list `{1, 2/3}` in the name of `L1`. -/
def sampleList : Ent :=
  ⟨.realList, [0x0D, 0x00], [0x01], [0x5D, 0, 0, 0, 0, 0, 0, 0], [0x00], [0x00],
    ⟨true, [0x02, 0x00, 0x00, 0x80, 0x10, 0, 0, 0, 0, 0, 0,
      0x18, 0x7F, 0x66, 0x66, 0x66, 0x66, 0x66, 0x66, 0x67]⟩⟩

example : (list sampleEnv [0x41] sampleList ()).res.toOption.map (fun es => es.map fun x => x.cls) =
      some [.real, .realFraction] ∧
    ((list sampleEnv [0x41] sampleList ()).res.toOption.map fun es =>
      (loadList es { sampleList with body := ⟨true, [0, 0]⟩ }).st) = some sampleList := by
  decide +kernel

/-- C50 is false of lists without flash bytes: reading a list that has an element raises
`AttributeError`, because no number can be made for a flashless calculator. -/
theorem C50_flashless_false (env : Env V) (nm : Bytes) (e : Ent) (hm : e.metaLen = [0x0B, 0x00])
    (hc : e.cls = .realList ∨ e.cls = .complexList)
    (hb : 2 + (if e.cls = .realList then 9 else 18) ≤ e.body.bytes.length) :
    list env nm e () = ⟨.error .attributeError, (), []⟩ := by
  have hfl : (!e.flashBytes.isEmpty) = false := by rw [flashBytes_eleven hm]; rfl
  have hs : dataStart e.cls = 2 := by rcases hc with h | h <;> rw [h] <;> decide
  obtain ⟨a, as, ha⟩ : ∃ a as, chunks (elemCls e.cls).minDataLength e.data = a :: as := by
    have hl : (elemCls e.cls).minDataLength = if e.cls = .realList then 9 else 18 := by
      rcases hc with h | h <;> rw [h] <;> rfl
    have hpos : 0 < (elemCls e.cls).minDataLength := by rw [hl]; split <;> omega
    have hdl : (elemCls e.cls).minDataLength ≤ e.data.length := by
      unfold data; rw [hs, List.length_drop]; omega
    unfold chunks
    obtain ⟨k, hk⟩ : ∃ k, e.data.length = k + 1 := ⟨e.data.length - 1, by omega⟩
    rw [hk]
    unfold chunksN
    rw [if_neg (by omega), if_neg (by omega)]
    exact ⟨_, _, rfl⟩
  unfold list
  rw [ha, hfl]
  unfold mapW
  rw [PyM.bind_error (new_flashless env _ { name := nm, forFlash := false } rfl a _)]

example : list sampleEnv [0x41] { sampleList with metaLen := [0x0B, 0x00] } () =
    ⟨.error .attributeError, (), []⟩ :=
  C50_flashless_false _ _ _ rfl (Or.inl rfl) (by decide)

/-! ### C51 – loading lists -/

/-- With the version that is computed for lists the flash bytes never repeat the data length. -/
theorem list_flash {e : Ent} {n : Nat} (hw : WF e) (hv : e.version = [0x00])
    (hl : e.body.bytes.length = 2 + n * 9) : ¬FlashIsLength e := by
  unfold FlashIsLength
  rw [hv, hl]
  rcases hw.flag with h | h <;> rw [h] <;> simp [fromLE] <;> omega

/-- C51, the part that holds: the bytes of every list with at least one element, loaded into a base entry or
one of its class, give an entry of the same class with the same sections and data. The only warning is one for the first element
being a multiple of π by a fraction, which is not recognised as a number. Missing:
the empty list (below). -/
theorem C51_list_loads_partial (env : Env V) (e : Ent) (lst : List Ent) (hw : WF e)
    (hv : e.version = [0x00]) (ht : e.cls.typeId = some (fromLE e.typeId)) (hne : lst ≠ [])
    (hfit : ∀ x ∈ lst, FitsList e.cls x)
    (hb : e.body.bytes = toLE 2 lst.length ++ lst.flatMap fun x => x.body.bytes)
    (e₀ : Ent) (h₀ : e₀.cls = .entry ∨ e₀.cls = e.cls) :
    ∃ b, e.bytes = .ok b ∧ load env b e₀ =
      ⟨.ok (), { e with body := ⟨true, e.body.bytes⟩ },
        if (lst.head?.map Ent.cls) = some .realPiFraction then [.listInvalid] else []⟩ := by
  obtain ⟨x, xs, rfl⟩ : ∃ x xs, lst = x :: xs := by
    cases lst with
    | nil => exact absurd rfl hne
    | cons x xs => exact ⟨x, xs, rfl⟩
  have hx := hfit x (by simp)
  have hcls : e.cls = .realList ∨ e.cls = .complexList := by
    rcases hx with ⟨h, -⟩ | ⟨h, -⟩ <;> simp [h]
  have hlen : ∃ n, e.body.bytes.length = 2 + n * 9 := by
    rw [hb, List.length_append, length_toLE, length_flatMap_const (n := (elemCls e.cls).minDataLength)
      _ _ fun y hy => (fits_length (hfit y hy)).1]
    rcases hcls with h | h
    · exact ⟨(x :: xs).length, by rw [h]; rfl⟩
    · refine ⟨(x :: xs).length * 2, ?_⟩
      rw [h]
      show _ = 2 + _ * 2 * 9
      have : (elemCls .complexList).minDataLength = 18 := rfl
      rw [this]; omega
  obtain ⟨n, hn⟩ := hlen
  have hflash := list_flash hw hv hn
  have hbytes := bytes_ok (e := e) hw.length
  obtain ⟨t, htt⟩ := length_one hw.typeId
  have htn : fromLE e.typeId = t.toNat := by rw [htt]; simp [fromLE]
  have hxl := fits_length hx
  have h3 : 3 ≤ e.body.bytes.length := by
    rw [hb, List.flatMap_cons]; simp only [List.length_append, length_toLE]; omega
  have hd2 : e.body.bytes.getD 2 0 = x.body.bytes.getD 0 0 := by
    rw [hb, List.flatMap_cons, List.getD_eq_getElem?_getD, List.getElem?_append_right (by simp),
      length_toLE, List.getElem?_append_left (by omega), ← List.getD_eq_getElem?_getD]
  have hco : coerce env { e with cls := e₀.cls, body := ⟨true, e.body.bytes⟩ } =
      ⟨.ok (), { e with body := ⟨true, e.body.bytes⟩ },
        if x.cls = .realPiFraction then [.listInvalid] else []⟩ := by
    have hgt : Cls.getType t.toNat = some e.cls := by
      rw [htn] at ht
      rcases hcls with h | h <;> rw [h] at ht ⊢ <;> simp only [Cls.typeId, Option.some.injEq] at ht <;>
        rw [← ht] <;> rfl
    have hstart : coerce env { e with cls := e₀.cls, body := ⟨true, e.body.bytes⟩ } =
        coerceTyped env { e with body := ⟨true, e.body.bytes⟩ } := by
      rcases h₀ with h | h
      · rw [h, coerce_base env (e := { e with cls := .entry, body := ⟨true, e.body.bytes⟩ }) rfl htt hgt]
      · rw [h]
        show coerce env { e with body := ⟨true, e.body.bytes⟩ } = _
        rcases hcls with h | h <;> simp [coerce, PyM.bind_run, h]
    rw [hstart]
    have hrun : coerceTyped env { e with body := ⟨true, e.body.bytes⟩ } =
        coerceList { e with body := ⟨true, e.body.bytes⟩ } := by
      rcases hcls with h | h <;> simp [coerceTyped, PyM.bind_run, h]
    show coerceTyped env { e with body := ⟨true, e.body.bytes⟩ } = _
    rw [hrun]
    have hds : dataStart e.cls = 2 := hxl.2.2
    rcases hx with ⟨hc, hx1, hx2, hx3⟩ | ⟨hc, hx1, hx2, hx0, hx3⟩
    · have hmod : (e.body.bytes.getD 2 0).toNat % 32 = (x.body.bytes.getD 0 0).toNat % 64 % 32 := by
        rw [hd2]; omega
      simp only [realClasses, List.mem_cons, List.not_mem_nil, or_false] at hx1
      have real : ∀ {c : Cls}, Cls.getType ((e.body.bytes.getD 2 0).toNat % 32) = some c →
          c.isSub .realE = true → coerceList { e with body := ⟨true, e.body.bytes⟩ } =
            ⟨.ok (), { e with body := ⟨true, e.body.bytes⟩ }, []⟩ := by
        intro c h1 h2
        have := (coerceList_run (e := { e with body := ⟨true, e.body.bytes⟩ }) hds h3 h1).1 h2
        rw [this, hc]
      rcases hx1 with h | h | h | h | h | h
      all_goals
        rw [h] at hx3
        simp only [Cls.typeId, Option.some.injEq] at hx3
        rw [← hx3] at hmod
        rw [h]
      · exact real (c := .real) (by rw [hmod]; rfl) (by decide)
      · exact real (c := .undefReal) (by rw [hmod]; rfl) (by decide)
      · exact real (c := .realFraction) (by rw [hmod]; rfl) (by decide)
      · exact real (c := .realRadical) (by rw [hmod]; rfl) (by decide)
      · exact real (c := .real) (by rw [hmod]; rfl) (by decide)
      · exact coerceList_invalid (e := { e with body := ⟨true, e.body.bytes⟩ }) (c := .realList) hds h3
          (by show Cls.getType ((e.body.bytes.getD 2 0).toNat % 32) = _; rw [hmod]; rfl)
          (by decide) (by decide)
    · have hmod : (e.body.bytes.getD 2 0).toNat % 32 = (x.body.bytes.getD 0 0).toNat % 64 % 32 := by
        rw [hd2]; omega
      have hno : x.cls ≠ .realPiFraction := by
        intro h; rw [h] at hx1; exact absurd hx1 (by decide)
      rw [if_neg hno]
      have complex : ∀ {c : Cls}, Cls.getType ((e.body.bytes.getD 2 0).toNat % 32) = some c →
          c.isSub .realE = false → c.isSub .complexE = true →
          coerceList { e with body := ⟨true, e.body.bytes⟩ } =
            ⟨.ok (), { e with body := ⟨true, e.body.bytes⟩ }, []⟩ := by
        intro c h1 h2 h4
        have := (coerceList_run (e := { e with body := ⟨true, e.body.bytes⟩ }) hds h3 h1).2 h2 h4
        rw [this, hc]
      simp only [List.mem_cons, List.not_mem_nil, or_false] at hx0
      rcases hx0 with h | h | h | h | h <;> rw [h] at hmod
      · exact complex (c := .complex) (by rw [hmod]; rfl) (by decide) (by decide)
      · exact complex (c := .complexFraction) (by rw [hmod]; rfl) (by decide) (by decide)
      · exact complex (c := .complexRadical) (by rw [hmod]; rfl) (by decide) (by decide)
      · exact complex (c := .complexPi) (by rw [hmod]; rfl) (by decide) (by decide)
      · exact complex (c := .complexPiFraction) (by rw [hmod]; rfl) (by decide) (by decide)
  refine ⟨_, hbytes, ?_⟩
  have hlw : loadWarnings e.cls e.metaLen e.version = [] := by
    unfold loadWarnings
    rw [hv]
    rcases hcls with h | h <;> rw [h] <;> simp [Cls.versions, Cls.flashOnly, fromLE]
  have hty : checkType e₀ (fromLE e.typeId) = [] := by
    rcases h₀ with h | h
    · simp [checkType, h, Cls.typeId]
    · simp [checkType, h, ht]
  have hbase := loadBase_bytes env hw (fun _ => hflash) hbytes e₀
  rw [finish_of_coerce env hco hv
    (metaLen_iff (show e.metaLen.length = 2 from metaLen_length hw.toSections))] at hbase
  simp only [hlw, hty, after, List.append_nil, List.nil_append] at hbase
  rcases h₀ with h | h
  · have hload : ∀ b, load env b e₀ = loadBase env b e₀ := by
      intro b; simp [load, PyM.bind_run, h]
    rw [hload, hbase]
    simp
  · have hload : ∀ b, load env b e₀ = (do loadBase env b; checkList : PyM Ent Unit) e₀ := by
      intro b
      rcases hcls with h' | h' <;> simp [load, PyM.bind_run, h, h']
    have hq : e.body.bytes.length / elemLength e.cls = (x :: xs).length := by
      rw [hb, List.length_append, length_toLE, length_flatMap_const (n := (elemCls e.cls).minDataLength)
        _ _ fun y hy => (fits_length (hfit y hy)).1]
      rcases hcls with h | h <;> rw [h]
      · show (2 + _ * 9) / 9 = _; omega
      · show (2 + _ * 18) / 18 = _; omega
    have htake : fromLE (e.body.bytes.take 2) = (x :: xs).length := by
      have hl : (x :: xs).length < 65536 := by
        have h1 := hw.length
        have h3 := length_flatMap_const (n := (elemCls e.cls).minDataLength) (fun x : Ent => x.body.bytes) (x :: xs)
          fun y hy => (fits_length (hfit y hy)).1
        rw [hb, List.length_append, h3] at h1
        have h4 : 1 ≤ (elemCls e.cls).minDataLength := by rcases hcls with h | h <;> rw [h] <;> decide
        have h5 := Nat.le_mul_of_pos_right (x :: xs).length h4
        omega
      rw [hb, List.take_left' (length_toLE 2 _), fromLE_toLE_of_lt (by omega)]
    rw [hload, PyM.bind_run, hbase]
    have hck : checkList { e with body := ⟨true, e.body.bytes⟩ } = ⟨.ok (), { e with body := ⟨true, e.body.bytes⟩ }, []⟩ := by
      simp only [checkList, PyM.bind_run, PyM.get_run, calcLength, hq, htake, ne_eq, not_true_eq_false, and_false, if_false, PyM.pure_run]
      rfl
    simp only [hck]
    simp

example : ∃ lst : List Ent, lst.length = 2 ∧ (∀ x ∈ lst, FitsList sampleList.cls x) ∧
    sampleList.body.bytes = toLE 2 lst.length ++ lst.flatMap (fun x => x.body.bytes) ∧ WF sampleList := by
  refine ⟨[⟨.real, [], [], [], [], [], ⟨true, [0x00, 0x80, 0x10, 0, 0, 0, 0, 0, 0]⟩⟩,
    ⟨.realFraction, [], [], [], [], [],
      ⟨true, [0x18, 0x7F, 0x66, 0x66, 0x66, 0x66, 0x66, 0x66, 0x67]⟩⟩], rfl, ?_, by decide +kernel,
    ⟨Or.inr rfl, rfl, rfl, rfl, rfl⟩, Or.inl rfl, by decide, by decide⟩
  intro x hx
  simp only [List.mem_cons, List.not_mem_nil, or_false] at hx
  rcases hx with rfl | rfl <;> exact Or.inl ⟨rfl, by decide, by decide, by decide⟩

/-- C51 is false of the empty list: its bytes do not load, whatever its name. -/
theorem C51_empty_false (env : Env V) (e : Ent) (hw : WF e) (hv : e.version = [0x00])
    (hc : e.cls = .realList ∨ e.cls = .complexList) (ht : e.cls.typeId = some (fromLE e.typeId))
    (hb : e.body.bytes = [0, 0]) (e₀ : Ent) (h₀ : e₀.cls = .entry ∨ e₀.cls = e.cls) :
    ∃ b, e.bytes = .ok b ∧ (load env b e₀).res = .error .indexError := by
  have hbytes := bytes_ok (e := e) hw.length
  have hflash : ¬FlashIsLength e := list_flash (n := 0) hw hv (by rw [hb]; rfl)
  obtain ⟨t, htt⟩ := length_one hw.typeId
  have htn : fromLE e.typeId = t.toNat := by rw [htt]; simp [fromLE]
  have hgt : Cls.getType t.toNat = some e.cls := by
    rw [htn] at ht
    rcases hc with h | h <;> rw [h] at ht ⊢ <;> simp only [Cls.typeId, Option.some.injEq] at ht <;>
      rw [← ht] <;> rfl
  have hlist : coerceTyped env { e with body := ⟨true, e.body.bytes⟩ } =
      ⟨.error .indexError, { e with body := ⟨true, e.body.bytes⟩ }, []⟩ := by
    have hrun : coerceTyped env { e with body := ⟨true, e.body.bytes⟩ } =
        coerceList { e with body := ⟨true, e.body.bytes⟩ } := by
      rcases hc with h | h <;> simp [coerceTyped, PyM.bind_run, h]
    have hds : dataStart e.cls = 2 := by rcases hc with h | h <;> rw [h] <;> decide
    rw [hrun]
    simp only [coerceList, PyM.bind_run, PyM.get_run, data, hds, hb, List.drop_succ_cons,
      List.drop_nil, byte0, PyM.ofExcept_run]
    simp
  have hco : (coerce env { e with cls := e₀.cls, body := ⟨true, e.body.bytes⟩ }).res =
      .error .indexError := by
    rcases h₀ with h | h
    · rw [h, coerce_base env (e := { e with cls := .entry, body := ⟨true, e.body.bytes⟩ }) rfl htt hgt]
      show (coerceTyped env { e with body := ⟨true, e.body.bytes⟩ }).res = _
      rw [hlist]
    · rw [h]
      have : coerce env { e with body := ⟨true, e.body.bytes⟩ } =
          coerceTyped env { e with body := ⟨true, e.body.bytes⟩ } := by
        rcases hc with h | h <;> simp [coerce, PyM.bind_run, h]
      show (coerce env { e with body := ⟨true, e.body.bytes⟩ }).res = _
      rw [this, hlist]
  refine ⟨_, hbytes, ?_⟩
  have hbase := loadBase_bytes env hw (fun _ => hflash) hbytes e₀
  have hres : (loadBase env (e.metaLen ++ toLE 2 e.calcLength ++ e.typeId ++ e.name ++ e.flashBytes ++
      toLE 2 e.calcLength ++ e.body.bytes) e₀).res = .error .indexError := by
    rw [hbase]
    show (finish env { e with cls := e₀.cls, body := ⟨true, e.body.bytes⟩ }).res = _
    unfold finish
    rcases hcc : coerce env { e with cls := e₀.cls, body := ⟨true, e.body.bytes⟩ } with ⟨r, s, w⟩
    rw [hcc] at hco
    simp only at hco
    subst hco
    rw [PyM.bind_error hcc]
  have hgen : ∀ b, (loadBase env b e₀).res = .error .indexError →
      (load env b e₀).res = .error .indexError := by
    intro b hr
    rcases hlb : loadBase env b e₀ with ⟨r, s, w⟩
    rw [hlb] at hr
    simp only at hr
    subst hr
    rcases h₀ with h | h
    · simp [load, PyM.bind_run, h, hlb]
    · rcases hc with hc | hc <;> rw [hc] at h <;> simp [load, PyM.bind_run, h, hlb]
  exact hgen _ hres

/-- The empty `L1` as the constructor makes it. -/
example : ((new sampleEnv .realList { name := [0x5D, 0, 0, 0, 0, 0, 0, 0] } []) ()).res.toOption.map
    (fun e => e.bytes.toOption.map fun b => (load sampleEnv b (fresh sampleEnv)).res) =
    some (some (Except.error PyErr.indexError)) := by decide +kernel

/-! ### C52 – matrices -/

theorem flatMap_flatten {α β : Type} (f : α → List β) (l : List (List α)) :
    l.flatten.flatMap f = l.flatMap fun r => r.flatMap f := by
  induction l with
  | nil => rfl
  | cons a as ih => simp [ih]

/-- C52, storing: a rectangular array of 1 to 255 rows of 1 to 255 numbers is stored with width, height and
the data of all numbers row by row; the warnings are only about the limits of 99 and 400. -/
theorem C52_matrix_store (e : Ent) (rows : List (List Ent)) (w : Nat) (hc : e.cls = .matrix)
    (hm : e.body.mutable = true) (hb : 2 ≤ e.body.bytes.length) (hw : 1 ≤ w ∧ w ≤ 255)
    (hh : 1 ≤ rows.length ∧ rows.length ≤ 255) (hr : ∀ r ∈ rows, r.length = w) :
    ∃ e' ws, loadMatrix rows e = ⟨.ok (), e', ws⟩ ∧ (∀ x ∈ ws, x = .matrixLimit) ∧
      (w * rows.length > 400 ∨ w > 99 ∨ rows.length > 99 → ws ≠ []) ∧
      SameEntry { e with body := e'.body } e' ∧ e'.cls = e.cls ∧
      (e'.body.bytes.take 2).map UInt8.toNat = [w, rows.length] ∧
      e'.body.bytes.drop 2 = rows.flatten.flatMap fun x => x.body.bytes := by
  obtain ⟨a, b, d, hd⟩ : ∃ a b d, e.body.bytes = a :: b :: d := by
    rcases h : e.body.bytes with _ | ⟨a, _ | ⟨b, d⟩⟩
    · rw [h] at hb; simp at hb
    · rw [h] at hb; simp at hb
    · exact ⟨a, b, d, rfl⟩
  have hne : rows ≠ [] := by rintro rfl; simp at hh
  have h := loadMatrix_ok (e := e) (rows := rows) (w := w) hc
    (show e.body = ⟨true, a :: b :: d⟩ by rw [← hm, ← hd]) (by omega) (by omega) hne hr
  refine ⟨_, _, h, ?_, ?_, ⟨rfl, rfl, rfl, rfl, rfl, rfl⟩, rfl, ?_, ?_⟩
  · intro x hx
    simp only [List.mem_append, tooBig] at hx
    rcases hx with ((hx | hx) | hx) | hx <;> split at hx <;> simp at hx <;> exact hx
  · intro hbig
    have : decide (99 < w) = true ∨ decide (99 < rows.length) = true ∨
        decide (400 < rows.length * w) = true := by
      simp only [decide_eq_true_eq]
      rw [Nat.mul_comm] at hbig
      omega
    unfold tooBig
    rcases this with h | h | h <;> rw [h] <;> simp
  · obtain ⟨u, hu⟩ := length_one (length_toLE 1 w)
    obtain ⟨z, hz⟩ := length_one (length_toLE 1 rows.length)
    have h1 := fromLE_toLE_of_lt (l := 1) (n := w) (by omega)
    have h2 := fromLE_toLE_of_lt (l := 1) (n := rows.length) (by omega)
    rw [hu] at h1
    rw [hz] at h2
    simp only [fromLE] at h1 h2
    simp only [hu, hz]
    simp
    omega
  · obtain ⟨u, hu⟩ := length_one (length_toLE 1 w)
    obtain ⟨z, hz⟩ := length_one (length_toLE 1 rows.length)
    simp only [hu, hz]
    simp [flatMap_flatten]

/-- C52, ragged arrays: if two rows differ in length loading raises `IndexError` and changes
nothing. -/
theorem C52_ragged (e : Ent) (rows : List (List Ent)) (r s : List Ent) (hr : r ∈ rows) (hs : s ∈ rows)
    (h : r.length ≠ s.length) : loadMatrix rows e = ⟨.error .indexError, e, []⟩ :=
  loadMatrix_ragged hr hs h

/-- C52, the part of reading that holds: a matrix of a flash calculator whose data are the
well-formed numbers of a rectangular array with at least one column reads back as the same array
without warnings. Missing: matrices without flash bytes, for which reading raises (below). -/
theorem C52_matrix_read_partial (env : Env V) (nm : Bytes) (e : Ent) (rows : List (List Ent)) (w : Nat)
    (hc : e.cls = .matrix) (hf : e.flashBytes ≠ []) (hw : 1 ≤ w) (hr : ∀ r ∈ rows, r.length = w)
    (hel : ∀ r ∈ rows, ∀ x ∈ r, RealElem x)
    (hsize : (e.body.bytes.take 2).map UInt8.toNat = [w, rows.length])
    (hb : e.body.bytes.drop 2 = rows.flatten.flatMap fun x => x.body.bytes) :
    ∃ es, matrix env nm e () = ⟨.ok es, (), []⟩ ∧
      List.Forall₂ (List.Forall₂ SameNumber) rows es := by
  have hfl : (!e.flashBytes.isEmpty) = true := by simp [hf]
  have hs : dataStart e.cls = 2 := by rw [hc]; rfl
  have hside : matrixSide 0 e = w := by
    unfold matrixSide
    rcases h : e.body.bytes with _ | ⟨a, l⟩
    · rw [h] at hsize; simp at hsize
    · rw [h] at hsize
      cases l <;> simp at hsize
      simp [fromLE, hsize.1]
  unfold matrix data
  rw [hs, hb, hfl, hside]
  rw [chunks_flatMap (by omega) _ _ (by
    intro x hx
    obtain ⟨r, hr1, hr2⟩ := List.mem_flatten.1 hx
    exact (hel r hr1 x hr2).2.1)]
  have hm : rows.flatten.map (fun x => x.body.bytes) =
      rows.flatMap fun r => r.map fun x => x.body.bytes := by
    simp [List.map_flatten, List.flatMap_def]
  rw [hm, chunks_flatMap (by omega) _ _ (by intro r hrm; simpa using hr r hrm)]
  clear hm hb hsize hside hr
  induction rows with
  | nil => exact ⟨[], rfl, .nil⟩
  | cons r rs ih =>
    obtain ⟨es, h1, h2⟩ := ih (fun r hr => hel r (by simp [hr]))
    obtain ⟨ys, h3, h4⟩ := mapW_bytes
      (f := new env .realE { name := nm, forFlash := true }) r (by
        intro x hx
        have := hel r (by simp) x hx
        exact fits_new env nm (c := .realList) (Or.inl ⟨rfl, this⟩))
    exact ⟨ys :: es, by simp [mapW, PyM.bind_run, h1, h3], .cons h4 h2⟩

/-- A matrix of one row and two columns. -/
def sampleMatrix : Ent :=
  ⟨.matrix, [0x0D, 0x00], [0x02], [0x5C, 0, 0, 0, 0, 0, 0, 0], [0x00], [0x00],
    ⟨true, [0x02, 0x01, 0x00, 0x80, 0x10, 0, 0, 0, 0, 0, 0,
      0x18, 0x7F, 0x66, 0x66, 0x66, 0x66, 0x66, 0x66, 0x67]⟩⟩

example : (matrix sampleEnv [0x41] sampleMatrix ()).res.toOption.map
      (fun es => es.map fun r => r.map fun x => x.cls) = some [[.real, .realFraction]] ∧
    ((matrix sampleEnv [0x41] sampleMatrix ()).res.toOption.map fun es =>
      (loadMatrix es { sampleMatrix with body := ⟨true, [0, 0]⟩ }).st) = some sampleMatrix ∧
    (loadMatrix [[sampleMatrix], []] sampleMatrix).res = .error .indexError := by
  decide +kernel

/-- C52 is false of matrices without flash bytes: reading a matrix with an element raises
`AttributeError`. -/
theorem C52_flashless_false : ∃ e : Ent, e.cls = .matrix ∧ WF e ∧
    e.body = sampleMatrix.body ∧ ∀ (V : Type) (_ : LinearOrder V) (env : Env V) (nm : Bytes),
      matrix env nm e () = ⟨.error .attributeError, (), []⟩ := by
  refine ⟨{ sampleMatrix with metaLen := [0x0B, 0x00] }, rfl,
    ⟨⟨Or.inl rfl, rfl, rfl, rfl, rfl⟩, Or.inl rfl, fun _ => ⟨rfl, rfl⟩, by decide⟩, rfl, ?_⟩
  intro V _ env nm
  have hfl : (!({ sampleMatrix with metaLen := [0x0B, 0x00] } : Ent).flashBytes.isEmpty) = false := by
    decide +kernel
  have hch : chunks (matrixSide 0 { sampleMatrix with metaLen := [0x0B, 0x00] })
      (chunks 9 ({ sampleMatrix with metaLen := [0x0B, 0x00] } : Ent).data) =
      [[[0x00, 0x80, 0x10, 0, 0, 0, 0, 0, 0], [0x18, 0x7F, 0x66, 0x66, 0x66, 0x66, 0x66, 0x66, 0x67]]] := by
    decide +kernel
  unfold matrix
  rw [hch, hfl]
  have hn := new_flashless env .realE { name := nm, forFlash := false } rfl
    [0x00, 0x80, 0x10, 0, 0, 0, 0, 0, 0] (pure ())
  simp only [mapW, PyM.bind_run, hn]

/-! ### C53 – versions of lists and matrices -/

/-- The version required by the most demanding number. -/
def required (lst : List Ent) : Nat := (lst.map numberVersion).foldr max 0

/-- C53 is false: the version computed for a list or matrix is zero whatever it contains, so it is
wrong as soon as one element demands more. -/
theorem C53_array_version_false (env : Env V) (e : Ent) (d : Bytes) (lst : List Ent)
    (hc : e.cls = .realList ∨ e.cls = .complexList ∨ e.cls = .matrix) (x : Ent) (hx : x ∈ lst)
    (hv : numberVersion x ≠ 0) :
    getVersion env e d = ([], .ok 0) ∧ (getVersion env e d).2 ≠ .ok (required lst) := by
  have h0 : getVersion env e d = ([], .ok 0) := by
    rw [getVersion_eq]
    unfold getVersionN
    rcases hc with h | h | h <;> rw [h] <;> simp only [arrayGetVersion_zero]
  refine ⟨h0, ?_⟩
  rw [h0]
  intro h
  injection h with h
  have : numberVersion x ≤ required lst := by
    unfold required
    clear h h0 hv
    induction lst with
    | nil => simp at hx
    | cons y ys ih =>
      simp only [List.map_cons, List.foldr_cons]
      rcases List.mem_cons.1 hx with rfl | hx
      · exact Nat.le_max_left _ _
      · exact Nat.le_trans (ih hx) (Nat.le_max_right _ _)
  omega

/-- C53, the part that holds: if no element demands more than version zero, the version computed
is the one required. Missing: everything else (above). -/
theorem C53_array_version_partial (env : Env V) (e : Ent) (d : Bytes) (lst : List Ent)
    (hc : e.cls = .realList ∨ e.cls = .complexList ∨ e.cls = .matrix)
    (hv : ∀ x ∈ lst, numberVersion x = 0) : getVersion env e d = ([], .ok (required lst)) := by
  have hreq : required lst = 0 := by
    unfold required
    clear hc
    induction lst with
    | nil => rfl
    | cons y ys ih =>
      simp only [List.map_cons, List.foldr_cons]
      rw [ih fun x hx => hv x (by simp [hx]), hv y (by simp)]
      rfl
  rw [hreq, getVersion_eq]
  unfold getVersionN
  rcases hc with h | h | h <;> rw [h] <;> simp only [arrayGetVersion_zero]

/-- A list holding a fraction is given version zero; the fraction alone has version six. -/
example : getVersion sampleEnv sampleList [] = ([], .ok 0) ∧
    (list sampleEnv [0x41] sampleList ()).res.toOption.map (fun es => es.map numberVersion) =
      some [0, 6] ∧
    (list sampleEnv [0x41] sampleList ()).res.toOption.map (fun es => es.map fun x => x.version) =
      some [[0], [6]] := by decide +kernel

end Verif
