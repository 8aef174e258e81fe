import Verif.Model.Header
import Verif.Proofs.Data

/-! Lemmas about full-byte bit fields, section widths and `TIHeader`. -/

namespace Verif

theorem bitIdx_full (i : Nat) (h : i < 8) : bitIdx {} i = true := by
  have : ∀ i, i < 8 → bitIdx {} i = true := by decide +kernel
  exact this i h

theorem filter_full : (List.range 8).filter (bitIdx {}) = List.range 8 := by decide +kernel

/-- `Bits[:]` reads the byte. -/
theorem bitsFull_get (b : UInt8) : (bitsConv {}).get [b] = .ok (b.toNat : Int) := by
  simp only [bitsConv]
  rw [bitSliceGet_spec _ _ (by rw [filter_full]; decide), filter_full, ofBits_testBit_range]
  have := b.toNat_lt
  simp [Nat.mod_eq_of_lt (show b.toNat < 256 from this)]

theorem bitsFull_get_nil : (bitsConv {}).get [] = .error .indexError := rfl

/-- `Bits[:]` stores the value modulo 256. -/
theorem bitsFull_set (v : Int) (l : Option Nat) (cur : Bytes) :
    (bitsConv {}).set v l cur () = ⟨.ok [UInt8.ofNat (v % 256).toNat], (), []⟩ := by
  simp only [bitsConv]
  have hall : (List.range 8).all (bitIdx {}) = true := by decide +kernel
  have e : bitSliceSet (bitIdx {}) v cur () = bitSliceSet (bitIdx {}) v [0] () := by
    simp only [bitSliceSet, hall, if_true]
  obtain ⟨b', h1, -, h3⟩ := bitSliceSet_spec (bitIdx {}) v 0
  rw [e, h1]
  rw [filter_full] at h3 ⊢
  have hn : (v % 256).toNat < 256 := by omega
  have hb : b'.toNat = (v % 256).toNat := by
    have h4 := congrArg ofBits h3
    rw [List.length_range, bits8, List.take_of_length_le (by simp), ofBits_testBit_range,
      ofBits_testBit_range] at h4
    have := b'.toNat_lt
    omega
  have : b' = UInt8.ofNat (v % 256).toNat := by rw [← hb]; simp
  rw [this]
  rw [List.drop_eq_nil_of_le (by simp [bits8])]
  rfl

/-- A fixed-width section write either fails or produces exactly that many bytes. -/
theorem setRaw_width {α : Type} {c : Conv α} {n : Nat} {cur : Bytes} {v : α} {b : Bytes}
    (h : (setRaw c (some n) cur v ()).res = .ok b) : b.length = n := by
  rcases hc : c.set v (some n) cur () with ⟨r, u, w⟩
  cases r with
  | error e =>
    unfold setRaw at h
    rw [PyM.bind_error hc] at h
    cases h
  | ok x =>
    rw [setRaw_ok hc, fitWidth_some] at h
    injection h with h
    subst h
    simp only [length_ljust, List.length_take]
    omega

theorem setRaw_eq {α : Type} {c : Conv α} {n : Nat} {cur x : Bytes} {v : α} {w : List Warn}
    (h : c.set v (some n) cur () = ⟨.ok x, (), w⟩) (hx : x.length = n) :
    setRaw c (some n) cur v () = ⟨.ok x, (), w⟩ := by
  rw [setRaw_ok h, fitWidth_eq hx]
  simp

/-- Running a setter of the form "compute the new bytes, store them". -/
theorem setter_run {σ : Type} (x : PyM Unit Bytes) (put : Bytes → σ → σ) (s : σ) :
    (do let h ← PyM.get
        let b ← PyM.lift x
        PyM.set (put b h) : PyM σ Unit) s =
      match x () with
      | ⟨.error e, _, w⟩ => ⟨.error e, s, w⟩
      | ⟨.ok b, _, w⟩ => ⟨.ok (), put b s, w⟩ := by
  simp only [PyM.bind_run, PyM.lift_run, PyM.get_run, List.nil_append]
  rcases x () with ⟨r, u, w⟩
  cases r <;> simp

namespace Hdr

/-- The widths of the four sections. -/
def Widths (h : Hdr) : Prop :=
  h.magic.length = 8 ∧ h.extra.length = 2 ∧ h.productId.length = 1 ∧ h.comment.length = 42

theorem setMagic_run (v : Str) (h : Hdr) : setMagic v h =
    match setRaw strConv (some 8) h.magic v () with
    | ⟨.error e, _, w⟩ => ⟨.error e, h, w⟩
    | ⟨.ok b, _, w⟩ => ⟨.ok (), { h with magic := b }, w⟩ := by
  simp only [setMagic, PyM.bind_run, PyM.lift_run, PyM.get_run, List.nil_append]
  rcases setRaw strConv (some 8) h.magic v () with ⟨r, u, w⟩
  cases r <;> simp

theorem setExtra_run (v : Bytes) (h : Hdr) : setExtra v h =
    match setRaw bytesConv (some 2) h.extra v () with
    | ⟨.error e, _, w⟩ => ⟨.error e, h, w⟩
    | ⟨.ok b, _, w⟩ => ⟨.ok (), { h with extra := b }, w⟩ := by
  simp only [setExtra, PyM.bind_run, PyM.lift_run, PyM.get_run, List.nil_append]
  rcases setRaw bytesConv (some 2) h.extra v () with ⟨r, u, w⟩
  cases r <;> simp

theorem setProductId_run (v : Int) (h : Hdr) : setProductId v h =
    ⟨.ok (), { h with productId := [UInt8.ofNat (v % 256).toNat] }, []⟩ := by
  simp only [setProductId, PyM.bind_run, PyM.lift_run, PyM.get_run, List.nil_append]
  rw [setRaw_eq (n := 1) (bitsFull_set _ _ _) rfl]
  simp

theorem setComment_run (v : Str) (h : Hdr) : setComment v h =
    match setRaw strConv (some 42) h.comment v () with
    | ⟨.error e, _, w⟩ => ⟨.error e, h, w⟩
    | ⟨.ok b, _, w⟩ => ⟨.ok (), { h with comment := b }, w⟩ := by
  simp only [setComment, PyM.bind_run, PyM.lift_run, PyM.get_run, List.nil_append]
  rcases setRaw strConv (some 42) h.comment v () with ⟨r, u, w⟩
  cases r <;> simp

theorem bytes_length {h : Hdr} (hw : h.Widths) : h.bytes.length = 53 := by
  obtain ⟨h1, h2, h3, h4⟩ := hw
  simp [bytes, h1, h2, h3, h4]

/-- Loading splits the padded bytes at the section boundaries. -/
theorem load_run (data : Bytes) (h : Hdr) : load data h =
    ⟨.ok (), ⟨(ljust 53 data).take 8, ((ljust 53 data).drop 8).take 2,
      ((ljust 53 data).drop 10).take 1, ((ljust 53 data).drop 11).take 42⟩, []⟩ := by
  have hl : 53 ≤ (ljust 53 data).length := by simp; omega
  unfold load
  generalize ljust 53 data = d at hl
  simp only [Stream.read, Stream.peek, Stream.ofBytes, PyM.bind_run, PyM.modify_run,
    List.length_take, List.length_drop, List.drop_zero, List.append_nil]
  have e1 : min 8 d.length = 8 := by omega
  have e2 : min 2 (d.length - 8) = 2 := by omega
  have e3 : min 1 (d.length - 10) = 1 := by omega
  simp [e1, e2, e3]

theorem load_widths (data : Bytes) (h : Hdr) : (load data h).st.Widths := by
  have hl : 53 ≤ (ljust 53 data).length := by simp; omega
  rw [load_run]
  simp only [Widths, List.length_take, List.length_drop]
  omega

theorem load_bytes {h h' : Hdr} (hw : h.Widths) : load h.bytes h' = ⟨.ok (), h, []⟩ := by
  rw [load_run, ljust_of_le (by rw [bytes_length hw]; omega)]
  obtain ⟨h1, h2, h3, h4⟩ := hw
  cases h with
  | mk m e p c =>
    simp only at h1 h2 h3 h4
    simp [bytes, List.take_append, List.drop_append, h1, h2, h3]
    rw [List.drop_eq_nil_of_le (show m.length ≤ 11 by omega),
      List.drop_eq_nil_of_le (show e.length ≤ 3 by omega),
      List.take_of_length_le (show c.length ≤ 42 by omega)]
    simp

theorem init_run (m : Model) (extra : Bytes) (pid : Option Int) (comment : Str) (h : Hdr) :
    init (some m) none extra pid comment [] h =
      match setRaw strConv (some 42) [] comment () with
      | ⟨.error e, _, w⟩ => ⟨.error e, ⟨(latin1Encode m.magic).toOption.getD [],
          ljust 2 (extra.take 2), [UInt8.ofNat ((pid.getD m.productId) % 256).toNat], []⟩,
          (if extra.length > 2 then [.tooWide] else []) ++ w⟩
      | ⟨.ok c, _, w⟩ => ⟨.ok (), ⟨(latin1Encode m.magic).toOption.getD [],
          ljust 2 (extra.take 2), [UInt8.ofNat ((pid.getD m.productId) % 256).toNat], c⟩,
          (if extra.length > 2 then [.tooWide] else []) ++ w⟩ := by
  have hm : setRaw strConv (some 8) [] m.magic () =
      ⟨.ok ((latin1Encode m.magic).toOption.getD []), (), []⟩ := by
    cases m <;> decide +kernel
  have he : setRaw bytesConv (some 2) [] extra () =
      ⟨.ok (ljust 2 (extra.take 2)), (), if extra.length > 2 then [.tooWide] else []⟩ := by
    rw [setRaw_ok (c := bytesConv) (x := extra) (w := []) rfl, fitWidth_some]
    rfl
  unfold init
  simp only [PyM.bind_run, PyM.set_run, setMagic_run, setExtra_run, setProductId_run,
    setComment_run, unset, Option.getD_some, hm, he, List.isEmpty_nil, if_true, PyM.pure_run]
  rcases setRaw strConv (some 42) [] comment () with ⟨r, u, w⟩
  cases r <;> simp

end Hdr

theorem foldl_min_spec (ord : Model → Nat) (l : List Model) (m : Model) :
    let r := l.foldl (fun best x => if Model.lt ord x best then x else best) m
    (r = m ∨ r ∈ l) ∧ ord r ≤ ord m ∧ ∀ y ∈ l, ord r ≤ ord y := by
  induction l generalizing m with
  | nil => simp
  | cons a l ih =>
    simp only [List.foldl_cons]
    obtain ⟨h1, h2, h3⟩ := ih (if Model.lt ord a m then a else m)
    by_cases h : Model.lt ord a m = true
    · rw [if_pos h] at h1 h2 h3 ⊢
      have h' : ord a < ord m := by simpa [Model.lt, Model.ge] using h
      refine ⟨Or.inr ?_, by omega, ?_⟩
      · rcases h1 with h1 | h1
        · rw [h1]; simp
        · simp [h1]
      · intro y hy
        rcases List.mem_cons.1 hy with rfl | hy
        · exact h2
        · exact h3 y hy
    · rw [if_neg h] at h1 h2 h3 ⊢
      have h' : ord m ≤ ord a := by simpa [Model.lt, Model.ge] using h
      refine ⟨?_, h2, ?_⟩
      · rcases h1 with h1 | h1
        · exact Or.inl h1
        · exact Or.inr (by simp [h1])
      · intro y hy
        rcases List.mem_cons.1 hy with rfl | hy
        · omega
        · exact h3 y hy

/-- The least of at least two models. -/
theorem minModels_spec (ord : Model → Nat) {l : List Model} (h : 2 ≤ l.length) :
    ∃ r, minModels ord l = .ok r ∧ r ∈ l ∧ ∀ y ∈ l, ord r ≤ ord y := by
  match l with
  | a :: b :: l =>
    obtain ⟨h1, h2, h3⟩ := foldl_min_spec ord (b :: l) a
    refine ⟨_, rfl, ?_, ?_⟩
    · rcases h1 with h1 | h1
      · rw [h1]; simp
      · exact List.mem_cons_of_mem _ h1
    · intro y hy
      rcases List.mem_cons.1 hy with rfl | hy
      · exact h2
      · exact h3 y hy

end Verif
