import Verif.Proofs.Extension
import Verif.Spec.Var
import Verif.Model.Var

/-! Property theorems about `TIHeader` (C06, C34, C35) and file extensions (C36). -/

namespace Verif
open Spec

/-! ### C06 – fixed-width sections -/

/-- C06. Whatever the converter and the value, a fixed-width section that is assigned to either
keeps its old contents (the assignment raised) or holds exactly its declared number of
bytes. -/
theorem C06_section_width {α : Type} (c : Conv α) (n : Nat) (v : α) (b : Buf) :
    (sectionSet c (some n) v b).st = b ∨ (sectionSet c (some n) v b).st.bytes.length = n := by
  rw [sectionSet_run]
  rcases h : setRaw c (some n) b.bytes v () with ⟨r, u, w⟩
  cases r with
  | error e => exact Or.inl rfl
  | ok x => exact Or.inr (setRaw_width (c := c) (cur := b.bytes) (v := v) (by rw [h]))

/-- C06. A header built by the constructor for any model, with any extra bytes, product ID and
comment, and then put through any history of assignments (failing ones included) has
sections of 8, 2, 1 and 42 bytes and serialises to 53 bytes. -/
theorem C06_header_history (m : Model) (extra : Bytes) (pid : Option Int) (comment : Str) (h₀ : Hdr)
    (hok : (Hdr.init (some m) none extra pid comment [] h₀).res = .ok ()) (ops : List HdrOp) :
    let h := runHdrOps ops (Hdr.init (some m) none extra pid comment [] h₀).st
    h.magic.length = 8 ∧ h.extra.length = 2 ∧ h.productId.length = 1 ∧ h.comment.length = 42 ∧
      h.bytes.length = 53 := by
  intro h
  have h0 : (Hdr.init (some m) none extra pid comment [] h₀).st.Widths := by
    rw [Hdr.init_run] at hok ⊢
    rcases e : setRaw strConv (some 42) [] comment () with ⟨r, u, w⟩
    rw [e] at hok
    cases r with
    | error x => cases hok
    | ok c =>
      refine ⟨?_, ?_, rfl, setRaw_width (c := strConv) (by rw [e])⟩
      · have hm : ∀ m : Model, ((latin1Encode m.magic).toOption.getD []).length = 8 := by
          intro m; cases m <;> decide +kernel
        exact hm m
      · show (ljust 2 (List.take 2 extra)).length = 2
        simp only [length_ljust, List.length_take]; omega
  have hw : h.Widths := by
    have : ∀ (ops : List HdrOp) (h : Hdr), h.Widths → (runHdrOps ops h).Widths := by
      intro ops
      induction ops with
      | nil => intro h hw; exact hw
      | cons op ops ih => intro h hw; exact ih _ (runHdrOp_widths op hw)
    exact this ops _ h0
  exact ⟨hw.1, hw.2.1, hw.2.2.1, hw.2.2.2, Hdr.bytes_length hw⟩

example : runHdrOps [.magic "TOO LONG MAGIC".toList, .comment "é".toList, .comment "∞".toList]
    (Hdr.init (some .ti84pce) none [0x1a, 0x0a] none [] [] Hdr.unset).st =
    ⟨"TOO LONG".toList.map fun c => UInt8.ofNat c.toNat, [0x1a, 0x0a], [0x13],
      0xE9 :: List.replicate 41 0⟩ := by decide +kernel

/-! ### C34 – header round trip -/

/-- C34, the part that holds: from a byte string. -/
theorem C34_header_roundtrip_partial (h h' : Hdr) (h1 : h.magic.length = 8) (h2 : h.extra.length = 2)
    (h3 : h.productId.length = 1) (h4 : h.comment.length = 42) :
    h.bytes.length = 53 ∧ Hdr.load h.bytes h' = ⟨.ok (), h, []⟩ :=
  ⟨Hdr.bytes_length ⟨h1, h2, h3, h4⟩, Hdr.load_bytes ⟨h1, h2, h3, h4⟩⟩

/-- C34 is false: loading the same bytes from a stream raises `AttributeError`. -/
theorem C34_header_stream_false :
    ∃ h : Hdr, h.magic.length = 8 ∧ h.extra.length = 2 ∧ h.productId.length = 1 ∧
      h.comment.length = 42 ∧
      ∀ h', Hdr.loadStream (Stream.ofBytes h.bytes) h' = ⟨.error .attributeError, h', []⟩ :=
  ⟨(Hdr.init (some .ti83p) none [0x1a, 0x0a] none [] [] Hdr.unset).st, by decide +kernel,
    by decide +kernel, by decide +kernel, by decide +kernel, fun _ => rfl⟩

example : (Hdr.load ("**TI83F*".toList.map fun c => UInt8.ofNat c.toNat) Hdr.unset).st =
    ⟨[42, 42, 84, 73, 56, 51, 70, 42], [0, 0], [0], List.replicate 42 0⟩ := by decide +kernel

/-! ### C35 – targets -/

/-- C35, first half: the header made for a model lists that model among its targets, whatever the
extra bytes and comment. -/
theorem C35_header_targets (m : Model) (extra : Bytes) (comment : Str) (h₀ : Hdr)
    (hok : (Hdr.init (some m) none extra none comment [] h₀).res = .ok ()) :
    ∃ ts, (Hdr.init (some m) none extra none comment [] h₀).st.targets = .ok ts ∧ m ∈ ts ∧
      ∀ t ∈ ts, t.magic = m.magic := by
  rw [Hdr.init_run] at hok ⊢
  rcases e : setRaw strConv (some 42) [] comment () with ⟨r, u, w⟩
  rw [e] at hok
  cases r with
  | error x => cases hok
  | ok c =>
    have key : ∀ m : Model, ∀ a b : Bytes,
        Hdr.targets ⟨(latin1Encode m.magic).toOption.getD [], a,
          [UInt8.ofNat (((none : Option Int).getD m.productId) % 256).toNat], b⟩ =
        Hdr.targets ⟨(latin1Encode m.magic).toOption.getD [], [],
          [UInt8.ofNat (((none : Option Int).getD m.productId) % 256).toNat], []⟩ :=
      fun _ _ _ => rfl
    simp only [key]
    have all : ∀ m : Model, (match Hdr.targets ⟨(latin1Encode m.magic).toOption.getD [], [],
        [UInt8.ofNat (((none : Option Int).getD m.productId) % 256).toNat], []⟩ with
      | .ok ts => decide (m ∈ ts) && ts.all fun t => t.magic == m.magic
      | .error _ => false) = true := by
      intro m; cases m <;> decide +kernel
    have := all m
    revert this
    cases Hdr.targets ⟨(latin1Encode m.magic).toOption.getD [], [],
        [UInt8.ofNat (((none : Option Int).getD m.productId) % 256).toNat], []⟩ with
    | error x => intro h; cases h
    | ok ts =>
      intro h
      simp only [Bool.and_eq_true, decide_eq_true_eq, List.all_eq_true, beq_iff_eq] at h
      exact ⟨ts, rfl, h.1, h.2⟩

example : (Hdr.init (some .ti84pcse) none [0x1a, 0x0a] none [] [] Hdr.unset).st.targets =
    .ok [.ti84pcse] := by decide +kernel
example : (Hdr.init (some .ti82) none [0x1a, 0x0a] (some 0x13) [] [] Hdr.unset).st.targets =
    .ok [.ti82] := by decide +kernel

/-- C35, what the targets of an arbitrary header are: the models with its magic and product ID if
its product ID is not zero and there are any, and otherwise all models with its magic; `ValueError`
if there are none. -/
theorem C35_targets_spec (h : Hdr) (p : UInt8) (hp : h.productId = [p]) :
    let magic := rstripNulStr (latin1Decode h.magic)
    (∀ ts, h.targets = .ok ts → ∀ m, m ∈ ts ↔ m.magic = magic ∧
      (m.productId = p.toNat ∨ p = 0 ∨ ∀ m' : Model, m'.magic = magic → m'.productId ≠ p.toNat)) ∧
    ((∃ m : Model, m.magic = magic) → ∃ ts, h.targets = .ok ts) ∧
    ((∀ m : Model, m.magic ≠ magic) → h.targets = .error .valueError) := by
  intro magic
  have hall : ∀ m, m ∈ Model.all := by intro m; cases m <;> decide
  have h1 : sectionGet strConv ⟨false, h.magic⟩ = .ok magic := rfl
  have h2 : sectionGet (bitsConv {}) ⟨false, h.productId⟩ = .ok (p.toNat : Int) := by
    rw [hp]; exact bitsFull_get p
  have hp0 : ((p.toNat : Int) = 0) ↔ p = 0 := by
    constructor
    · intro h; apply UInt8.toNat_inj.1; simp; omega
    · rintro rfl; rfl
  have hmem : ∀ m, m ∈ (Model.all.filter fun m => m.magic == magic) ↔ m.magic = magic := by
    intro m; simp [hall]
  unfold Hdr.targets
  rw [h1, h2]
  simp only
  refine ⟨?_, ?_, ?_⟩
  · intro ts hts m
    split at hts
    · rename_i hc
      injection hts with hts
      rw [← hts, List.mem_filter, hmem]
      simp only [beq_iff_eq]
      constructor
      · rintro ⟨ha, hb⟩; exact ⟨ha, Or.inl (by exact_mod_cast hb)⟩
      · rintro ⟨ha, hb | hb | hb⟩
        · exact ⟨ha, by exact_mod_cast hb⟩
        · exact absurd (hp0.2 hb) hc.1
        · refine absurd ?_ hc.2
          rw [List.filter_eq_nil_iff]
          intro x hx
          simp only [beq_iff_eq]
          intro hxp
          exact hb x ((hmem x).1 hx) (by exact_mod_cast hxp)
    · rename_i hc
      split at hts
      · cases hts
      · injection hts with hts
        rw [← hts, hmem]
        constructor
        · intro ha
          refine ⟨ha, ?_⟩
          by_cases h0 : p = 0
          · exact Or.inr (Or.inl h0)
          · refine Or.inr (Or.inr fun x hx hxp => hc ⟨fun h => h0 (hp0.1 h), ?_⟩)
            intro hnil
            have : x ∈ (Model.all.filter fun m => m.magic == magic).filter
                fun m => (m.productId : Int) == p.toNat := by
              rw [List.mem_filter, hmem]; simp [hx, hxp]
            rw [hnil] at this
            simp at this
        · exact fun h => h.1
  · rintro ⟨m, hm⟩
    split
    · exact ⟨_, rfl⟩
    · split
      · rename_i hnil
        have := (hmem m).2 hm
        rw [hnil] at this
        simp at this
      · exact ⟨_, rfl⟩
  · intro hno
    have hnil : (Model.all.filter fun m => m.magic == magic) = [] := by
      rw [List.filter_eq_nil_iff]
      intro x _
      simpa using hno x
    rw [hnil]
    simp

/-- The models with the magic `**TI83**` for an unknown product ID. -/
example : (Hdr.targets ⟨"**TI83**".toList.map fun c => UInt8.ofNat c.toNat, [], [0x77], []⟩) =
    .ok [.ti83, .ti82st, .ti82stFr, .ti76Fr] := by decide +kernel

/-! ### C36 – file extensions -/

/-- C36, the part that holds: for every entry of every class, and whatever the order of models,
(1) if the target model is itself listed with an extension, that extension – the one of the
newest listed model not newer than the target, namely the target – is returned without
warning; (2) if no listed model is the target or older than it, the default extension is
returned with a warning; (3) without a target the default extension is returned. -/
theorem C36_extension_partial (ord : Model → Nat) (h : Hdr) (e : Ent) :
    (∀ m ext, (m, ext) ∈ e.cls.extensions.2 → ext ≠ [] →
      NewestListed ord e.cls.extensions.2 m m ext ∧
      Var.extension ord ⟨h, [e], some m⟩ = .ok (ext, [])) ∧
    (∀ m, (∀ x ext, (x, ext) ∈ e.cls.extensions.2 → x ≠ m ∧ ord m ≤ ord x) →
      Var.extension ord ⟨h, [e], some m⟩ = .ok (e.cls.extensions.1, [.extUnsupported])) ∧
    Var.extension ord ⟨h, [e], none⟩ = .ok (e.cls.extensions.1, []) := by
  refine ⟨?_, ?_, rfl⟩
  · intro m ext hm hne
    refine ⟨⟨hm, Nat.le_refl _, fun y _ _ hy => hy⟩, ?_⟩
    unfold Var.extension
    simp only
    cases hf : Model.all.reverse.find? fun x =>
        (e.cls.extensions.2.any fun p => p.1 == x) && Model.le ord x m with
    | none =>
      have := List.find?_eq_none.1 hf m (List.mem_reverse.2 (Model.mem_all m))
      simp only [Bool.and_eq_true, List.any_eq_true, not_and] at this
      exact absurd (by simp [Model.le]) (this ⟨_, hm, by simp⟩)
    | some x =>
      simp only
      rw [extAt_some hm fun e' he' => ext_unique _ _ _ _ he' hm]
      cases ext with
      | nil => exact absurd rfl hne
      | cons a l => rfl
  · intro m hm
    unfold Var.extension
    simp only
    cases hf : Model.all.reverse.find? fun x =>
        (e.cls.extensions.2.any fun p => p.1 == x) && Model.le ord x m with
    | none => rfl
    | some x =>
      have h1 := List.find?_some hf
      simp only [Bool.and_eq_true, List.any_eq_true, beq_iff_eq] at h1
      obtain ⟨⟨⟨a, b⟩, hp, rfl⟩, h2⟩ := h1
      obtain ⟨h3, h4⟩ := hm _ _ hp
      simp [Model.le, Model.ge, h3] at h2
      omega

/-- C36 is false: whenever the target model is not literally listed but an older model is, the
lookup is made with the target model and raises `KeyError`. For instance a program, list or
matrix exported for the TI-84 Plus CE. -/
theorem C36_extension_false (ord : Model → Nat) (h : Hdr) (e : Ent) (m x : Model) (ext : Str)
    (hx : (x, ext) ∈ e.cls.extensions.2) (hlt : ord x < ord m)
    (hm : ∀ e', (m, e') ∉ e.cls.extensions.2) :
    Var.extension ord ⟨h, [e], some m⟩ = .error .keyError := by
  unfold Var.extension
  simp only
  cases hf : Model.all.reverse.find? fun x =>
      (e.cls.extensions.2.any fun p => p.1 == x) && Model.le ord x m with
  | none =>
    have := List.find?_eq_none.1 hf x (List.mem_reverse.2 (Model.mem_all x))
    simp only [Bool.and_eq_true, List.any_eq_true, not_and] at this
    have h2 : Model.le ord x m = true := by
      unfold Model.le Model.ge
      rw [decide_eq_false (Nat.not_le.2 hlt)]; rfl
    exact absurd h2 (this ⟨_, hx, by simp⟩)
  | some y =>
    simp only
    rw [extAt_none hm]

/-- A concrete witness: a program for the TI-84 Plus CE, models being ordered as listed. -/
theorem C36_extension_witness_false :
    ∃ (ord : Model → Nat) (e : Ent) (x : Model) (ext : Str), Chronological ord ∧
      NewestListed ord e.cls.extensions.2 .ti84pce x ext ∧ ext ≠ [] ∧
      Var.extension ord ⟨Hdr.unset, [e], some .ti84pce⟩ = .error .keyError := by
  refine ⟨fun m => Model.all.idxOf m, ⟨.program, [], [], [], [], [], ⟨true, []⟩⟩, .ti83p,
    "8xp".toList, by unfold Chronological; decide +kernel, ⟨by decide +kernel, by decide +kernel, ?_⟩, by decide,
    by decide +kernel⟩
  intro y e' hy _
  have : ∀ p ∈ Cls.program.extensions.2, Model.all.idxOf p.1 ≤ Model.all.idxOf Model.ti83p := by
    decide +kernel
  exact this _ hy

example : Var.extension (fun m => Model.all.idxOf m)
    ⟨Hdr.unset, [⟨.matrix, [], [], [], [], [], ⟨true, []⟩⟩], some .ti83⟩ =
    .ok ("83m".toList, []) := by decide +kernel
example : Var.extension (fun m => Model.all.idxOf m)
    ⟨Hdr.unset, [⟨.complex, [], [], [], [], [], ⟨true, []⟩⟩], some .ti82⟩ =
    .ok ("8xc".toList, [.extUnsupported]) := by decide +kernel

end Verif
