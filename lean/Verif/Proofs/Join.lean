import Verif.Model.Join
import Verif.Spec.Join
import Verif.Proofs.Construct
import Verif.Proofs.Files
import Verif.Props.Var

/-! Helper lemmas for copies of vars. -/

namespace Verif
open Spec
namespace Ent
variable {V : Type} [LinearOrder V]

theorem settled_mode {e : Ent} (h : e.cls ∈ [Cls.func, .param, .polar, .seq, .monoFunc, .monoParam, .monoPolar, .monoSeq])
    (hl : e.body.bytes.getD 3 0 = Spec.modeByte e.cls) : e.modeId = (Spec.modeByte e.cls).toNat := by
  have hlen : 4 ≤ e.body.bytes.length := by
    by_contra hlen
    rw [List.getD, List.getElem?_eq_none (by omega)] at hl
    exact (by decide : ∀ c ∈ [Cls.func, .param, .polar, .seq, .monoFunc, .monoParam, .monoPolar, .monoSeq],
      Spec.modeByte c ≠ 0) _ h hl.symm
  rw [modeId_eq e hlen, hl]

/-- What is left of a database behind the 61 bytes that all of them have. -/
theorem colorData_base {e : Ent} (h : e.cls = .monoGDB) : e.colorData = e.body.bytes.drop 61 := by
  unfold colorData
  simp [h, gdbOffset, gdbCounts, readEquations, Stream.rest, Stream.ofBytes]

/-- A database that is read from a file: class and mode. -/
theorem coerce_gdb (env : Env V) {e : Ent} (ht : e.typeId = [0x08]) {c : Cls} (hc : c ∈ colorClasses)
    (hm : e.modeId = (Spec.modeByte c).toNat) :
    coerce env { e with cls := .entry } =
      ⟨.ok (), { e with cls := if 61 < e.body.bytes.length then c else monoOf c }, []⟩ := by
  rw [coerce_base env (e := { e with cls := .entry }) rfl ht (c := .monoGDB) rfl]
  have hcd := colorData_base (e := { e with cls := .monoGDB }) rfl
  have hm' : ({ e with cls := .monoGDB } : Ent).modeId = (Spec.modeByte c).toNat := hm
  have hm'' : ({ e with cls := .gdb } : Ent).modeId = (Spec.modeByte c).toNat := hm
  simp only [colorClasses, List.mem_cons, List.not_mem_nil, or_false] at hc
  by_cases hl : 61 < e.body.bytes.length
  · have hne : ({ e with cls := .monoGDB } : Ent).colorData ≠ [] := by
      rw [hcd]; intro h; have := List.drop_eq_nil_iff.1 h; simp at this; omega
    rw [if_pos hl]
    rcases hc with rfl | rfl | rfl | rfl
    all_goals
      simp only [coerceTyped, coerceMonoGDB, coerceColorGDB, PyM.bind_run, PyM.get_run, setClass, PyM.modify_run,
        PyM.ite_run, hne, ne_eq, not_false_eq_true, if_true, hm'', Spec.modeByte]
      simp
  · have hne : ({ e with cls := .monoGDB } : Ent).colorData = [] := by
      rw [hcd]; exact List.drop_eq_nil_of_le (by simp; omega)
    rw [if_neg hl]
    rcases hc with rfl | rfl | rfl | rfl
    all_goals
      simp only [coerceTyped, coerceMonoGDB, PyM.bind_run, PyM.get_run, setClass, PyM.modify_run,
        PyM.ite_run, hne, ne_eq, not_true_eq_false, if_false, hm', Spec.modeByte]
      simp [monoOf]

/-- Coercion from the base class gives the class that type and content lead to. -/
theorem coerce_fromFile (env : Env V) {e : Ent} {t : UInt8} (ht : e.typeId = [t]) (hf : FromFile env e) :
    coerce env { e with cls := .entry } = ⟨.ok (), e, []⟩ := by
  obtain ⟨hs, hcol, hmon⟩ := hf
  have hset := coerce_settled env ht hs
  have hty := hs.1
  have htn : fromLE e.typeId = t.toNat := by rw [ht]; simp [fromLE]
  rw [htn] at hty
  have heta : ∀ c, e.cls = c → ({ e with cls := c } : Ent) = e := by
    rintro c rfl; rfl
  have hreg : ∀ c, e.cls = c → c ∈ [Cls.real, .undefReal, .realFraction, .realRadical, .realPi, .realPiFraction, .matrix,
        .equation, .newEquation, .string, .window, .recallWindow, .tableSettings, .appVar, .group, .program, .protProgram,
        .complex, .complexFraction, .complexRadical, .complexPi, .complexPiFraction, .realList, .complexList, .picture, .image] →
      coerce env { e with cls := .entry } = ⟨.ok (), e, []⟩ := by
    intro c h hc
    have h1 : Cls.getType t.toNat = some e.cls := by
      rw [h] at hty ⊢
      simp only [List.mem_cons, List.not_mem_nil, or_false] at hc
      rcases hc with rfl | rfl | rfl | rfl | rfl | rfl | rfl | rfl | rfl | rfl | rfl | rfl | rfl | rfl | rfl | rfl | rfl |
        rfl | rfl | rfl | rfl | rfl | rfl | rfl | rfl | rfl <;> injection hty with hty <;> rw [← hty] <;> rfl
    have h2 : coerce env e = coerceTyped env e := by
      simp only [List.mem_cons, List.not_mem_nil, or_false] at hc
      rcases hc with rfl | rfl | rfl | rfl | rfl | rfl | rfl | rfl | rfl | rfl | rfl | rfl | rfl | rfl | rfl | rfl | rfl |
        rfl | rfl | rfl | rfl | rfl | rfl | rfl | rfl | rfl <;> simp [coerce, PyM.bind_run, h]
    rw [coerce_base env (e := { e with cls := .entry }) rfl ht h1, ← hset, h2]
  have hgdb : ∀ c ∈ [Cls.func, .param, .polar, .seq, .monoFunc, .monoParam, .monoPolar, .monoSeq], e.cls = c → t = 0x08 := by
    intro c hc h
    have : c.typeId = some 8 := (by decide : ∀ c ∈ [Cls.func, .param, .polar, .seq, .monoFunc, .monoParam, .monoPolar, .monoSeq],
      c.typeId = some 8) _ hc
    rw [h, this] at hty
    injection hty with hty
    exact UInt8.toNat_inj.1 hty.symm
  rcases hs.2 with h | ⟨h, ha⟩ | ⟨h, hl, hi⟩ | ⟨h, hl, hi⟩ | ⟨h, hl, hi⟩ | ⟨h, hl⟩ | ⟨h, hl⟩ | ⟨h, hl⟩ |
    ⟨h, hl⟩ | ⟨h, hl, hcd⟩
  · refine hreg e.cls rfl ?_
    rcases hc : e.cls <;> rw [hc] at h <;> first | exact absurd h (by decide) | decide
  · rcases h with h | h <;> exact hreg _ h (by decide)
  · refine hreg e.cls rfl ?_
    simp only [complexClasses, List.mem_cons, List.not_mem_nil, or_false] at h
    rcases h with h | h | h | h | h <;> rw [h] <;> decide
  · exact hreg _ h (by decide)
  · exact hreg _ h (by decide)
  · have h7 : t.toNat = 7 := by rw [h] at hty; injection hty with hty; exact hty.symm
    rw [coerce_base env (e := { e with cls := .entry }) rfl ht (c := .picture) (by rw [h7]; rfl)]
    have hr : coerceTyped env { e with cls := .picture } = coercePicture { e with cls := .picture } := by
      simp [coerceTyped, PyM.bind_run]
    rw [hr, coercePicture_run rfl, hl, if_pos (by decide), heta _ h]
  · exact hreg _ h (by decide)
  · exact hreg _ h (by decide)
  · have hsub : e.cls ∈ [Cls.func, .param, .polar, .seq, .monoFunc, .monoParam, .monoPolar, .monoSeq] :=
      (by decide : ∀ c ∈ [Cls.func, .param, .polar, .seq],
        c ∈ [Cls.func, .param, .polar, .seq, .monoFunc, .monoParam, .monoPolar, .monoSeq]) _ h
    have h8 := hgdb e.cls hsub rfl
    rw [coerce_gdb env (by rw [ht, h8]) (c := e.cls) h (settled_mode hsub hl), if_pos (hcol h)]
  · have hsub : e.cls ∈ [Cls.func, .param, .polar, .seq, .monoFunc, .monoParam, .monoPolar, .monoSeq] :=
      (by decide : ∀ c ∈ [Cls.monoFunc, .monoParam, .monoPolar, .monoSeq],
        c ∈ [Cls.func, .param, .polar, .seq, .monoFunc, .monoParam, .monoPolar, .monoSeq]) _ h
    have h8 := hgdb e.cls hsub rfl
    obtain ⟨c, hc, h1, h2⟩ : ∃ c ∈ colorClasses, e.cls = monoOf c ∧ Spec.modeByte c = Spec.modeByte (monoOf c) := by
      simp only [List.mem_cons, List.not_mem_nil, or_false] at h
      rcases h with h | h | h | h <;> rw [h]
      · exact ⟨.func, by decide⟩
      · exact ⟨.param, by decide⟩
      · exact ⟨.polar, by decide⟩
      · exact ⟨.seq, by decide⟩
    have hm := settled_mode hsub hl
    rw [h1, ← h2] at hm
    have hle := hmon h
    rw [coerce_gdb env (by rw [ht, h8]) hc hm, if_neg (by omega), heta _ h1]

/-- Loading the bytes of an entry into a new one of the base class, given its coercion. -/
theorem load_base (env : Env V) {e : Ent} (hw : WF e) (hno : e.metaLen = [0x0D, 0x00] → ¬FlashIsLength e) {c : Cls}
    (hco : coerce env { e with cls := .entry, body := ⟨true, e.body.bytes⟩ } =
      ⟨.ok (), { e with cls := c, body := ⟨true, e.body.bytes⟩ }, []⟩) {b : Bytes} (hb : e.bytes = .ok b) {e₀ : Ent}
    (h₀ : e₀.cls = .entry) :
    load env b e₀ = ⟨.ok (), { e with cls := c, body := ⟨true, e.body.bytes⟩ }, loadWarnings c e.metaLen e.version⟩ := by
  obtain ⟨v, hv⟩ := length_one hw.version
  have hload : load env b e₀ = loadBase env b e₀ := by
    simp [load, PyM.bind_run, h₀]
  rw [hload, loadBase_bytes env hw hno hb, h₀, finish_of_coerce env hco hv
    (metaLen_iff (show e.metaLen.length = 2 from metaLen_length hw.toSections))]
  have hck : checkType e₀ (fromLE e.typeId) = [] := by
    unfold checkType
    rw [h₀]; rfl
  rw [hck]
  simp [after]

theorem exact_loads (env : Env V) {e : Ent} (h : Exact env e) :
    ∃ ws, Var.Loads env e (thaw e) ws ∧ ∀ w ∈ ws, w ∉ varCorruption ∧ w ≠ .metaConflict := by
  obtain ⟨t, ht⟩ := length_one h.wf.typeId
  have hco := coerce_fromFile env (e := thaw e) ht h.fromFile
  refine ⟨_, ⟨_, bytes_ok h.wf.length, load_base env h.wf h.flash hco (bytes_ok h.wf.length) rfl⟩, ?_⟩
  intro w hw
  unfold loadWarnings at hw
  rcases List.mem_append.1 hw with h | h <;> split at h <;> simp at h
  all_goals (subst h; decide)

end Ent

namespace Var
variable {V : Type} [LinearOrder V]

/-- Loading a file of entries that come back exactly. -/
theorem load_exact (env : Env V) (me : ModelEnv) {v : Var} (hw : v.hdr.Widths) (hst : ∀ e ∈ v.entries, Exact env e)
    (hl : (v.entries.map Ent.len).sum < 65536) :
    ∃ b, v.bytes = .ok b ∧ ∀ v₀ : Var, v₀.model = none → ∃ ws,
      load env me b v₀ = ⟨.ok (), ⟨v.hdr, v.entries.map thaw, none⟩, ws⟩ ∧ ∀ w ∈ ws, w ∉ varCorruption := by
  have hs : ∀ e ∈ v.entries, Sections e := fun e he => (hst e he).wf.toSections
  obtain ⟨region, hr⟩ := entryBytes_ok hs (by omega)
  have hrl := entryBytes_length hs hr
  have hb := bytes_framed hs hr (by omega)
  have det : ∀ e e' w, Exact env e → Loads env e e' w → e' = thaw e ∧ ∀ x ∈ w, x ∉ varCorruption := by
    intro e e' w he hlo
    obtain ⟨ws, ⟨b, h1, h2⟩, h3⟩ := Ent.exact_loads env he
    obtain ⟨b', h4, h5⟩ := hlo
    rw [h1] at h4
    injection h4 with h4
    subst h4
    rw [h2] at h5
    injection h5 with _ h6 h7
    subst h6 h7
    exact ⟨rfl, fun x hx => (h3 x hx).1⟩
  refine ⟨_, hb, fun v₀ hm => ?_⟩
  rcases load_framed env me hw hs hr (by omega) (length_toLE 2 ((region.map UInt8.toNat).sum % 65536)) v₀ with
    ⟨es', ws, hf, hws, -, hload⟩ | ⟨e, he, b', x, h1, h2, h3⟩
  · have hes : es' = v.entries.map thaw := by
      clear hload hws hb hrl hr hl
      generalize v.entries = es at hf hst
      induction hf with
      | nil => rfl
      | cons hx _ ih =>
        obtain ⟨w, hx⟩ := hx
        rw [(det _ _ w (hst _ (by simp)) hx).1, ih (fun e he => hst e (by simp [he]))]
        rfl
    have hre : entryBytes es' = .ok region := by
      rw [hes, ← hr]
      clear hload hws hb hrl hr hl hst hs hf hes
      induction v.entries with
      | nil => rfl
      | cons e es ih =>
        rw [List.map_cons]
        unfold entryBytes
        rw [ih]
        rfl
    have hck := checksum_eq (v := ⟨v.hdr, es', v₀.model⟩) hre
    refine ⟨ws, ?_, ?_⟩
    · rw [hload]
      rw [hm] at hck
      simp [warned, afterLoop, checkModel, PyM.bind_run, hm, hck, ← hes]
    · intro w hmem
      rcases hws w hmem with ⟨rfl, -⟩ | ⟨e, e', w', he, hl', hm⟩
      · decide
      · exact (det e e' w' (hst e he) hl').2 w hm
  · exfalso
    obtain ⟨ws, ⟨b, h4, h5⟩, h6⟩ := Ent.exact_loads env (hst e he)
    rw [h1] at h4
    injection h4 with h4
    subst h4
    rw [h5] at h2
    cases h2

theorem eqEntries_iff {es es' : List Ent} (h : es.length = es'.length) (hs : ∀ e ∈ es ++ es', e.body.bytes.length ≤ 65535) :
    ∃ r, eqEntries (es.zip es') = .ok r ∧ (r = true ↔ List.Forall₂ (fun a b => a.cls = b.cls ∧ a.bytes = b.bytes) es es') := by
  induction es generalizing es' with
  | nil =>
    cases es' with
    | nil => exact ⟨true, rfl, by simp⟩
    | cons _ _ => simp at h
  | cons a es ih =>
    cases es' with
    | nil => simp at h
    | cons b es' =>
      have h1 : a.bytes = .ok _ := Ent.bytes_ok (hs a (by simp))
      have h2 : b.bytes = .ok _ := Ent.bytes_ok (hs b (by simp))
      obtain ⟨r, hr, hi⟩ := ih (es' := es') (by simpa using h) (by
        intro e he
        refine hs e ?_
        rcases List.mem_append.1 he with h | h <;> simp [h])
      by_cases hc : a.cls = b.cls
      · by_cases hb : a.bytes = b.bytes
        · refine ⟨r, ?_, ?_⟩
          · have : Ent.eqEnt a b = .ok true := by
              unfold Ent.eqEnt
              rw [if_pos hc, ← hb, h1]
              simp
            simp only [List.zip_cons_cons, eqEntries, this, hr]
          · rw [hi, List.forall₂_cons]
            simp [hc, hb]
        · refine ⟨false, ?_, ?_⟩
          · have : Ent.eqEnt a b = .ok false := by
              unfold Ent.eqEnt
              rw [if_pos hc]
              rw [h1, h2] at hb ⊢
              simp only [Except.ok.injEq] at hb ⊢
              simpa using hb
            simp only [List.zip_cons_cons, eqEntries, this]
          · rw [List.forall₂_cons]
            simp [hb]
      · refine ⟨false, ?_, ?_⟩
        · have : Ent.eqEnt a b = .ok false := by
            unfold Ent.eqEnt
            rw [if_neg hc]
          simp only [List.zip_cons_cons, eqEntries, this]
        · rw [List.forall₂_cons]
          simp [hc]

/-! ### What loading leaves alone -/

/-- A step that changes neither header nor model. -/
def KeepsRest {α : Type} (m : PyM Var α) : Prop := ∀ v, (m v).st.hdr = v.hdr ∧ (m v).st.model = v.model

theorem keepsRest_bind {α β : Type} {m : PyM Var α} {f : α → PyM Var β} (h1 : KeepsRest m) (h2 : ∀ a, KeepsRest (f a)) :
    KeepsRest (m >>= f) := by
  intro v
  have a := h1 v
  rw [PyM.bind_run]
  rcases hm : m v with ⟨r, v', ws⟩
  rw [hm] at a
  cases r with
  | error x => exact a
  | ok y =>
    have b := h2 y v'
    exact ⟨b.1.trans a.1, b.2.trans a.2⟩

theorem keepsRest_pure {α : Type} (x : α) : KeepsRest (pure x : PyM Var α) := fun _ => ⟨rfl, rfl⟩

theorem keepsRest_warn (w : Warn) : KeepsRest (PyM.warn w : PyM Var Unit) := fun _ => ⟨rfl, rfl⟩

theorem keepsRest_warnAll (w : List Warn) : KeepsRest (PyM.warnAll w : PyM Var Unit) := by
  intro v; rw [PyM.warnAll_run]; exact ⟨rfl, rfl⟩

theorem keepsRest_ofExcept {α : Type} (x : Except PyErr α) : KeepsRest (PyM.ofExcept x : PyM Var α) := by
  intro v; rw [PyM.ofExcept_run]; exact ⟨rfl, rfl⟩

theorem keepsRest_ite {α : Type} {c : Prop} [Decidable c] {a b : PyM Var α} (h1 : KeepsRest a) (h2 : KeepsRest b) :
    KeepsRest (if c then a else b) := by split <;> assumption

theorem keepsRest_get : KeepsRest (PyM.get : PyM Var Var) := fun _ => ⟨rfl, rfl⟩

omit [LinearOrder V] in
theorem addEntry_keeps (env : Env V) (e : Option Ent) : KeepsRest (addEntry env e) := by
  intro v
  unfold addEntry
  simp only [PyM.bind_run, PyM.get_run]
  split <;> simp only [PyM.bind_run, PyM.set_run, PyM.ite_run, PyM.warn_run]
  all_goals (constructor <;> first | trivial | ((repeat' split) <;> rfl))

theorem loadLast_keeps (env : Env V) (d : Bytes) : KeepsRest (loadLast env d) := by
  intro v
  unfold loadLast
  simp only
  split
  · exact ⟨rfl, rfl⟩
  · exact ⟨rfl, rfl⟩

theorem loadLoop_keeps (env : Env V) (n : Nat) (l : Int) (s : Stream) : KeepsRest (loadLoop env n l s) := by
  induction n generalizing l s with
  | zero => exact fun _ => ⟨rfl, rfl⟩
  | succ n ih =>
    unfold loadLoop
    refine keepsRest_ite (keepsRest_bind (addEntry_keeps env none) fun _ => ?_) (keepsRest_pure _)
    generalize nextEntryLength s = p
    obtain ⟨ws, k, s'⟩ := p
    simp only
    generalize s'.read k = q
    obtain ⟨d, s''⟩ := q
    simp only
    refine keepsRest_bind (keepsRest_warnAll _) fun _ => ?_
    refine keepsRest_bind (loadLast_keeps env _) fun _ => ?_
    split
    · exact keepsRest_bind (keepsRest_warn _) fun _ => ih _ _
    · exact keepsRest_bind (keepsRest_pure _) fun _ => ih _ _

theorem checkModel_keeps (me : ModelEnv) : KeepsRest (checkModel me) := by
  unfold checkModel
  refine keepsRest_bind keepsRest_get fun v => ?_
  split
  · exact keepsRest_pure _
  · refine keepsRest_bind (keepsRest_ofExcept _) fun _ => keepsRest_bind (keepsRest_ofExcept _) fun _ =>
      keepsRest_ite (keepsRest_pure _) (keepsRest_warn _)

/-- The header after loading is the one at the start of the data; the model stays. -/
theorem load_header (env : Env V) (me : ModelEnv) (data : Bytes) (v : Var) :
    (load env me data v).st.hdr = (Hdr.load (data.take 53) v.hdr).st ∧ (load env me data v).st.model = v.model := by
  have hok : ∃ w, Hdr.load (data.take 53) v.hdr = ⟨.ok (), (Hdr.load (data.take 53) v.hdr).st, w⟩ := by
    rw [Hdr.load_run]; exact ⟨_, rfl⟩
  obtain ⟨w, hok⟩ := hok
  obtain ⟨h, hh⟩ : ∃ h, (Hdr.load (data.take 53) v.hdr).st = h := ⟨_, rfl⟩
  rw [hh] at hok ⊢
  have hhead : onHeader (Hdr.load (data.take 53)) v = ⟨.ok (), { v with hdr := h }, w⟩ := by
    unfold onHeader
    simp only [hok]
  have hrest : ∀ (k : PyM Var Unit), KeepsRest k → ((do onHeader (Hdr.load (data.take 53)); k : PyM Var Unit) v).st.hdr = h ∧
      ((do onHeader (Hdr.load (data.take 53)); k : PyM Var Unit) v).st.model = v.model := by
    intro k hk
    rw [PyM.bind_ok hhead]
    have := hk { v with hdr := h }
    exact this
  unfold load
  refine hrest _ ?_
  refine keepsRest_bind (fun _ => ⟨rfl, rfl⟩) fun _ => ?_
  refine keepsRest_bind (loadLoop_keeps env _ _ _) fun q => ?_
  obtain ⟨left, s⟩ := q
  simp only
  generalize s.read 2 = r
  obtain ⟨sum, s'⟩ := r
  simp only
  have htail : KeepsRest (do
      checkModel me
      let v ← PyM.get
      let own ← PyM.ofExcept v.checksum
      if sum ≠ own then PyM.warn .checksum else pure () : PyM Var Unit) :=
    keepsRest_bind (checkModel_keeps me) fun _ => keepsRest_bind keepsRest_get fun _ =>
      keepsRest_bind (keepsRest_ofExcept _) fun _ => keepsRest_ite (keepsRest_warn _) (keepsRest_pure _)
  split
  · exact keepsRest_bind (keepsRest_warn _) fun _ => htail
  · exact htail

/-! ### Headers joined with entries -/

theorem targets_ne {h : Hdr} {ts : List Model} (ht : h.targets = .ok ts) : ts ≠ [] := by
  unfold Hdr.targets at ht
  split at ht
  · cases ht
  · simp only at ht
    split at ht
    · cases ht
    · split at ht
      · injection ht with ht; subst ht; rename_i h; exact h.2
      · split at ht
        · cases ht
        · injection ht with ht; subst ht; assumption

/-- A header loaded from 53 bytes or more has these bytes. -/
theorem header_bytes (data : Bytes) (h : Hdr) (hl : 53 ≤ data.length) : (Hdr.load (data.take 53) h).st.bytes = data.take 53 := by
  have he : ljust 53 (data.take 53) = data.take 53 := ljust_of_le (by simp; omega)
  rw [Hdr.load_run, he]
  generalize hd : data.take 53 = d
  have hdl : d.length = 53 := by rw [← hd]; simp; omega
  show d.take 8 ++ (d.drop 8).take 2 ++ (d.drop 10).take 1 ++ (d.drop 11).take 42 = d
  rw [List.take_of_length_le (l := d.drop 11) (by simp; omega), ← List.take_add, ← List.take_add]
  exact List.take_append_drop 11 d

omit [LinearOrder V] in
theorem join_header {env : Env V} {pick : List Model → Model} {name : Str} {h : Nat} {es : List Ent} {s : Store} {v : VarObj}
    (hv : (VarObj.join env pick name h es s).res = .ok v) : v.header = h := by
  unfold VarObj.join at hv
  simp only at hv
  split at hv
  · cases hv
  · split at hv
    · cases hv
    · split at hv
      · cases hv
      · injection hv with hv; rw [← hv]

/-- Loading into a var puts the new header where the old one was. -/
theorem loadInto_st (env : Env V) (me : ModelEnv) (v : VarObj) (data : Bytes) (s : Store) :
    (VarObj.loadInto env me v data s).st = s.put v.header (Hdr.load (data.take 53) (s v.header)).st := by
  have h := (load_header env me data (v.toVar s)).1
  unfold VarObj.loadInto
  simp only
  rcases hl : load env me data (v.toVar s) with ⟨r, w, ws⟩
  rw [hl] at h
  cases r with
  | error x => show s.put v.header w.hdr = _; rw [show w.hdr = _ from h]; rfl
  | ok u => show s.put v.header w.hdr = _; rw [show w.hdr = _ from h]; rfl

omit [LinearOrder V] in
theorem addAll_run (env : Env V) : ∀ (es : List Ent) (v : Var) (e : Ent), v.entries.head? = some e →
    (∀ x ∈ es, x.body.bytes ≠ []) →
    ∃ ws, VarObj.addAll env es v = ⟨.ok (), { v with entries := v.entries ++ es }, ws⟩ ∧
      ((∀ x ∈ es, fromLE x.metaLen = fromLE e.metaLen) → ws = [])
  | [], v, e, _, _ => ⟨[], by simp [VarObj.addAll], fun _ => rfl⟩
  | x :: es, v, e, he, hne => by
    obtain ⟨w1, h1, h1w⟩ := C33_add_entry_partial env v x (hne x (by simp))
    obtain ⟨w2, h2, h2w⟩ := addAll_run env es { v with entries := v.entries ++ [x] } e
      (by simp only; rw [List.head?_append, he]; rfl) (fun y hy => hne y (by simp [hy]))
    refine ⟨w1 ++ w2, ?_, fun h => ?_⟩
    · unfold VarObj.addAll
      rw [PyM.bind_ok h1, h2]
      simp
    · rw [h1w e he (h x (by simp)).symm, h2w fun y hy => h y (by simp [hy])]
      rfl

end Var
end Verif
