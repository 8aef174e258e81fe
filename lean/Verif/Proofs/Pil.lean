import Verif.Model.Pil
import Verif.Props.Picture
import Verif.Props.Var
import Verif.Props.Files

/-
Lemmas on the Pillow plugins.
-/

namespace Verif
open Spec Ent
variable {V : Type} [LinearOrder V]

/-- A file of one entry. -/
theorem load_single (env : Env V) (me : Var.ModelEnv) {h : Hdr} (hw : h.Widths) {e e' : Ent} (hs : Sections e)
    {b : Bytes} (hb : e.bytes = .ok b) (hl : b.length ≤ 65535) {w : List Warn}
    (hload : Ent.load env b (Ent.fresh env) = ⟨.ok (), e', w⟩) (hb' : e'.bytes = .ok b) {m : Option Model} {v₀ : Var}
    (hm : v₀.model = none) : ∃ fb, Var.bytes ⟨h, [e], m⟩ = .ok fb ∧ fb.take 8 = h.bytes.take 8 ∧
      Var.load env me fb v₀ = ⟨.ok (), ⟨h, [e'], none⟩, w⟩ := by
  have hr : Var.entryBytes [e] = .ok b := by simp [Var.entryBytes, hb]
  have hr' : Var.entryBytes [e'] = .ok b := by simp [Var.entryBytes, hb']
  have hbl : b.length = e.len := (Ent.bytes_layout hs hb).2.1
  have hpos : 0 < b.length := by rw [hbl]; have := Ent.len_ge (e := e); omega
  refine ⟨_, bytes_framed (v := ⟨h, [e], m⟩) (by simpa using hs) hr hl, ?_, ?_⟩
  · have := Hdr.bytes_length hw
    rw [List.append_assoc, List.append_assoc, List.take_append_of_le_length (by show 8 ≤ h.bytes.length; omega)]
  · generalize hc : toLE 2 ((b.map UInt8.toNat).sum % 65536) = c
    have hcl : c.length = 2 := by rw [← hc]; exact length_toLE 2 _
    have hhb := Hdr.bytes_length hw
    have hn : fromLE (toLE 2 b.length) = b.length :=
      fromLE_toLE_of_lt (by have : 256 ^ 2 = 65536 := rfl; omega)
    have hdata : h.bytes ++ toLE 2 b.length ++ b ++ c = (h.bytes ++ toLE 2 b.length) ++ (b ++ c) := by simp
    have hread1 := Stream.read_app' (data := h.bytes ++ toLE 2 b.length ++ b ++ c) (p := 0)
      (pre := []) (mid := h.bytes) (post := toLE 2 b.length ++ b ++ c) (n := 53) (by simp) rfl hhb
    have hread2 := Stream.read_app' (data := h.bytes ++ toLE 2 b.length ++ b ++ c) (p := 53)
      (pre := h.bytes) (mid := toLE 2 b.length) (post := b ++ c) (n := 2) (by simp) hhb.symm (length_toLE 2 _)
    have hp : 53 + 2 = (h.bytes ++ toLE 2 b.length).length := by simp [hhb]
    have hdrl : Var.onHeader (Hdr.load h.bytes) v₀ = ⟨.ok (), { v₀ with hdr := h }, []⟩ := by
      simp [Var.onHeader, Hdr.load_bytes hw]
    have hread3 := Stream.read_app' (data := (h.bytes ++ toLE 2 b.length) ++ (b ++ c))
      (p := ((h.bytes ++ toLE 2 b.length) ++ b).length)
      (pre := (h.bytes ++ toLE 2 b.length) ++ b) (mid := c) (post := []) (n := 2) (by simp) rfl hcl
    have hrun := Var.loadLoop_step env hs hb (pre := h.bytes ++ toLE 2 b.length) (post := c) b.length
      (b.length : Int) (by omega) { v₀ with hdr := h, entries := [] }
    rw [hload] at hrun
    have hend : Var.loadLoop env b.length ((b.length : Int) - e.len)
        ⟨h.bytes ++ toLE 2 b.length ++ (b ++ c), (h.bytes ++ toLE 2 b.length ++ b).length⟩
        { v₀ with hdr := h, entries := [e'] } = ⟨.ok (0, ⟨h.bytes ++ toLE 2 b.length ++ (b ++ c),
          (h.bytes ++ toLE 2 b.length ++ b).length⟩), { v₀ with hdr := h, entries := [e'] }, []⟩ := by
      rw [← hbl, show (b.length : Int) - b.length = 0 by omega]
      match hk : b.length, hpos with
      | k + 1, _ => rw [Var.loadLoop]; simp
    simp only [List.nil_append, hend, Var.warned, Var.conflictOf, List.append_nil] at hrun
    have hck := Var.checksum_eq (v := ⟨h, [e'], none⟩) hr'
    rw [hc] at hck
    unfold Var.load
    simp only [Stream.ofBytes, hread1, Nat.zero_add, hread2, hn]
    rw [PyM.bind_ok hdrl, hp, hdata]
    simp only [PyM.bind_run, PyM.modify_run, hrun, hread3]
    simp [Var.checkModel, PyM.bind_run, hm, hck]

/-- Loading the bytes of a picture. -/
theorem picture_reload (env : Env V) {e : Ent} (hw : WF e) {n : Nat}
    (hc : (e.cls = .monoPicture ∧ n = 756) ∨ (e.cls = .picture ∧ n = 21945)) (ht : e.typeId = [0x07])
    (hno : ¬FlashIsLength e) (hlen : 2 ≤ e.body.bytes.length) (h2 : fromLE (e.body.bytes.take 2) = n) (hmu : e.body.mutable = true) {b : Bytes} (hb : e.bytes = .ok b) :
    load env b (Ent.fresh env) = ⟨.ok (), e, loadWarnings e.cls e.metaLen e.version⟩ := by
  have he : ({ e with body := ⟨true, e.body.bytes⟩ } : Ent) = e := by rw [← hmu]
  have hsz : ({ e with cls := .picture, body := ⟨true, e.body.bytes⟩ } : Ent).sizedLength = n := by
    unfold sizedLength
    simp only
    rw [show lengthStart .picture = 0 by decide]
    have := getSlice_nat (a := 0) (b := 2) (d := e.body.bytes) (by omega) (by omega)
    rw [List.drop_zero] at this
    exact (congrArg fromLE this).trans h2
  have hco : coerce env { e with cls := .entry, body := ⟨true, e.body.bytes⟩ } =
      ⟨.ok (), { e with body := ⟨true, e.body.bytes⟩ }, []⟩ := by
    refine (coerce_base env (e := { e with cls := .entry, body := ⟨true, e.body.bytes⟩ }) (c := .picture) rfl ht
      rfl).trans ?_
    unfold coerceTyped
    simp only [PyM.bind_run, PyM.get_run]
    unfold coercePicture
    simp only [PyM.bind_run, PyM.get_run, hsz]
    rcases hc with ⟨hc, rfl⟩ | ⟨hc, rfl⟩ <;> simp [setClass, hc]
  have hload : load env b (Ent.fresh env) = loadBase env b (Ent.fresh env) := by
    simp [load, PyM.bind_run, Ent.fresh]
  obtain ⟨v, hv⟩ := length_one hw.version
  rw [hload, loadBase_bytes env hw (fun _ => hno) hb]
  show after (checkType (Ent.fresh env) _) (finish env { e with cls := .entry, body := ⟨true, e.body.bytes⟩ }) = _
  rw [finish_of_coerce env hco hv (metaLen_iff (show e.metaLen.length = 2 from metaLen_length hw.toSections)), he]
  simp [after, checkType, Ent.fresh, Cls.typeId]

/-- Saving an image whose entry can be loaded again. -/
theorem saveImage_of (env : Env V) (me : Var.ModelEnv) {p : Plugin} {name : Bytes} {r : Raster} {img e : Ent}
    {w0 w1 w : List Warn} {b : Bytes}
    (hnew : (Ent.new env p.cls { name := name, archived := some true } []) () = ⟨.ok img, (), w0⟩)
    (hre : reshape p r.values = .ok r.values) (hpl : pluginLoad env p r.values img = ⟨.ok (), e, w1⟩)
    (hs : Sections e) (hne : e.body.bytes ≠ []) (hb : e.bytes = .ok b) (hl : b.length ≤ 65535)
    (hload : load env b (Ent.fresh env) = ⟨.ok (), e, w⟩) :
    ∃ fb hd, saveImage env p name r () = ⟨.ok fb, (), w0 ++ w1⟩ ∧ pluginAccept fb = true ∧
      loadFile env me fb () = ⟨.ok ⟨hd, [e], none⟩, (), w⟩ := by
  obtain ⟨hd, hhd⟩ : ∃ hd, hd = (Hdr.init none none [0x1a, 0x0a] none Hdr.defaultComment [] Hdr.unset).st := ⟨_, rfl⟩
  have hw : hd.Widths := by rw [hhd]; exact hdr_init_widths none
  have hinit := init_none_run
  rw [← hhd] at hinit
  obtain ⟨fb, hfb, h8, hfl⟩ := load_single env me hw hs hb hl hload hb (m := none) (v₀ := ⟨hd, [], none⟩) rfl
  have hadd : Var.addEntry env (some e) ⟨hd, [], none⟩ = ⟨.ok (), ⟨hd, [e], none⟩, []⟩ := by
    have : e.isEmpty = false := by simp [Ent.isEmpty, Ent.calcLength, hne]
    simp [Var.addEntry, PyM.bind_run, this]
  have hexp : exportVar env e none none ⟨Hdr.unset, [], none⟩ = ⟨.ok (), ⟨hd, [e], none⟩, []⟩ := by
    unfold exportVar
    rw [PyM.bind_ok hinit, hadd]
    rfl
  refine ⟨fb, hd, ?_, ?_, ?_⟩
  · unfold saveImage
    rw [PyM.bind_ok hnew, hre]
    simp only [PyM.bind_run, PyM.ofExcept_run, hpl, hexp, hfb]
    simp
  · unfold pluginAccept
    rw [h8, hhd]
    decide +kernel
  · unfold loadFile
    simp only [hinit, hfl, List.nil_append]

/-- Opening a file that loads without a warning. -/
theorem openImage_of (env : Env V) (me : Var.ModelEnv) {p : Plugin} {fb : Bytes} {v : Var} {e : Ent} {es : List Ent}
    (hload : loadFile env me fb () = ⟨.ok v, (), []⟩) (hv : v.entries = e :: es) (hc : e.cls = p.cls)
    {values : List Int} (ha : pluginArray p e = .ok values) :
    openImage env me p fb () = ⟨.ok ⟨p.width, p.height, p.bands, values⟩, (), []⟩ := by
  have hf : firstEntry v = .ok e := by unfold firstEntry; rw [hv]
  have hsub : e.cls.isSub p.cls = true := by rw [hc]; cases p <;> decide
  have hopen : pluginOpen env me p fb () = ⟨.ok (), (), []⟩ := by
    unfold pluginOpen strictly
    simp [PyM.bind_run, hload, hf, hsub]
  unfold openImage
  rw [PyM.bind_ok hopen, PyM.bind_ok hload]
  simp [PyM.bind_run, hf, ha]

/-- Opening a file that loads with a warning. -/
theorem openImage_warned (env : Env V) (me : Var.ModelEnv) {p : Plugin} {fb : Bytes} {v : Var} {w : Warn} {ws : List Warn}
    (hload : loadFile env me fb () = ⟨.ok v, (), w :: ws⟩) :
    openImage env me p fb () = ⟨.error .bytesWarningError, (), []⟩ := by
  have hopen : pluginOpen env me p fb () = ⟨.error .bytesWarningError, (), []⟩ := by
    unfold pluginOpen strictly
    simp only [PyM.bind_run, hload, PyM.ofExcept_run]
    cases firstEntry v with
    | error x => simp
    | ok e => simp only; split <;> simp_all
  unfold openImage
  rw [PyM.bind_error hopen]

/-- Opening a file of another kind. -/
theorem openImage_other (env : Env V) (me : Var.ModelEnv) {p : Plugin} {fb : Bytes} {v : Var} {e : Ent} {es : List Ent}
    (hload : loadFile env me fb () = ⟨.ok v, (), []⟩) (hv : v.entries = e :: es) (hc : e.cls.isSub p.cls = false) :
    openImage env me p fb () = ⟨.error .typeError, (), []⟩ := by
  have hf : firstEntry v = .ok e := by unfold firstEntry; rw [hv]
  have hopen : pluginOpen env me p fb () = ⟨.error .typeError, (), []⟩ := by
    unfold pluginOpen strictly
    simp [PyM.bind_run, hload, hf, hc]
  unfold openImage
  rw [PyM.bind_error hopen]

theorem triples_components (n : Nat) : ∀ l : List Int, l.length = 3 * n →
    (triples l).length = n ∧ components (triples l) = l := by
  induction n with
  | zero => intro l h; have : l = [] := List.length_eq_zero_iff.1 (by omega)
            subst this; exact ⟨rfl, rfl⟩
  | succ n ih =>
    intro l h
    match l, h with
    | a :: b :: c :: l, h =>
      obtain ⟨h1, h2⟩ := ih l (by simp at h; omega)
      refine ⟨by simp [triples, h1], ?_⟩
      show a :: b :: c :: components (triples l) = _
      rw [h2]

theorem shape_chunks {α : Type} {w h : Nat} (hw : 0 < w) {l : List α} (hl : l.length = w * h) :
    Shape w h (chunks w l) ∧ (chunks w l).flatten = l := by
  obtain ⟨h1, h2, h3⟩ := chunks_spec hw hl
  exact ⟨⟨h1, h2⟩, h3⟩

/-- A picture that was loaded into a new entry is saved and loaded without a warning. -/
theorem picture_file (env : Env V) (me : Var.ModelEnv) {p : Plugin} {name : Bytes} {r : Raster} {img e : Ent}
    {w0 w1 : List Warn} {n : Nat} {v : UInt8} (hn : name.length = 8)
    (hnew : (Ent.new env p.cls { name := name, archived := some true } []) () = ⟨.ok img, (), w0⟩)
    (hre : reshape p r.values = .ok r.values) (hpl : pluginLoad env p r.values img = ⟨.ok (), e, w1⟩)
    (hc : (e.cls = .monoPicture ∧ n = 756 ∧ v = 0x00) ∨ (e.cls = .picture ∧ n = 21945 ∧ v = 0x0A))
    (hname : e.name = name) (ht : e.typeId = [0x07]) (hm : e.metaLen = [0x0D, 0x00]) (ha : e.archived = [0x80])
    (hv : e.version = [v]) (hmu : e.body.mutable = true) (hl : e.body.bytes.length = n + 2)
    (h2 : fromLE (e.body.bytes.take 2) = n) :
    ∃ fb hd, saveImage env p name r () = ⟨.ok fb, (), w0 ++ w1⟩ ∧ pluginAccept fb = true ∧
      loadFile env me fb () = ⟨.ok ⟨hd, [e], none⟩, (), []⟩ := by
  have hw : WF e := {
    metaLen := .inr hm, typeId := by rw [ht]; rfl, name := by rw [hname]; exact hn, version := by rw [hv]; rfl,
    archived := by rw [ha]; rfl, flag := .inr ha, flashless := fun h => by rw [hm] at h; exact absurd h (by decide)
    length := by rcases hc with ⟨-, rfl, -⟩ | ⟨-, rfl, -⟩ <;> omega }
  have hno : ¬FlashIsLength e := by
    unfold FlashIsLength; rw [hv, ha, hl]
    rcases hc with ⟨-, rfl, rfl⟩ | ⟨-, rfl, rfl⟩ <;> decide
  have hb := bytes_ok (e := e) hw.length
  have hload := picture_reload env hw (n := n) (by rcases hc with ⟨h, h', -⟩ | ⟨h, h', -⟩ <;> simp [h, h']) ht hno
    (by omega) h2 hmu hb
  have hwarn : loadWarnings e.cls e.metaLen e.version = [] := by
    rw [hm, hv]; rcases hc with ⟨h, -, rfl⟩ | ⟨h, -, rfl⟩ <;> rw [h] <;> decide
  rw [hwarn] at hload
  have hlen := (bytes_layout hw.toSections hb).2.1
  refine saveImage_of env me hnew hre hpl hw.toSections ?_ hb ?_ hload
  · intro h; rw [h] at hl; simp at hl
  · rw [hlen]
    unfold len metaLength calcLength
    rw [hm, hl]
    have : n + 2 ≤ 30000 := by rcases hc with ⟨-, rfl, -⟩ | ⟨-, rfl, -⟩ <;> omega
    have h13 : fromLE [0x0D, 0x00] = 13 := by decide
    omega

theorem forall₂_flatten {α β : Type} {R : α → β → Prop} {l : List (List α)} {m : List (List β)}
    (h : List.Forall₂ (List.Forall₂ R) l m) : List.Forall₂ R l.flatten m.flatten := by
  induction h with
  | nil => exact .nil
  | cons h _ ih =>
    simp only [List.flatten_cons]
    exact List.rel_append h ih

theorem triples_byte (n : Nat) : ∀ l : List Int, l.length = 3 * n → (∀ x ∈ l, 0 ≤ x ∧ x ≤ 255) →
    ∀ p ∈ triples l, IsByteColour p := by
  induction n with
  | zero => intro l h _ p hp; have : l = [] := List.length_eq_zero_iff.1 (by omega)
            subst this; simp [triples] at hp
  | succ n ih =>
    intro l h hx p hp
    match l, h with
    | a :: b :: c :: l, h =>
      simp only [triples, List.mem_cons] at hp
      rcases hp with rfl | hp
      · have ha := hx a (by simp); have hb := hx b (by simp); have hc := hx c (by simp)
        unfold IsByteColour; simp only; omega
      · exact ih l (by simp at h; omega) (fun x hxl => hx x (by simp [hxl])) p hp

end Verif
