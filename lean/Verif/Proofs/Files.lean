import Verif.Spec.Files
import Verif.Props.Var
import Verif.Props.Construct
import Verif.Proofs.Support

/-! Lemmas about saving and opening files. -/

namespace Verif
open Spec
variable {V : Type} [LinearOrder V]

/-! ### Names -/

theorem fileName_ok {ord : Model → Nat} {v : Var} {name filename ext : Str}
    (h : '.' ∉ filename → ∃ we, v.extension ord = .ok (ext, we)) :
    ∃ we, v.fileName ord name filename = .ok (pathOf name filename ext, we) := by
  unfold Var.fileName pathOf
  cases filename with
  | nil =>
    obtain ⟨we, h⟩ := h (by simp)
    exact ⟨we, by simp [h, Except.map]⟩
  | cons a l =>
    by_cases hd : '.' ∈ a :: l
    · exact ⟨[], by simp [hd]⟩
    · obtain ⟨we, h⟩ := h hd
      exact ⟨we, by simp [h, hd, Except.map]⟩

omit [LinearOrder V] in
theorem write_write (fs : Files) (p : Str) (a b : Bytes) : (fs.write p a).write p b = fs.write p b := by
  funext n
  unfold Files.write
  split <;> rfl

/-! ### Saving -/

theorem supportWarns_ok (env : OsEnv V) (m : Model) {es : List Ent} {oss : List V}
    (h : List.Forall₂ (fun e os => (e.getMinOs env []).2 = .ok os) es oss) :
    Var.supportWarns env m es = ((es.zip oss).flatMap fun p =>
      (p.1.getMinOs env []).1 ++ (if env.latest m < p.2 then [.saveUnsupported] else []), .ok ()) := by
  induction h with
  | nil => rfl
  | @cons e os es oss h _ ih =>
    unfold Var.supportWarns
    rcases hg : e.getMinOs env [] with ⟨ws, r⟩
    rw [hg] at h
    simp only at h
    subst h
    simp [ih, hg]

theorem saveCheck_ok (env : OsEnv V) (v : Var)
    (h : v.model ≠ none → ∀ e ∈ v.entries, ∃ os, (e.getMinOs env []).2 = .ok os) :
    ∃ ws, v.saveCheck env = (ws, .ok ()) := by
  unfold Var.saveCheck
  cases hm : v.model with
  | none => exact ⟨[], rfl⟩
  | some m =>
    obtain ⟨oss, ho⟩ : ∃ oss, List.Forall₂ (fun e os => (e.getMinOs env []).2 = .ok os) v.entries oss :=
      forall₂_of_exists (h (by simp [hm]))
    exact ⟨_, supportWarns_ok env m ho⟩

theorem save_ok {env : OsEnv V} {ord : Model → Nat} {v : Var} {name filename path : Str} {we wc : List Warn} {b : Bytes}
    (hp : v.fileName ord name filename = .ok (path, we)) (hc : v.saveCheck env = (wc, .ok ())) (hb : v.bytes = .ok b)
    (fs : Files) : v.save env ord name filename fs = ⟨.ok (), fs.write path b, we ++ wc⟩ := by
  unfold Var.save
  simp [PyM.bind_run, hp, hc, hb, write_write]

theorem save_error {env : OsEnv V} {ord : Model → Nat} {v : Var} {name filename path : Str} {we wc : List Warn} {x : PyErr}
    (hp : v.fileName ord name filename = .ok (path, we)) (hc : v.saveCheck env = (wc, .ok ())) (hb : v.bytes = .error x)
    (fs : Files) : v.save env ord name filename fs = ⟨.error x, fs.write path [], we ++ wc⟩ := by
  unfold Var.save
  simp [PyM.bind_run, hp, hc, hb]

/-! ### Headers -/

theorem init_none_run : Var.init none none ⟨Hdr.unset, [], none⟩ =
    ⟨.ok (), ⟨(Hdr.init none none [0x1a, 0x0a] none Hdr.defaultComment [] Hdr.unset).st, [], none⟩, []⟩ := by
  decide +kernel

theorem hdr_init_widths (m : Option Model) :
    (Hdr.init m none [0x1a, 0x0a] none Hdr.defaultComment [] Hdr.unset).st.Widths := by
  unfold Hdr.Widths
  rcases m with _ | m
  · decide +kernel
  · cases m <;> decide +kernel

theorem init_st {header : Option Hdr} {model : Option Model}
    (h : (Var.init header model ⟨Hdr.unset, [], none⟩).res = .ok ()) (hw : ∀ h, header = some h → h.Widths) :
    ∃ hd, (Var.init header model ⟨Hdr.unset, [], none⟩).st = ⟨hd, [], model⟩ ∧ hd.Widths ∧ ∀ h, header = some h → hd = h := by
  cases header with
  | none =>
    refine ⟨(Hdr.init model none [0x1a, 0x0a] none Hdr.defaultComment [] Hdr.unset).st, ?_, hdr_init_widths model,
      by intro h hh; cases hh⟩
    rcases model with _ | m
    · rw [init_none_run]
    · cases m <;> decide +kernel
  | some hd =>
    refine ⟨hd, ?_, hw hd rfl, by intro h hh; cases hh; rfl⟩
    unfold Var.init
    rcases model with _ | m
    · rfl
    · simp only [PyM.bind_run, PyM.set_run, PyM.get_run]
      rcases hd.targets with x | ts
      · rfl
      · by_cases hm : m ∈ ts <;> simp [hm]

/-! ### Opening -/

theorem load_settled (env : Env V) {e e₀ : Ent} (hw : WF e) (hno : e.metaLen = [0x0D, 0x00] → ¬FlashIsLength e)
    (hs : Settled env e) {b : Bytes} (hb : e.bytes = .ok b) (hc : e₀.cls = e.cls) :
    ∃ ws, Ent.load env b e₀ = ⟨.ok (), { e with body := ⟨true, e.body.bytes⟩ }, ws⟩ ∧ ∀ w ∈ ws, w ∉ corruption := by
  obtain ⟨t, ht⟩ := length_one hw.typeId
  obtain ⟨v, hv⟩ := length_one hw.version
  have hco : Ent.coerce env { e with cls := e₀.cls, body := ⟨true, e.body.bytes⟩ } =
      ⟨.ok (), { e with body := ⟨true, e.body.bytes⟩ }, []⟩ := by
    rw [hc]
    exact Ent.coerce_settled env (e := { e with body := ⟨true, e.body.bytes⟩ }) ht hs
  have hbase := Ent.loadBase_bytes env hw hno hb e₀
  rw [Ent.finish_of_coerce env hco hv (Ent.metaLen_iff (show e.metaLen.length = 2 from
    Ent.metaLen_length hw.toSections))] at hbase
  have hck : Ent.checkType e₀ (fromLE e.typeId) = [] := by
    unfold Ent.checkType
    simp only [hc, hs.1, if_true]
  rw [hck] at hbase
  simp only [Ent.after, List.nil_append] at hbase
  obtain ⟨ws', hload, hws'⟩ := Ent.load_any env hbase hv
  refine ⟨_, hload, ?_⟩
  intro w hw
  rcases List.mem_append.1 hw with h | h
  · exact Ent.loadWarnings_ok _ _ _ w h
  · exact hws' w h

theorem toLE_two_eq {n k : Nat} (hn : n ≤ 65535) (hk : k < 256) : toLE 2 n = [UInt8.ofNat k, 0x00] ↔ n = k := by
  constructor
  · intro h
    have h' := congrArg fromLE h
    rw [fromLE_toLE_of_lt (by omega)] at h'
    rw [h']
    simp [fromLE, Nat.mod_eq_of_lt hk]
  · rintro rfl
    have : n / 256 = 0 := Nat.div_eq_of_lt hk
    simp [toLE, this]

/-- Opening the bytes of a var loads the first entry. -/
theorem openFile_bytes (env : Env V) {v : Var} {e e₀ e' : Ent} {es : List Ent} {ws : List Warn} {b b1 : Bytes}
    (hw : v.hdr.Widths) (he : v.entries = e :: es) (hs : ∀ e ∈ v.entries, Sections e) (hb : v.bytes = .ok b)
    (hl : (v.entries.map Ent.len).sum ≤ 65535) (hb1 : e.bytes = .ok b1)
    (hload : Ent.load env b1 e₀ = ⟨.ok (), e', ws⟩) :
    Ent.openFile env (Stream.ofBytes b) e₀ = ⟨.ok (), e', ws ++ restWarning es⟩ := by
  obtain ⟨region, hr⟩ := entryBytes_ok hs hl
  have hrl := Var.entryBytes_length hs hr
  rw [bytes_framed hs hr (by omega)] at hb
  injection hb with hb
  rw [he] at hr
  obtain ⟨b1', r2, h1, h2, hreg⟩ := Var.entryBytes_cons hr
  rw [hb1] at h1
  injection h1 with h1
  subst h1
  have hbl : v.hdr.bytes.length = 53 := Hdr.bytes_length hw
  have hcl : (toLE 2 ((region.map UInt8.toNat).sum % 65536)).length = 2 := length_toLE 2 _
  generalize toLE 2 ((region.map UInt8.toNat).sum % 65536) = c at hb hcl
  have hdata : b = (v.hdr.bytes ++ toLE 2 region.length) ++ (b1 ++ (r2 ++ c)) := by
    rw [← hb, hreg]; simp
  have hread1 := Stream.read_app' (data := b) (p := 0) (pre := []) (mid := v.hdr.bytes)
    (post := toLE 2 region.length ++ (b1 ++ (r2 ++ c))) (n := 53) (by rw [hdata]; simp) rfl hbl
  have hseek : Stream.seekRel ⟨b, 0 + 53⟩ 2 =
      ⟨(v.hdr.bytes ++ toLE 2 region.length) ++ (b1 ++ (r2 ++ c)), (v.hdr.bytes ++ toLE 2 region.length).length⟩ := by
    rw [hdata]
    simp [Stream.seekRel, hbl]
  have hse : Sections e := hs e (by rw [he]; simp)
  have hnext := nextEntryLength_bytes hse (pre := v.hdr.bytes ++ toLE 2 region.length) (post := r2 ++ c) hb1
  have hlen := (Ent.bytes_layout hse hb1).2.1
  have hread2 := Stream.read_app (v.hdr.bytes ++ toLE 2 region.length) b1 (r2 ++ c) hlen
  have hrest : (Stream.readAll (Stream.seekRel ⟨(v.hdr.bytes ++ toLE 2 region.length) ++ (b1 ++ (r2 ++ c)),
      (v.hdr.bytes ++ toLE 2 region.length).length + e.len⟩ 2)).1 = (r2 ++ c).drop 2 := by
    simp only [Stream.readAll, Stream.seekRel]
    rw [show ((((v.hdr.bytes ++ toLE 2 region.length).length + e.len : Nat) : Int) + 2).toNat =
      ((v.hdr.bytes ++ toLE 2 region.length) ++ b1).length + 2 by rw [List.length_append (bs := b1), hlen]; omega,
      ← List.append_assoc, ← List.drop_drop, List.drop_left]
  unfold Ent.openFile
  simp only [Stream.ofBytes, hread1, hseek, hnext, hread2]
  simp only [PyM.bind_run, PyM.warnAll_run, List.nil_append, hload]
  rw [hrest]
  cases es with
  | nil =>
    injection h2 with h2
    subst h2
    rw [if_pos (by rw [List.nil_append]; exact List.drop_eq_nil_of_le (by omega))]
    simp [restWarning]
  | cons x xs =>
    obtain ⟨bx, r3, hbx, h3, rfl⟩ := Var.entryBytes_cons h2
    have hsx : Sections x := hs x (by rw [he]; simp)
    obtain ⟨hx, -, r, rfl⟩ := Ent.bytes_layout hsx hbx
    have hm := Ent.metaLen_length hsx
    have hd : (x.metaLen ++ (toLE 2 x.body.bytes.length ++ r) ++ r3 ++ c).drop 2 =
        toLE 2 x.body.bytes.length ++ (r ++ r3 ++ c) := by
      rw [← hm]; simp
    have ht : (toLE 2 x.body.bytes.length ++ (r ++ r3 ++ c)).take 2 = toLE 2 x.body.bytes.length :=
      List.take_left' (length_toLE 2 _)
    rw [hd, if_neg (by intro h; have := congrArg List.length h; simp [length_toLE] at this), ht]
    have k11 := toLE_two_eq hx (k := 11) (by decide)
    have k13 := toLE_two_eq hx (k := 13) (by decide)
    rw [show (UInt8.ofNat 11) = 0x0B from rfl] at k11
    rw [show (UInt8.ofNat 13) = 0x0D from rfl] at k13
    simp only [k11, k13, restWarning]
    split <;> simp

/-- The lower case of the extensions is their own. -/
theorem extensions_lower (c : Cls) : ∀ x ∈ c.extensions.1 :: c.extensions.2.map Prod.snd, lowerAscii x = x := by
  cases c <;> decide +kernel

theorem endsWith_append (s t : Str) : Ent.endsWith (s ++ t) t = true := by
  unfold Ent.endsWith
  simp

theorem lowerAscii_append (s t : Str) : lowerAscii (s ++ t) = lowerAscii s ++ lowerAscii t := by
  simp [lowerAscii]

/-- A file with one of the extensions of the class is not warned about. -/
theorem extensionWarns_ext {c : Cls} {x : Str} (h : x ∈ c.extensions.1 :: c.extensions.2.map Prod.snd) (s : Str) :
    Ent.extensionWarns c (s ++ x) = [] := by
  unfold Ent.extensionWarns
  rw [if_neg]
  simp only [Bool.and_eq_true, Bool.not_eq_true', not_and, Bool.not_eq_false]
  intro _
  rw [List.any_eq_true]
  refine ⟨x, h, ?_⟩
  rw [lowerAscii_append, extensions_lower c x h]
  exact endsWith_append _ _

/-- The extension of a var of one entry is one of those of the class. -/
theorem extension_mem {ord : Model → Nat} {hd : Hdr} {e : Ent} {model : Option Model} {ext : Str} {we : List Warn}
    (h : Var.extension ord ⟨hd, [e], model⟩ = .ok (ext, we)) :
    ext ∈ e.cls.extensions.1 :: e.cls.extensions.2.map Prod.snd := by
  unfold Var.extension at h
  rcases model with _ | m
  · simp only [Except.ok.injEq, Prod.mk.injEq] at h
    rw [← h.1]; exact List.mem_cons_self ..
  · simp only at h
    split at h
    · cases h
    · rename_i ext' hx
      simp only [Except.ok.injEq] at h
      split at h
      · simp only [Prod.mk.injEq] at h
        rw [← h.1]; exact List.mem_cons_self ..
      · rename_i hne
        simp only [Prod.mk.injEq] at h
        rw [← h.1]
        split at hx
        · simp only [Except.ok.injEq] at hx
          subst hx
          simp at hne
        · unfold Var.extAt at hx
          split at hx
          · rename_i p hp
            simp only [Except.ok.injEq] at hx
            rw [← hx]
            exact List.mem_cons_of_mem _ (List.mem_map.2 ⟨p, List.mem_of_find?_eq_some hp, rfl⟩)
          · cases hx

end Verif
