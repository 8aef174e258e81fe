import Verif.Model.Init
import Verif.Proofs.Construct
import Verif.Proofs.Gdb
import Verif.Spec.Mono

/-! Helper lemmas for entries made from other entries. -/

namespace Verif
open Spec
namespace Ent
variable {V : Type} [LinearOrder V]

/-- Loading the bytes of an entry whose content agrees with its class into an entry of that class. -/
theorem load_settled (env : Env V) {e : Ent} (hw : WF e) (hno : e.metaLen = [0x0D, 0x00] → ¬FlashIsLength e)
    (hs : Settled env e) {b : Bytes} (hb : e.bytes = .ok b) {e₀ : Ent} (hc : e₀.cls = e.cls) :
    ∃ ws, load env b e₀ = ⟨.ok (), { e with body := ⟨true, e.body.bytes⟩ }, ws⟩ ∧ ∀ w ∈ ws, w ∉ corruption := by
  obtain ⟨t, ht⟩ := length_one hw.typeId
  obtain ⟨v, hv⟩ := length_one hw.version
  have hco : coerce env { e with cls := e.cls, body := ⟨true, e.body.bytes⟩ } =
      ⟨.ok (), { e with body := ⟨true, e.body.bytes⟩ }, []⟩ :=
    coerce_settled env (e := { e with body := ⟨true, e.body.bytes⟩ }) ht hs
  have hbase := loadBase_bytes env hw hno hb e₀
  rw [hc, finish_of_coerce env hco hv (metaLen_iff (show e.metaLen.length = 2 from metaLen_length hw.toSections))] at hbase
  have hck : checkType e₀ (fromLE e.typeId) = [] := by
    unfold checkType
    simp only [hc, hs.1, if_true]
  rw [hck] at hbase
  simp only [after, List.nil_append] at hbase
  obtain ⟨ws', hload, hws'⟩ := load_any env hbase hv
  refine ⟨_, hload, fun w hm => ?_⟩
  rcases List.mem_append.1 hm with h | h
  · exact loadWarnings_ok _ _ _ w h
  · exact hws' w h

/-- The entry that `init` is loaded into. -/
def startEnt (c : Cls) (a : NewArgs) : Ent :=
  ⟨c, [0x0D, 0x00], [UInt8.ofNat (c.typeId.getD 0xFF)], a.name, [UInt8.ofNat (a.version.getD 0)],
    [if a.archived.getD false then 0x80 else 0x00], ⟨true, clearFull c⟩⟩

/-- The constructor up to the colours, given what `init` does. -/
theorem newRest_load (env : Env V) {c : Cls} {a : NewArgs} (hf : a.forFlash = true) {load : PyM Ent Unit} {e' : Ent} {ws ws' : List Warn}
    {v : Nat} (hl : load (startEnt c a) = ⟨.ok (), e', ws⟩)
    (hv : a.version = none → getVersion env e' [] = (ws', .ok v)) :
    ∃ e₀, newBase c a = .ok e₀ ∧ newRest env a [] load e₀ = ⟨.ok (), if a.version = none then { e' with version := [UInt8.ofNat v] } else e',
      ws ++ if a.version = none then ws' ++ (if e'.metaLength = 11 then [.flashlessVersion] else []) else []⟩ := by
  have hvv : UInt8.ofNat ((v : Int) % 256).toNat = UInt8.ofNat v := by
    apply UInt8.toNat_inj.1; simp; omega
  refine ⟨{ startEnt c a with body := ⟨true, []⟩ }, by unfold newBase initMeta; rw [hf]; rfl, ?_⟩
  have hst : ({ startEnt c a with body := ⟨true, clearFull (startEnt c a).cls⟩ } : Ent) = startEnt c a := rfl
  rcases hver : a.version with _ | n
  · have hg := hv hver
    simp only [newRest, PyM.bind_run, PyM.modify_run, ne_eq, not_true_eq_false, if_false]
    rw [hst, hl]
    simp only [hver, if_true, PyM.bind_run, PyM.get_run, hg, PyM.warnAll_run, PyM.ofExcept_run, setVersion_run, hvv]
    simp
  · simp only [newRest, PyM.bind_run, PyM.modify_run, ne_eq, not_true_eq_false, if_false]
    rw [hst, hl]
    simp [hver]

theorem new_load (env : Env V) {c : Cls} {a : NewArgs} (hf : a.forFlash = true) {load : PyM Ent Unit} {e' : Ent} {ws ws' : List Warn}
    {v : Nat} (hl : load (startEnt c a) = ⟨.ok (), e', ws⟩)
    (hv : a.version = none → getVersion env e' [] = (ws', .ok v)) (hg : c.isSub .gdb = false) :
    (new env c a [] load) () = ⟨.ok (if a.version = none then { e' with version := [UInt8.ofNat v] } else e'), (),
      ws ++ if a.version = none then ws' ++ (if e'.metaLength = 11 then [.flashlessVersion] else []) else []⟩ := by
  obtain ⟨e₀, hb, hr⟩ := newRest_load env hf hl hv
  exact new_run env hg hb hr

theorem new_load_color (env : Env V) {c : Cls} {a : NewArgs} (hf : a.forFlash = true) {load : PyM Ent Unit} {e' : Ent} {ws ws' : List Warn}
    {v : Nat} (hl : load (startEnt c a) = ⟨.ok (), e', ws⟩)
    (hv : a.version = none → getVersion env e' [] = (ws', .ok v)) (hg : c.isSub .gdb = true) (hg' : e'.cls.isSub .gdb = true)
    {pre : Bytes} {g x p q r : UInt8} (hbd : e'.body = ⟨true, pre ++ [g, x, p, q, r]⟩) :
    (new env c a [] load) () = ⟨.ok { e' with
        version := (if a.version = none then [UInt8.ofNat v] else e'.version)
        body := ⟨true, pre ++ [0x0D, 0x03, p, q, r]⟩ }, (),
      ws ++ if a.version = none then ws' ++ (if e'.metaLength = 11 then [.flashlessVersion] else []) else []⟩ := by
  obtain ⟨e₀, hb, hr⟩ := newRest_load env hf hl hv
  have hsc := setColors_run (e := if a.version = none then { e' with version := [UInt8.ofNat v] } else e') (pre := pre) (g := g) (a := x)
    (x := p) (y := q) (z := r) (by split <;> exact hg') (by split <;> exact hbd)
  simp only [new, newInit, hb, PyM.bind_run, hr, hg, if_true, hsc]
  by_cases h : a.version = none <;> simp [h]

/-- Loading the bytes of an entry without the last of them. -/
theorem loadBase_cut (env : Env V) {e : Ent} (hw : WF e) (hno : e.metaLen = [0x0D, 0x00] → ¬FlashIsLength e) {b : Bytes}
    (hb : e.bytes = .ok b) {n : Nat} (hn0 : 0 < n) (hn : n + 2 ≤ e.body.bytes.length) (e₀ : Ent) :
    loadBase env (b.take (b.length - n)) e₀ = after (checkType e₀ (fromLE e.typeId) ++ [.dataLength])
      (finish env { e with cls := e₀.cls, body := ⟨true, e.body.bytes.take (e.body.bytes.length - n)⟩ }) := by
  have hlen : e.calcLength ≤ 65535 := hw.length
  rw [bytes_ok hlen] at hb
  injection hb with hb
  obtain ⟨t, ht⟩ := length_one hw.typeId
  obtain ⟨n0, n1, n2, n3, n4, n5, n6, n7, hnm⟩ := length_eight hw.name
  obtain ⟨v, hv⟩ := length_one hw.version
  obtain ⟨a, ha⟩ := length_one hw.archived
  obtain ⟨l0, l1, hl, hl2⟩ := toLE_two e.calcLength hlen
  have htn : fromLE e.typeId = t.toNat := by rw [ht]; simp [fromLE]
  have hlenb : e.body.bytes.length = fromLE [l0, l1] := hl2.symm
  obtain ⟨cut, hcut⟩ : ∃ cut, cut = e.body.bytes.take (e.body.bytes.length - n) := ⟨_, rfl⟩
  have hcl : cut.length = e.body.bytes.length - n := by rw [hcut, List.length_take]; omega
  have htake : cut.take (fromLE [l0, l1]) = cut := List.take_of_length_le (by omega)
  have hne : cut.length ≠ fromLE [l0, l1] := by omega
  rw [← hcut]
  rcases hw.metaLen with hm | hm
  · obtain ⟨h1, h2⟩ := hw.flashless hm
    rw [flashBytes_eleven hm, hm, ht, hnm, hl] at hb
    have hb1 : b = [0x0B, 0x00, l0, l1, t, n0, n1, n2, n3, n4, n5, n6, n7, l0, l1] ++ e.body.bytes := by rw [← hb]; simp
    have hb2 : b.take (b.length - n) = [0x0B, 0x00, l0, l1, t, n0, n1, n2, n3, n4, n5, n6, n7, l0, l1] ++ cut := by
      rw [hb1, List.take_append, hcut]
      simp only [List.length_append]
      rw [List.take_of_length_le (by simp; omega)]
      congr 2
      simp
      omega
    have hb' : ljust 17 (b.take (b.length - n)) = 0x0B :: 0x00 :: l0 :: l1 :: t :: n0 :: n1 :: n2 :: n3 :: n4 :: n5 ::
        n6 :: n7 :: l0 :: l1 :: cut := by
      rw [hb2, ljust_of_le (by simp; omega)]; simp
    rw [loadBase_flashless env _ e₀ _ _ _ _ _ _ _ _ _ _ _ _ _ _ _ _ hb' rfl, htake, htn, hm, ht, hnm, h1, h2]
    simp [hne]
  · rw [flashBytes_thirteen hm hw.version hw.archived, hm, ht, hnm, hl, hv, ha] at hb
    have hb1 : b = [0x0D, 0x00, l0, l1, t, n0, n1, n2, n3, n4, n5, n6, n7, v, a, l0, l1] ++ e.body.bytes := by rw [← hb]; simp
    have hb2 : b.take (b.length - n) = [0x0D, 0x00, l0, l1, t, n0, n1, n2, n3, n4, n5, n6, n7, v, a, l0, l1] ++ cut := by
      rw [hb1, List.take_append, hcut]
      simp only [List.length_append]
      rw [List.take_of_length_le (by simp; omega)]
      congr 2
      simp
      omega
    have hb' : ljust 17 (b.take (b.length - n)) = 0x0D :: 0x00 :: l0 :: l1 :: t :: n0 :: n1 :: n2 :: n3 :: n4 :: n5 ::
        n6 :: n7 :: v :: a :: l0 :: l1 :: cut := by
      rw [hb2, ljust_of_le (by simp)]; simp
    have hmis : ¬(fromLE [(0x0D : UInt8), 0x00] = 13 ∧ [v, a] = [l0, l1]) := by
      rintro ⟨-, h⟩
      apply hno hm
      unfold FlashIsLength
      rw [hv, ha]
      show fromLE [v, a] = _
      rw [h, hl2]; rfl
    rw [loadBase_flash env _ e₀ _ _ _ _ _ _ _ _ _ _ _ _ _ _ _ _ _ _ hb' (by decide) hmis]
    have hflag : ¬(a ≠ 0 ∧ a ≠ 0x80) := by
      rcases hw.flag with h | h <;> rw [ha] at h <;> injection h with h <;> simp [h]
    rw [htake, htn, hm, ht, hnm, hv, ha, if_neg hflag]
    have : fromLE [(0x0D : UInt8), 0x00] = 13 := rfl
    simp [hne, this]

theorem plain_fits {p : Plot} {c : Cls} (hc : c ∈ colorClasses) (hp : p.Fits c) : p.plain.Fits (monoOf c) := by
  have := hp
  simp only [colorClasses, List.mem_cons, List.not_mem_nil, or_false] at hc
  rcases hc with rfl | rfl | rfl | rfl <;> exact ⟨hp.head, hp.styles, hp.eqs, hp.tokens, fun t h => by cases h⟩

theorem plain_bytes {p : Plot} : p.bytes = p.plain.bytes ++ tailBytes p.tail := by
  unfold Plot.bytes Plot.plain
  simp [tailBytes]

theorem plain_length {p : Plot} {c : Cls} (hc : c ∈ colorClasses) (hp : p.Fits c) : 7 ≤ p.plain.bytes.length := by
  have : 7 ≤ p.head.length := by
    rw [hp.head]
    exact (by decide : ∀ c ∈ colorClasses, 7 ≤ fieldStart c (fieldNames c).length) _ hc
  unfold Plot.plain Plot.bytes
  simp
  omega

/-- `mono` of a database of known parts. -/
theorem mono_plot (env : Env V) (nm : Bytes) {e : Ent} (hw : WF e) (hno : e.metaLen = [0x0D, 0x00] → ¬FlashIsLength e)
    (hc : e.cls ∈ colorClasses) {p : Plot} (hp : p.Fits e.cls) (hb : e.body.bytes = p.bytes) (ht : p.tail ≠ none)
    (hm : e.body.bytes.getD 3 0 = modeByte e.cls) (hid : e.typeId = [0x08]) :
    ∃ v ws, mono env nm e () = ⟨.ok ⟨monoOf e.cls, e.metaLen, [0x08], e.name, [v], e.archived, ⟨true, p.plain.bytes⟩⟩, (), ws⟩ ∧
      .dataLength ∈ ws ∧ (¬Counted p.plain.bytes → .sizedLength ∈ ws) := by
  obtain ⟨t, htl⟩ := Option.ne_none_iff_exists'.1 ht
  obtain ⟨n, hmp, hn0, hn, hty, hver, hsized, hcx, hpl, hgr, hgd, hplot, hmd⟩ : ∃ n, monoParts e.cls = some (monoOf e.cls, n) ∧ 0 < n ∧
      n = 8 + styleCount e.cls ∧ (monoOf e.cls).typeId = some 8 ∧ (monoOf e.cls) ≠ .graphedEquation ∧
      (monoOf e.cls).leadingData = [] ∧ ¬(monoOf e.cls ∈ complexClasses ∨ monoOf e.cls = .complexE) ∧ plainData (monoOf e.cls) = false ∧
      monoOf e.cls ≠ .group ∧ (monoOf e.cls).isSub .gdb = false ∧ monoOf e.cls ∈ plotClasses ∧ modeByte (monoOf e.cls) = modeByte e.cls := by
    simp only [colorClasses, List.mem_cons, List.not_mem_nil, or_false] at hc
    rcases hc with h | h | h | h <;> rw [h]
    · exact ⟨18, by decide⟩
    · exact ⟨14, by decide⟩
    · exact ⟨14, by decide⟩
    · exact ⟨11, by decide⟩
  obtain ⟨h1, h2, h3⟩ := hp.tail t htl
  have htlen : (tailBytes p.tail).length = n := by
    rw [htl, hn]; simp only [tailBytes, ColorPart.bytes, List.length_append, h1, h2, h3]; omega
  have hlen : e.body.bytes.length = p.plain.bytes.length + n := by
    rw [hb, plain_bytes, List.length_append, htlen]
  have h7 := plain_length hc hp
  have htake : e.body.bytes.take (e.body.bytes.length - n) = p.plain.bytes := by
    rw [hlen, Nat.add_sub_cancel, hb, plain_bytes (p := p), List.take_left]
  obtain ⟨b, hby⟩ : ∃ b, e.bytes = .ok b := ⟨_, bytes_ok (e := e) hw.length⟩
  obtain ⟨v, hv⟩ := length_one hw.version
  obtain ⟨e', he'⟩ : ∃ e' : Ent, e' = ⟨monoOf e.cls, e.metaLen, [0x08], e.name, e.version, e.archived, ⟨true, p.plain.bytes⟩⟩ := ⟨_, rfl⟩
  have hmode : p.plain.bytes.getD 3 0 = modeByte (monoOf e.cls) := by
    rw [hmd, ← hm, hb, plain_bytes (p := p), List.getD_eq_getElem?_getD, List.getD_eq_getElem?_getD,
      List.getElem?_append_left (by omega)]
  have hset : Settled env e' := by
    refine ⟨by rw [he']; exact hty, ?_⟩
    right; right; right; right; right; right; right; right; right
    refine ⟨?_, by rw [he']; exact hmode, ?_⟩
    · rw [he']
      exact (by decide : ∀ c ∈ colorClasses, monoOf c ∈ [Cls.monoFunc, .monoParam, .monoPolar, .monoSeq]) _ hc
    · rw [colorData_plot (e := e') (p := p.plain) (by rw [he']; exact hplot) (by rw [he']; exact plain_fits hc hp) (by rw [he'])]
      rfl
  have hco := coerce_settled env (e := e') (t := 0x08) (by rw [he']) hset
  have hcut := loadBase_cut env hw hno hby hn0 (by omega) (startEnt (monoOf e.cls) { name := nm })
  rw [htake] at hcut
  have hee : ({ e with cls := (startEnt (monoOf e.cls) { name := nm }).cls, body := ⟨true, p.plain.bytes⟩ } : Ent) = e' := by
    rw [he', ← hid]; rfl
  rw [hee, finish_of_coerce env hco (v := v) (by rw [he']; exact hv)
    (metaLen_iff (by rw [he']; exact metaLen_length (e := e) hw.toSections))] at hcut
  have hck : checkType (startEnt (monoOf e.cls) { name := nm }) (fromLE e.typeId) = [] := by
    unfold checkType
    simp [startEnt, hty, hid, fromLE]
  rw [hck] at hcut
  simp only [after, List.nil_append] at hcut
  obtain ⟨ws1, hload, hw1, hw2⟩ : ∃ ws1, load env (b.take (b.length - n)) (startEnt (monoOf e.cls) { name := nm }) = ⟨.ok (), e', ws1⟩ ∧
      .dataLength ∈ ws1 ∧ (¬Counted p.plain.bytes → .sizedLength ∈ ws1) := by
    have hrun : ∀ x : Bytes, load env x (startEnt (monoOf e.cls) { name := nm }) =
        (do loadBase env x; checkSized : PyM Ent Unit) (startEnt (monoOf e.cls) { name := nm }) := by
      intro x
      simp only [colorClasses, List.mem_cons, List.not_mem_nil, or_false] at hc
      rcases hc with h | h | h | h <;> rw [h] <;> rfl
    obtain ⟨wz, hz, -⟩ := checkSized_run e'
    rw [hrun, PyM.bind_ok hcut, hz]
    refine ⟨_, rfl, by simp, fun hcnt => ?_⟩
    have hsz : e'.sizedLength ≠ e'.cls.leadingData.length + e'.data.length := by
      intro h
      apply hcnt
      have hd : dataStart (monoOf e.cls) = 2 := by
        simp only [colorClasses, List.mem_cons, List.not_mem_nil, or_false] at hc
        rcases hc with h | h | h | h <;> rw [h] <;> rfl
      unfold sizedLength data at h
      rw [he'] at h
      simp only [hsized, hd, lengthStart, hver, if_false, List.length_drop, List.length_nil] at h
      unfold Counted
      have : getSlice p.plain.bytes { start := some ((0 : Nat) : Int), stop := some ((0 : Nat) + 2 : Int) } = p.plain.bytes.take 2 := by
        simpa [Slice.nat] using getSlice_nat (a := 0) (b := 2) (d := p.plain.bytes) (by omega) (by omega)
      rw [this] at h
      omega
    have : wz = [.sizedLength] := by
      have := hz
      unfold checkSized at this
      simp only [PyM.bind_run, PyM.get_run, hsz, ne_eq, not_false_eq_true, if_true, PyM.warn_run] at this
      injection this with _ _ this
      simpa using this.symm
    rw [this]
    simp
  have hl' : (do
      let b ← PyM.ofExcept e.bytes
      load env (b.take (b.length - n)) : PyM Ent Unit) (startEnt (monoOf e.cls) { name := nm }) = ⟨.ok (), e', ws1⟩ := by
    rw [PyM.bind_run, hby]
    simp [PyM.ofExcept_run, hload]
  obtain ⟨ws', w, hgv⟩ := getVersion_total env (e := e') [] (by rw [he']; exact hgr) (fun h => by rw [he'] at h; exact absurd h hcx)
    (by rw [he']; exact hpl)
  have hnew := new_load env (c := monoOf e.cls) (a := { name := nm }) rfl hl' (fun _ => hgv) hgd
  simp only [if_true] at hnew
  have hmono : mono env nm e () = (new env (monoOf e.cls) { name := nm } [] (do
      let b ← PyM.ofExcept e.bytes
      load env (b.take (b.length - n)))) () := by
    unfold mono
    rw [hmp]
  rw [hnew] at hmono
  generalize (ws' ++ if e'.metaLength = 11 then [Warn.flashlessVersion] else []) = x at hmono
  rw [he'] at hmono
  exact ⟨UInt8.ofNat w, ws1 ++ x, hmono, List.mem_append_left _ hw1, fun h => List.mem_append_left _ (hw2 h)⟩

end Ent
end Verif
