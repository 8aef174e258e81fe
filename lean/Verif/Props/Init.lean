import Verif.Proofs.Init
import Verif.Spec.Sample

/-! Properties of entries made from other entries, and of graph databases without their colours: C121, C122. -/

namespace Verif
open Spec Ent
variable {V : Type} [LinearOrder V]

/-- **C121, what holds** An entry made from another one of its class, colour graph databases apart: it has the
same type, name, archived flag and data whatever the arguments say. If a version is given the version is nevertheless that
of the other entry; if none is given it is computed anew, so that it is the one of the kind for the kinds whose version does not
depend on the content. -/
theorem C121_init_partial (env : Env V) (e : Ent) (hw : WF e) (hno : e.metaLen = [0x0D, 0x00] → ¬FlashIsLength e)
    (hs : Settled env e) (a : NewArgs) (hf : a.forFlash = true) (hg : e.cls ∉ [Cls.gdb, .func, .param, .polar, .seq]) :
    (∀ n, a.version = some n → ∃ ws, newFrom env e.cls a e () = ⟨.ok { e with body := ⟨true, e.body.bytes⟩ }, (), ws⟩ ∧
      ∀ w ∈ ws, w ∉ corruption) ∧
    (∀ v ws', a.version = none → getVersion env { e with body := ⟨true, e.body.bytes⟩ } [] = (ws', .ok v) →
      ∃ ws, newFrom env e.cls a e () = ⟨.ok { e with version := [UInt8.ofNat v], body := ⟨true, e.body.bytes⟩ }, (), ws⟩) ∧
    (a.version = none → fixedVersion e.cls = true →
      ∃ ws, newFrom env e.cls a e () = ⟨.ok { e with version := [blankVersion e.cls], body := ⟨true, e.body.bytes⟩ }, (), ws⟩) := by
  obtain ⟨b, hb⟩ : ∃ b, e.bytes = .ok b := ⟨_, bytes_ok (e := e) hw.length⟩
  have hsub : e.cls.isSub .gdb = false := by
    have : ∀ c : Cls, c ∉ [Cls.gdb, .func, .param, .polar, .seq] → c.isSub .gdb = false := by
      intro c; cases c <;> decide
    exact this _ hg
  obtain ⟨ws, hl, hws⟩ := load_settled env hw hno hs hb (e₀ := startEnt e.cls a) rfl
  have hl' : (do
      let b ← PyM.ofExcept e.bytes
      load env b : PyM Ent Unit) (startEnt e.cls a) = ⟨.ok (), { e with body := ⟨true, e.body.bytes⟩ }, ws⟩ := by
    rw [PyM.bind_run, hb]
    simp [PyM.ofExcept_run, hl]
  have hmid : ∀ v ws', a.version = none → getVersion env { e with body := ⟨true, e.body.bytes⟩ } [] = (ws', .ok v) →
      ∃ ws, newFrom env e.cls a e () = ⟨.ok { e with version := [UInt8.ofNat v], body := ⟨true, e.body.bytes⟩ }, (), ws⟩ := by
    intro v ws' hn hv
    have := new_load env hf hl' (fun _ => hv) hsub
    rw [if_pos hn] at this
    exact ⟨_, this⟩
  refine ⟨fun n hn => ?_, hmid, fun hn hfix => ?_⟩
  · have := new_load env (v := 0) (ws' := []) hf hl' (fun h => by rw [hn] at h; cases h) hsub
    simp only [hn, reduceCtorEq, if_false, List.append_nil] at this
    exact ⟨ws, this, hws⟩
  · obtain ⟨v, hv, hbv⟩ := getVersion_fixed env (e := { e with body := ⟨true, e.body.bytes⟩ }) [] hfix
    obtain ⟨w, h⟩ := hmid v [] hn hv
    exact ⟨w, by rw [h, hbv]⟩

/-- **C121 for colour graph databases** A colour graph database made from another one has everything of it but the
colours of the grid and the axes, which are medium grey and black whatever they were. -/
theorem C121_gdb_partial (env : Env V) (e : Ent) (hw : WF e) (hno : e.metaLen = [0x0D, 0x00] → ¬FlashIsLength e)
    (hs : Settled env e) (a : NewArgs) (hf : a.forFlash = true) (hg : e.cls ∈ [Cls.func, .param, .polar, .seq])
    (pre : Bytes) (grid axes line border flags : UInt8) (hb : e.body.bytes = pre ++ [grid, axes, line, border, flags]) :
    ∃ v ws, newFrom env e.cls a e () = ⟨.ok { e with
        version := [v]
        body := ⟨true, pre ++ [0x0D, 0x03, line, border, flags]⟩ }, (), ws⟩ ∧
      ∀ n, a.version = some n → e.version = [v] := by
  obtain ⟨b, hby⟩ : ∃ b, e.bytes = .ok b := ⟨_, bytes_ok (e := e) hw.length⟩
  obtain ⟨hsub, hgr, hcx, hpl⟩ : e.cls.isSub .gdb = true ∧ e.cls ≠ .group ∧ ¬(e.cls ∈ complexClasses ∨ e.cls = .complexE) ∧
      plainData e.cls = false :=
    (by decide : ∀ c ∈ [Cls.func, .param, .polar, .seq], c.isSub .gdb = true ∧ c ≠ .group ∧
      ¬(c ∈ complexClasses ∨ c = .complexE) ∧ plainData c = false) _ hg
  obtain ⟨ws, hl, hws⟩ := load_settled env hw hno hs hby (e₀ := startEnt e.cls a) rfl
  have hl' : (do
      let b ← PyM.ofExcept e.bytes
      load env b : PyM Ent Unit) (startEnt e.cls a) = ⟨.ok (), { e with body := ⟨true, e.body.bytes⟩ }, ws⟩ := by
    rw [PyM.bind_run, hby]
    simp [PyM.ofExcept_run, hl]
  obtain ⟨ws', v, hv⟩ := getVersion_total env (e := { e with body := ⟨true, e.body.bytes⟩ }) [] hgr (fun h => absurd h hcx) hpl
  have := new_load_color env hf hl' (fun _ => hv) hsub hsub (pre := pre) (g := grid) (x := axes) (p := line) (q := border) (r := flags)
    (by rw [hb])
  obtain ⟨u, hu⟩ := length_one hw.version
  rcases hver : a.version with _ | n
  · simp only [hver, if_true] at this
    exact ⟨_, _, this, by simp⟩
  · simp only [hver, reduceCtorEq, if_false] at this
    exact ⟨u, _, by rw [← hu]; exact this, fun _ _ => hu⟩

/-- A function database in colour: no equations, a red grid and blue axes. -/
def redGrid : Ent := ⟨.func, [0x0D, 0x00], [0x08], [0x61, 0, 0, 0, 0, 0, 0, 0], [0x05], [0x00],
  ⟨true, [126, 0, 0, 0x10] ++ List.replicate 106 0 ++ [0x38, 0x34, 0x43] ++ List.replicate 10 0 ++ [0x02, 0x01, 0x02, 0x03, 0x00]⟩⟩

/-- **C121 fails for the colours**: a database with a red grid and blue axes gives one with a grey grid and black axes. -/
theorem C121_colors_false : ∃ e e' : Ent, WF e ∧ ¬FlashIsLength e ∧ Settled sampleEnv e ∧
    (newFrom sampleEnv e.cls { name := sampleEnv.unnamed, version := some 5 } e ()).res = .ok e' ∧ eqEnt e e' = .ok false := by
  refine ⟨redGrid, { redGrid with
    body := ⟨true, redGrid.body.bytes.take 123 ++ [0x0D, 0x03, 0x02, 0x03, 0x00]⟩ },
    ⟨⟨Or.inr rfl, rfl, rfl, rfl, rfl⟩, Or.inl rfl, by decide +kernel, by decide +kernel⟩, by unfold FlashIsLength; decide +kernel,
    ⟨by decide, ?_⟩, by decide +kernel, by decide +kernel⟩
  right; right; right; right; right; right; right; right; left
  decide +kernel

/-- **C121 fails for the version**: it is computed anew where none is given, and where one is given it is ignored. -/
theorem C121_version_false : ∃ e e' : Ent, WF e ∧ ¬FlashIsLength e ∧ Settled sampleEnv e ∧
    (newFrom sampleEnv e.cls { name := sampleEnv.unnamed } e ()).res = .ok e' ∧ eqEnt e e' = .ok false ∧
    (newFrom sampleEnv e.cls { name := sampleEnv.unnamed, version := some 9 } e ()).res = .ok e := by
  refine ⟨⟨.real, [0x0D, 0x00], [0x00], [0x41, 0, 0, 0, 0, 0, 0, 0], [0x05], [0x00],
    ⟨true, [0x00, 0x80, 0x12, 0, 0, 0, 0, 0, 0]⟩⟩, ⟨.real, [0x0D, 0x00], [0x00], [0x41, 0, 0, 0, 0, 0, 0, 0], [0x00], [0x00],
    ⟨true, [0x00, 0x80, 0x12, 0, 0, 0, 0, 0, 0]⟩⟩,
    ⟨⟨Or.inr rfl, rfl, rfl, rfl, rfl⟩, Or.inl rfl, by decide, by decide⟩, by unfold FlashIsLength; decide +kernel,
    ⟨by decide, Or.inl rfl⟩, by decide +kernel, by decide +kernel, by decide +kernel⟩

/-- A program made from another keeps its name and tokens; the name given is ignored. -/
example : (newFrom sampleEnv .program { name := List.replicate 8 0x42, version := some 0 } sampleProgram ()).res.toOption =
    some sampleProgram := by decide +kernel

/-- **C122, what holds** `mono` of a colour graph database: the entry has the monochrome class of the mode, the same type,
name and archived flag, the same window, styles and equations, and no colours. -/
theorem C122_mono_partial (env : Env V) (nm : Bytes) (e : Ent) (hw : WF e) (hno : e.metaLen = [0x0D, 0x00] → ¬FlashIsLength e)
    (hc : e.cls ∈ colorClasses) (p : Plot) (hp : p.Fits e.cls) (hb : e.body.bytes = p.bytes) (ht : p.tail ≠ none)
    (hm : e.body.bytes.getD 3 0 = modeByte e.cls) (hid : e.typeId = [0x08]) :
    ∃ v ws, mono env nm e () = ⟨.ok ⟨monoOf e.cls, e.metaLen, [0x08], e.name, [v], e.archived, ⟨true, p.plain.bytes⟩⟩, (), ws⟩ ∧
      p.plain.Fits (monoOf e.cls) := by
  obtain ⟨v, ws, h, -⟩ := mono_plot env nm hw hno hc hp hb ht hm hid
  exact ⟨v, ws, h, plain_fits hc hp⟩

/-- **C122 fails for the length, always**: the length field is that of the colour database, so it is wrong whenever it was right;
and the bytes cut off are missed, so `mono` always warns that the data is too short, and that the length field is wrong. -/
theorem C122_length_false (env : Env V) (nm : Bytes) (e : Ent) (hw : WF e) (hno : e.metaLen = [0x0D, 0x00] → ¬FlashIsLength e)
    (hc : e.cls ∈ colorClasses) (p : Plot) (hp : p.Fits e.cls) (hb : e.body.bytes = p.bytes) (ht : p.tail ≠ none)
    (hm : e.body.bytes.getD 3 0 = modeByte e.cls) (hid : e.typeId = [0x08]) (hcnt : Counted e.body.bytes) :
    ∃ e' ws, mono env nm e () = ⟨.ok e', (), ws⟩ ∧ ¬Counted e'.body.bytes ∧
      fromLE (e'.body.bytes.take 2) + 2 = e'.body.bytes.length + 8 + styleCount e.cls ∧ .dataLength ∈ ws ∧ .sizedLength ∈ ws := by
  obtain ⟨v, ws, h, h1, h2⟩ := mono_plot env nm hw hno hc hp hb ht hm hid
  obtain ⟨t, htl⟩ := Option.ne_none_iff_exists'.1 ht
  obtain ⟨l1, l2, l3⟩ := hp.tail t htl
  have h7 := plain_length hc hp
  have hlen : fromLE (p.plain.bytes.take 2) + 2 = p.plain.bytes.length + 8 + styleCount e.cls := by
    have h4 : (tailBytes p.tail).length = 8 + styleCount e.cls := by
      rw [htl]; simp only [tailBytes, ColorPart.bytes, List.length_append, l1, l2, l3]; omega
    unfold Counted at hcnt
    rw [hb, plain_bytes (p := p), List.length_append, h4, List.take_append_of_le_length (by omega)] at hcnt
    omega
  have hn : ¬Counted p.plain.bytes := by unfold Counted; omega
  exact ⟨_, ws, h, hn, hlen, h1, h2 hn⟩

/-- The database with the red grid, without its colours: 110 bytes, though the length field says 126. -/
example : ((mono sampleEnv sampleEnv.unnamed redGrid ()).res.toOption.map fun e => (e.cls, e.body.bytes.length,
    e.body.bytes.take 4)) = some (.monoFunc, 110, [126, 0, 0, 0x10]) := by decide +kernel

end Verif
