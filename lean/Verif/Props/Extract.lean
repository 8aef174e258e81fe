import Verif.Spec.Sample
import Verif.Model.Extract
import Verif.Proofs.Init
import Verif.Spec.Gdb

/-
C138: taking the equation out of a graphed equation.
-/

namespace Verif
open Spec Ent
variable {V : Type} [LinearOrder V]

theorem withoutFlags_split (pre body : Bytes) (h : 2 ≤ body.length) :
    withoutFlags (pre ++ body) body.length = pre ++ body.drop 1 := by
  have h1 : getSlice (pre ++ body) { stop := some (-(body.length : Int)) } = pre := by
    have : (Slice.bounds { stop := some (-(body.length : Int)) } (pre ++ body).length) = (0, pre.length) := by
      simp only [Slice.bounds, Slice.indices, List.length_append, Prod.mk.injEq, Option.getD_none]
      rw [if_neg (show ¬ (1 : Int) < 0 by omega), if_pos (show -(body.length : Int) < 0 by omega)]
      simp only [if_neg (show ¬ (1 : Int) < 0 by omega)]
      omega
    rw [getSlice, this]
    simp
  have h2 : getSlice (pre ++ body) { start := some (-(body.length : Int) + 1) } = body.drop 1 := by
    have : (Slice.bounds { start := some (-(body.length : Int) + 1) } (pre ++ body).length) =
        (pre.length + 1, pre.length + body.length) := by
      simp only [Slice.bounds, Slice.indices, List.length_append, Prod.mk.injEq, Option.getD_none]
      rw [if_pos (show -(body.length : Int) + 1 < 0 by omega)]
      simp only [if_neg (show ¬ (1 : Int) < 0 by omega)]
      omega
    rw [getSlice, this]
    simp only
    rw [← List.drop_drop, List.drop_left, List.take_of_length_le (by simp; omega)]
  rw [withoutFlags, h1, h2]

/-- What is left of a graphed equation without its flags, loaded into any entry. -/
theorem load_withoutFlags (env : Env V) {g e₀ : Ent} (hw : WF g) (ht : g.typeId = [0x03])
    (hno : g.metaLen = [0x0D, 0x00] → ¬ FlashIsLength g) (hl : 3 ≤ g.body.bytes.length) (h₀ : e₀.cls = .equation) :
    ∃ b ws, g.bytes = .ok b ∧ load env (withoutFlags b g.calcLength) e₀ =
      ⟨.ok (), { g with cls := .equation, body := ⟨true, g.body.bytes.drop 1⟩ }, .dataLength :: ws⟩ ∧ ∀ w ∈ ws, w ∉ corruption := by
  obtain ⟨v, hv⟩ := length_one hw.version
  have hb := bytes_ok (e := g) hw.length
  -- the same bytes are those of an entry with as much data, without the last byte
  have hlen : (g.body.bytes.drop 1 ++ [0]).length = g.body.bytes.length := by simp; omega
  have hw' : WF { g with body := ⟨true, g.body.bytes.drop 1 ++ [0]⟩ } :=
    { metaLen := hw.metaLen, typeId := hw.typeId, name := hw.name, version := hw.version, archived := hw.archived
      flag := hw.flag, flashless := hw.flashless, length := by simp only [hlen]; exact hw.length }
  have hno' : ({ g with body := ⟨true, g.body.bytes.drop 1 ++ [0]⟩ } : Ent).metaLen = [0x0D, 0x00] →
      ¬ FlashIsLength { g with body := ⟨true, g.body.bytes.drop 1 ++ [0]⟩ } := by
    intro hm hf
    exact hno hm (by unfold FlashIsLength at hf ⊢; simp only [hlen] at hf; exact hf)
  have hb' := bytes_ok (e := { g with body := ⟨true, g.body.bytes.drop 1 ++ [0]⟩ }) hw'.length
  have hcut := loadBase_cut env hw' hno' hb' (n := 1) (by omega) (by simp only [hlen]; omega) e₀
  have hcl : ({ g with body := ⟨true, g.body.bytes.drop 1 ++ [0]⟩ } : Ent).calcLength = g.calcLength := hlen
  have hfb : ({ g with body := ⟨true, g.body.bytes.drop 1 ++ [0]⟩ } : Ent).flashBytes = g.flashBytes := rfl
  simp only [hcl, hfb] at hcut
  obtain ⟨pre, hpre⟩ : ∃ pre, pre = g.metaLen ++ toLE 2 g.calcLength ++ g.typeId ++ g.name ++ g.flashBytes ++ toLE 2 g.calcLength := ⟨_, rfl⟩
  rw [← hpre] at hb hcut
  have htake : (pre ++ (g.body.bytes.drop 1 ++ [0])).take ((pre ++ (g.body.bytes.drop 1 ++ [0])).length - 1) = pre ++ g.body.bytes.drop 1 := by
    rw [← List.append_assoc]
    exact List.take_left' (by simp)
  have htake2 : (g.body.bytes.drop 1 ++ [0]).take ((g.body.bytes.drop 1 ++ [0]).length - 1) = g.body.bytes.drop 1 :=
    List.take_left' (by simp)
  rw [htake, htake2, h₀] at hcut
  have hty : checkType e₀ (fromLE g.typeId) = [] := by
    have : fromLE g.typeId = 3 := by rw [ht]; rfl
    simp [checkType, h₀, this, Cls.typeId]
  rw [finish_of_coerce env (e := { g with cls := .equation, body := ⟨true, g.body.bytes.drop 1⟩ })
    (e' := { g with cls := .equation, body := ⟨true, g.body.bytes.drop 1⟩ }) (ws := []) (by simp [coerce, coerceTyped, PyM.bind_run]) hv
    (metaLen_iff (show g.metaLen.length = 2 from metaLen_length hw.toSections)), hty] at hcut
  simp only [after, List.nil_append, List.cons_append] at hcut
  obtain ⟨ws', hload, hws⟩ := load_any env hcut hv
  refine ⟨pre ++ g.body.bytes, loadWarnings .equation g.metaLen g.version ++ ws', hb, ?_, ?_⟩
  · rw [show g.calcLength = g.body.bytes.length from rfl, withoutFlags_split _ _ (by omega), hload]
    simp
  · intro w hwm
    rcases List.mem_append.1 hwm with h | h
    · exact loadWarnings_ok _ _ _ w h
    · exact hws w h

/-- C138, partial: the equation of a graphed equation has its name, its archived flag and its data without the flags; its version is
the one its tokens need; it has no warnings about damaged data. Missing: entries whose flash bytes happen to be their length, for which
see below. -/
theorem C138_equation_partial (env : Env V) (nm : Bytes) (g : Ent) (hw : WF g) (ht : g.typeId = [0x03])
    (hno : g.metaLen = [0x0D, 0x00] → ¬ FlashIsLength g) (q : PlotEq) (hq : g.body.bytes = q.bytes) :
    ∃ ws, equationOut env nm g () = ⟨.ok { g with
        cls := .equation
        version := [UInt8.ofNat (tokenVersion env (decode env.initial env.table q.tokens).since q.tokens)]
        body := ⟨true, toLE 2 q.tokens.length ++ q.tokens⟩ }, (), ws⟩ ∧ ∀ w ∈ ws, w ∉ corruption := by
  have hl : 3 ≤ g.body.bytes.length := by rw [hq]; simp [PlotEq.bytes, toLE]
  obtain ⟨b, ws, hb, hload, hws⟩ := load_withoutFlags env hw ht hno hl (e₀ := startEnt .equation { name := nm }) rfl
  have hd : ∀ v, Ent.data { g with cls := .equation, version := v, body := ⟨true, g.body.bytes.drop 1⟩ } = q.tokens := by
    intro v
    have : dataStart .equation = 2 := by decide
    simp only [Ent.data, this, hq, PlotEq.bytes, toLE]
    simp
  have hver : getVersion env { g with cls := .equation, body := ⟨true, g.body.bytes.drop 1⟩ } [] =
      ((decode env.initial env.table q.tokens).warns, .ok (tokenVersion env (decode env.initial env.table q.tokens).since q.tokens)) := by
    unfold getVersion
    simp only [getVersionN, tokenGetVersion, tokenizedVersion]
    rw [hd]
    simp
  have hn := new_load env (c := .equation) (a := { name := nm }) rfl hload (fun _ => hver) (by decide)
  have hdc := decode_warns env.initial env.table q.tokens
  unfold equationOut
  rw [hb, PyM.bind_ok (PyM.ofExcept_run _ _)]
  unfold ignoreDataLength
  have hdrop : g.body.bytes.drop 1 = toLE 2 q.tokens.length ++ q.tokens := by rw [hq]; rfl
  simp only [hn, if_true, hdrop]
  refine ⟨_, rfl, fun w hwm => ?_⟩
  simp only [List.nil_append, List.cons_append, List.mem_filter, List.mem_cons, List.mem_append, decide_eq_true_eq] at hwm
  obtain ⟨h | h | h | h, hne⟩ := hwm
  · exact absurd h hne
  · exact hws w h
  · exact hdc w h
  · split at h
    · simp only [List.mem_singleton] at h; subst h; decide
    · simp at h

/-- The equation `XY` of a graphed equation: name, data and archived flag are kept, and the flags left out. -/
example : (equationOut sampleEnv (List.replicate 8 0)
      ⟨.graphedEquation, [0x0D, 0x00], [0x03], [0x5E, 0x10, 0, 0, 0, 0, 0, 0], [0x00], [0x80], ⟨true, [0x23, 0x02, 0x00, 0x41, 0x42]⟩⟩ ()).res.toOption =
    some ⟨.equation, [0x0D, 0x00], [0x03], [0x5E, 0x10, 0, 0, 0, 0, 0, 0], [0x00], [0x80], ⟨true, [0x02, 0x00, 0x41, 0x42]⟩⟩ := by
  decide +kernel

/-- C138: what is taken out and put back changes nothing, and what is put in is taken out again: with the data of an equation put into a
graphed equation that survives saving, the equation taken out has exactly these data, and so the same tokens and text. -/
theorem C138_inverse (env : Env V) (nm : Bytes) (g : Ent) (sty col : Bytes) (hw : WF g) (ht : g.typeId = [0x03])
    (hno : g.metaLen = [0x0D, 0x00] → ¬ FlashIsLength g) (q : PlotEq) (hq : g.body.bytes = q.bytes) :
    (∃ e ws, equationOut env nm g () = ⟨.ok e, (), ws⟩ ∧ loadEquation ⟨sty, col, g.body.bytes⟩ e = ⟨sty, col, g.body.bytes⟩ ∧
      e.tokens env = ((decode env.initial env.table q.tokens).warns, (decode env.initial env.table q.tokens).out)) ∧
    ∀ (x : Ent) (toks : Bytes), x.body.bytes = toLE 2 toks.length ++ toks → toks.length + 3 ≤ 65535 →
      (g.metaLen = [0x0D, 0x00] → fromLE (g.version ++ g.archived) ≠ toks.length + 3) →
      ∃ e ws, equationOut env nm { g with body := ⟨true, (loadEquation ⟨sty, col, g.body.bytes⟩ x).body⟩ } () = ⟨.ok e, (), ws⟩ ∧
        e.body.bytes = x.body.bytes ∧ e.name = g.name := by
  constructor
  · obtain ⟨ws, h, -⟩ := C138_equation_partial env nm g hw ht hno q hq
    refine ⟨_, ws, h, ?_, ?_⟩
    · simp [loadEquation, hq, PlotEq.bytes]
    · have : dataStart .equation = 2 := by decide
      simp [Ent.tokens, Ent.data, this, toLE]
  · intro x toks hx hl hf
    have hb : (loadEquation ⟨sty, col, g.body.bytes⟩ x).body = (PlotEq.mk q.flags toks).bytes := by
      simp [loadEquation, hq, PlotEq.bytes, hx]
    have hlen : (PlotEq.mk q.flags toks).bytes.length = toks.length + 3 := by simp [PlotEq.bytes, toLE]
    have hw' : WF { g with body := ⟨true, (loadEquation ⟨sty, col, g.body.bytes⟩ x).body⟩ } :=
      { metaLen := hw.metaLen, typeId := hw.typeId, name := hw.name, version := hw.version, archived := hw.archived
        flag := hw.flag, flashless := hw.flashless, length := by simp only [hb, hlen]; exact hl }
    obtain ⟨ws, h, -⟩ := C138_equation_partial env nm _ hw' ht (fun hm hh => by
      unfold FlashIsLength at hh
      simp only [hb, hlen] at hh
      exact hf hm hh) ⟨q.flags, toks⟩ hb
    exact ⟨_, ws, h, hx.symm, rfl⟩

/-- C138 is false of an equation whose version is the length of its data: it is taken for an entry without flash, and the equation
taken out has the length and some of the tokens as data, in the wrong places. -/
theorem C138_equation_false : ∃ (g : Ent) (q : PlotEq) (e : Ent), WF g ∧ g.cls = .graphedEquation ∧ g.typeId = [0x03] ∧
    g.body.bytes = q.bytes ∧ (equationOut sampleEnv (List.replicate 8 0) g ()).res = .ok e ∧ e.metaLen ≠ g.metaLen ∧
    e.body.bytes ≠ g.body.bytes.drop 1 ∧ e.data ≠ q.tokens := by
  refine ⟨⟨.graphedEquation, [0x0D, 0x00], [0x03], [0x5E, 0x10, 0, 0, 0, 0, 0, 0], [0x05], [0x00], ⟨true, [0x23, 0x02, 0x00, 0x41, 0x42]⟩⟩,
    ⟨0x23, [0x41, 0x42]⟩, ⟨.equation, [0x0B, 0x00], [0x03], [0x5E, 0x10, 0, 0, 0, 0, 0, 0], [0x00], [0x00], ⟨true, [0x05, 0x00, 0x02, 0x00, 0x41]⟩⟩,
    ?_, rfl, rfl, by decide, by decide +kernel, by decide, by decide, by decide +kernel⟩
  exact { metaLen := by decide, typeId := by decide, name := by decide, version := by decide, archived := by decide
          flag := by decide, flashless := by decide, length := by decide }

end Verif
