import Verif.Proofs.Graphed
import Verif.Props.GdbDict

/-
C113: a graphed equation made from a text, a dictionary or an equation.
-/

namespace Verif
open Spec Ent
variable {V : Type} [LinearOrder V]

/-- C113, for texts: the new equation has the tokens of the text with their length, and is
otherwise a fresh one. Missing from the full statement: dictionaries, equations and copies, for
which see the theorems below. -/
theorem C113_text_partial (env : Env V) (a : NewArgs) (hf : a.forFlash = true) (trie : Trie (Tok V))
    (mode : EncMode) (nm : Bytes) (expr : Str) {acc : EncAcc V}
    (henc : encode env.initial trie mode expr = some (.ok acc)) (hn : acc.data.length < 65536) :
    ∃ g ws, newGraphed env a (graphedText env trie mode nm expr) () = ⟨.ok g, (), ws⟩ ∧
      g.ent.name = a.name ∧ g.geq = ⟨[0x00], [0x00], (PlotEq.mk 0x03 acc.data).bytes⟩ := by
  obtain ⟨q, w, hl, hq⟩ := graphedText_run env trie mode nm henc hn (graphedStart a)
  obtain ⟨v, ws, h⟩ := newGraphed_run env a hf _ hl rfl (b := 0x00) (rest := q.body.bytes) rfl
  exact ⟨_, _, h, rfl, by simp only [Graphed.geq, hq]; rfl⟩

/-- C113 is false for dictionaries: whatever a dictionary in which everything is known says about
style, colour and flags is lost, and only the tokens are kept. -/
theorem C113_dict_false (env : Env V) (a : NewArgs) (hf : a.forFlash = true) (trie : Trie (Tok V))
    (mode : EncMode) (nm : Bytes) {q : EqDict} (hq : KnownEq q) {acc : EncAcc V}
    (henc : encode env.initial trie mode (q.expr.getD []) = some (.ok acc))
    (hn : acc.data.length < 65536) :
    ∃ g ws, newGraphed env a (graphedDict env trie mode nm q) () = ⟨.ok g, (), ws⟩ ∧
      g.geq = ⟨[0x00], [0x00], (PlotEq.mk 0x03 acc.data).bytes⟩ := by
  have hrun := C99_load env trie mode nm hq henc hn (g := (graphedStart a).geq) (by simp [graphedStart, Graphed.geq])
  have hl : graphedDict env trie mode nm q (graphedStart a) = _ := onGEq_ok hrun
  obtain ⟨v, ws, h⟩ := newGraphed_run env a hf _ hl rfl (b := eqFlagByte (q.flags.getD ⟨none, none, none⟩))
    (rest := toLE 2 acc.data.length ++ acc.data) rfl
  exact ⟨_, _, h, rfl⟩

/-- C113 is false for equations: the flags overwrite the first byte of the length, and what is
missing is a byte. -/
theorem C113_equation_false (env : Env V) (a : NewArgs) (hf : a.forFlash = true) (src : Ent)
    (hw : WF src) (hno : src.metaLen = [0x0D, 0x00] → ¬FlashIsLength src)
    (ht : src.typeId = [0x03]) (hs : InStep src) :
    ∃ g ws, newGraphed env a (graphedBytes env src) () = ⟨.ok g, (), ws⟩ ∧
      g.geq = ⟨[0x00], [0x00], 0x03 :: src.body.bytes.drop 1⟩ ∧
      g.geq.body ≠ (PlotEq.mk 0x03 (src.body.bytes.drop 2)).bytes := by
  obtain ⟨b, w, hb, hload⟩ := graphed_load env hw hno ht (e₀ := (graphedStart a).ent) rfl
  have hl : graphedBytes env src (graphedStart a) = ⟨.ok (), { graphedStart a with
      ent := { src with cls := .graphedEquation, body := ⟨true, src.body.bytes⟩ } }, w⟩ := by
    unfold graphedBytes
    rw [hb, PyM.bind_ok (PyM.ofExcept_run _ _), onEnt_ok hload]
    rfl
  rcases hbody : src.body.bytes with _ | ⟨x, rest⟩
  · have := hs.1
    rw [hbody] at this
    simp at this
  · obtain ⟨v, ws, h⟩ := newGraphed_run env a hf _ hl rfl (b := x) (rest := rest) hbody
    refine ⟨_, _, h, rfl, fun heq => ?_⟩
    have := congrArg List.length heq
    have h2 := hs.1
    rw [hbody] at h2
    simp [Graphed.geq, PlotEq.bytes, toLE] at this h2
    omega

/-- C113 is false for copies: the style and the colour are those of a new equation, and the copy
still equals the original. -/
theorem C113_copy_false (env : Env V) (a : NewArgs) (hf : a.forFlash = true) (g : Graphed)
    (hc : g.ent.cls = .graphedEquation) (ht : g.ent.typeId = [0x03])
    (hw : WF g.ent) (hno : g.ent.metaLen = [0x0D, 0x00] → ¬FlashIsLength g.ent) :
    ∃ g' ws, copyGraphed env a g () = ⟨.ok g', (), ws⟩ ∧
      g' = ⟨{ g.ent with body := ⟨true, g.ent.body.bytes⟩ }, [0x00], [0x00]⟩ ∧
      eqEnt g.ent g'.ent = .ok true := by
  have hp : (pure () : PyM Graphed Unit) (graphedStart a) = ⟨.ok (), graphedStart a, []⟩ := PyM.pure_run _ _
  obtain ⟨v, ws, hnew⟩ := newGraphed_run env a hf (pure ()) hp rfl (b := 0x00) (rest := [0x01, 0x00]) rfl
  obtain ⟨b, w, hb, hload⟩ := graphed_load env hw hno ht
    (e₀ := { (graphedStart a).ent with version := v, body := ⟨true, 0x03 :: [0x01, 0x00]⟩ }) rfl
  have hon := onEnt_ok (g := ⟨{ (graphedStart a).ent with version := v, body := ⟨true, 0x03 :: [0x01, 0x00]⟩ },
    [0x00], [0x00]⟩) hload
  refine ⟨_, ws ++ ([] ++ w), ?_, rfl, ?_⟩
  · unfold copyGraphed
    rw [PyM.bind_ok hnew, hb, PyM.bind_ok (PyM.ofExcept_run _ _)]
    simp only [hon]
    obtain ⟨⟨c, m, t, n, v, a, body⟩, st, co⟩ := g
    cases hc
    rfl
  · unfold eqEnt
    simp only [if_true, hb, show Ent.bytes { g.ent with body := ⟨true, g.ent.body.bytes⟩ } = g.ent.bytes from rfl]
    simp

/-! Examples. The flags of the dictionary say that the equation is selected; they, the style and
the colour are lost. -/

example : (newGraphed sampleEnv { name := [0x5E, 0x10] }
    (graphedDict sampleEnv sampleTrie .max [0x5E, 0x10] sampleEquation) ()).res =
    .ok ⟨⟨.graphedEquation, [0x0D, 0x00], [0x03], [0x5E, 0x10], [0x01], [0x00],
      ⟨true, [0x03, 2, 0, 0xEB, 0x41]⟩⟩, [0x00], [0x00]⟩ := by decide +kernel

example : (newGraphed sampleEnv { name := [0x5E, 0x10] }
    (graphedText sampleEnv sampleTrie .max [0x5E, 0x10] "ʟA".toList) ()).res =
    .ok ⟨⟨.graphedEquation, [0x0D, 0x00], [0x03], [0x5E, 0x10], [0x01], [0x00],
      ⟨true, [0x03, 2, 0, 0xEB, 0x41]⟩⟩, [0x00], [0x00]⟩ := by decide +kernel

/-- The equation `Y1 = ʟA`. -/
def sampleY1 : Ent := ⟨.equation, [0x0D, 0x00], [0x03], [0x5E, 0x10, 0, 0, 0, 0, 0, 0], [0x00], [0x00],
  ⟨true, [2, 0, 0xEB, 0x41]⟩⟩

example : ((newGraphed sampleEnv { name := [0x5E, 0x10] } (graphedBytes sampleEnv sampleY1) ()).res.toOption.map
    fun g => g.geq.body) = some [0x03, 0, 0xEB, 0x41] := by decide +kernel

example : ((copyGraphed sampleEnv { name := [0x5E, 0x10] } ⟨{ sampleY1 with
    cls := .graphedEquation, body := ⟨true, [0x23, 2, 0, 0xEB, 0x41]⟩ }, [4], [8]⟩ ()).res.toOption.map
    Graphed.geq) = some ⟨[0x00], [0x00], [0x23, 2, 0, 0xEB, 0x41]⟩ := by decide +kernel

end Verif
