import Verif.Model.Graphed
import Verif.Proofs.GdbEq

/-
Lemmas about the constructor of graphed equations.
-/

namespace Verif
namespace Ent
open Spec
variable {V : Type} [LinearOrder V]

theorem refreshVersion_run (env : Env V) {e : Ent} (hc : e.cls = .graphedEquation) :
    ∃ v w, refreshVersion env e = ⟨.ok (), { e with version := [v] }, w⟩ := by
  obtain ⟨ws, v, hv⟩ := getVersion_total env (e := e) [] (by rw [hc]; decide)
    (fun h => by rw [hc] at h; exact absurd h (by decide)) (by rw [hc]; rfl)
  unfold refreshVersion
  rw [PyM.bind_ok (PyM.get_run e)]
  simp only [hv]
  rw [PyM.bind_ok (PyM.warnAll_run _ _), PyM.bind_ok (PyM.ofExcept_run _ _), setVersion_run]
  exact ⟨_, _, rfl⟩

theorem onGEq_ok {f : PyM GEq Unit} {g : Graphed} {q : GEq} {w : List Warn}
    (h : f g.geq = ⟨.ok (), q, w⟩) :
    onGEq f g = ⟨.ok (), ⟨{ g.ent with body := ⟨true, q.body⟩ }, q.style, q.color⟩, w⟩ := by
  simp only [onGEq, h]

theorem onEnt_ok {f : PyM Ent Unit} {g : Graphed} {e : Ent} {w : List Warn}
    (h : f g.ent = ⟨.ok (), e, w⟩) : onEnt f g = ⟨.ok (), { g with ent := e }, w⟩ := by
  simp only [onEnt, h]

/-- The end of the constructor: flags, style and colour are those of a new equation. -/
theorem graphedReset (e : Ent) (st co : Bytes) (b : UInt8) (rest : Bytes) (hb : e.body.bytes = b :: rest) :
    (do onGEq (putEqFlags (flagsInit [(0, true), (1, true)]))
        onGEq (putStyle 0x00)
        onGEq (putColor 0x00) : PyM Graphed Unit) ⟨e, st, co⟩ =
      ⟨.ok (), ⟨{ e with body := ⟨true, 0x03 :: rest⟩ }, [0x00], [0x00]⟩, []⟩ := by
  have hf : flagsSet (flagsInit [(0, true), (1, true)]) = .ok [0x03] := by decide +kernel
  have h1 : onGEq (putEqFlags (flagsInit [(0, true), (1, true)])) ⟨e, st, co⟩ =
      ⟨.ok (), ⟨{ e with body := ⟨true, 0x03 :: rest⟩ }, st, co⟩, []⟩ := by
    refine onGEq_ok (q := ⟨st, co, 0x03 :: rest⟩) ?_
    show putEqFlags _ ⟨st, co, e.body.bytes⟩ = _
    rw [hb]
    exact putEqFlags_run hf st co b rest
  have h2 : ∀ g : Graphed, g.ent.body.mutable = true → onGEq (putStyle 0x00) g =
      ⟨.ok (), { g with style := [0x00] }, []⟩ := by
    intro g hg
    rw [onGEq_ok (putStyle_run (v := 0) (n := 0) (by decide) rfl (by omega) _)]
    obtain ⟨⟨c, m, t, n, v, a, ⟨mu, by'⟩⟩, st, co⟩ := g
    cases hg
    rfl
  have h3 : ∀ g : Graphed, g.ent.body.mutable = true → onGEq (putColor 0x00) g =
      ⟨.ok (), { g with color := [0x00] }, []⟩ := by
    intro g hg
    rw [onGEq_ok (putColor_run (v := 0) (n := 0) (by decide) rfl (by omega) _)]
    obtain ⟨⟨c, m, t, n, v, a, ⟨mu, by'⟩⟩, st, co⟩ := g
    cases hg
    rfl
  rw [PyM.bind_ok h1, PyM.bind_ok (h2 _ rfl), h3 _ rfl]
  rfl

/-- Loading the bytes of an equation: the whole body is taken. -/
theorem graphed_load (env : Env V) {src e₀ : Ent} (hw : WF src)
    (hno : src.metaLen = [0x0D, 0x00] → ¬FlashIsLength src) (ht : src.typeId = [0x03])
    (h₀ : e₀.cls = .graphedEquation) :
    ∃ b ws, src.bytes = .ok b ∧
      load env b e₀ = ⟨.ok (), { src with cls := .graphedEquation, body := ⟨true, src.body.bytes⟩ }, ws⟩ := by
  obtain ⟨v, hv⟩ := length_one hw.version
  have hb := bytes_ok (e := src) hw.length
  have hco : coerce env { src with cls := e₀.cls, body := ⟨true, src.body.bytes⟩ } =
      ⟨.ok (), { src with cls := e₀.cls, body := ⟨true, src.body.bytes⟩ }, []⟩ := by
    have hg : getTypeId { src with cls := .graphedEquation, body := ⟨true, src.body.bytes⟩ } =
        .ok (3 : UInt8).toNat := getTypeId_one ht
    simp [coerce, coerceTyped, coerceGraphed, PyM.bind_run, h₀, hg]
  have hbase := loadBase_bytes env hw hno hb e₀
  rw [finish_of_coerce env hco hv (metaLen_iff (show src.metaLen.length = 2 from
    metaLen_length hw.toSections))] at hbase
  simp only [after] at hbase
  obtain ⟨ws', hload, -⟩ := load_any env hbase hv
  rw [h₀] at hload
  exact ⟨_, _, hb, hload⟩

/-- The object before `init` is loaded. -/
def graphedStart (a : NewArgs) : Graphed :=
  ⟨⟨.graphedEquation, [0x0D, 0x00], [0x03], a.name, [UInt8.ofNat (a.version.getD 0)],
    [if a.archived.getD false then 0x80 else 0x00], ⟨true, [0x00, 0x01, 0x00]⟩⟩, [], []⟩

/-- What the constructor makes of what `init` loads. -/
theorem newGraphed_run (env : Env V) (a : NewArgs) (hf : a.forFlash = true) (load : PyM Graphed Unit)
    {g : Graphed} {b : UInt8} {rest : Bytes} {w : List Warn}
    (hl : load (graphedStart a) = ⟨.ok (), g, w⟩) (hc : g.ent.cls = .graphedEquation)
    (hb : g.ent.body.bytes = b :: rest) :
    ∃ v ws, newGraphed env a load () =
      ⟨.ok ⟨{ g.ent with version := v, body := ⟨true, 0x03 :: rest⟩ }, [0x00], [0x00]⟩, (), ws⟩ := by
  have hbase : newBase .graphedEquation a = .ok ⟨.graphedEquation, [0x0D, 0x00], [0x03], a.name,
      [UInt8.ofNat (a.version.getD 0)], [if a.archived.getD false then 0x80 else 0x00], ⟨true, []⟩⟩ := by
    simp only [newBase, initMeta, hf]
    rfl
  have hclear : (onEnt (PyM.modify fun e => { e with body := ⟨true, clearFull e.cls⟩ }))
      ⟨⟨.graphedEquation, [0x0D, 0x00], [0x03], a.name,
      [UInt8.ofNat (a.version.getD 0)], [if a.archived.getD false then 0x80 else 0x00], ⟨true, []⟩⟩, [], []⟩ =
      ⟨.ok (), graphedStart a, []⟩ := by
    have : clearFull .graphedEquation = [0x00, 0x01, 0x00] := by decide +kernel
    simp only [onEnt, PyM.modify_run, this]
    rfl
  have hrest : ∃ v ws, graphedRest env a load ⟨⟨.graphedEquation, [0x0D, 0x00], [0x03], a.name,
      [UInt8.ofNat (a.version.getD 0)], [if a.archived.getD false then 0x80 else 0x00], ⟨true, []⟩⟩, [], []⟩ =
      ⟨.ok (), ⟨{ g.ent with version := v, body := ⟨true, 0x03 :: rest⟩ }, [0x00], [0x00]⟩, ws⟩ := by
    unfold graphedRest
    rw [PyM.bind_ok hclear, PyM.bind_ok hl]
    by_cases hv : a.version = none
    · obtain ⟨v, wv, hrv⟩ := refreshVersion_run env hc
      simp only [hv, if_true]
      rw [PyM.bind_ok (onEnt_ok hrv), graphedReset { g.ent with version := [v] } g.style g.color b rest hb]
      exact ⟨_, _, rfl⟩
    · simp only [hv, if_false]
      rw [show g = ⟨g.ent, g.style, g.color⟩ from rfl, graphedReset g.ent g.style g.color b rest hb]
      exact ⟨_, _, rfl⟩
  obtain ⟨v, ws, hrest⟩ := hrest
  exact ⟨v, ws, by simp only [newGraphed, hbase, hrest]⟩

/-- Loading a text: the tokens and their length come after the flags. -/
theorem graphedText_run (env : Env V) (trie : Trie (Tok V)) (mode : EncMode) (nm : Bytes) {expr : Str}
    {acc : EncAcc V} (henc : encode env.initial trie mode expr = some (.ok acc)) (hn : acc.data.length < 65536)
    (g : Graphed) : ∃ (q : Ent) (w : List Warn), graphedText env trie mode nm expr g =
      ⟨.ok (), { g with ent := { g.ent with body := ⟨true, g.ent.body.bytes.take 1 ++ q.body.bytes⟩ } }, w⟩ ∧
      q.body.bytes = toLE 2 acc.data.length ++ acc.data := by
  obtain ⟨v₀, w₀, hnew, -⟩ := new_blank env (c := .equation) (by decide) { name := nm } rfl
  obtain ⟨e₀, he₀⟩ : ∃ e₀ : Ent, e₀ = ⟨.equation, [0x0D, 0x00], [UInt8.ofNat (Cls.equation.typeId.getD 0xFF)], nm,
      [v₀], [if (none : Option Bool) = some true then 0x80 else 0x00], ⟨true, blank .equation⟩⟩ := ⟨_, rfl⟩
  have hc : e₀.cls = .equation := by rw [he₀]
  have hl : ∃ q w, loadString env trie mode expr e₀ = ⟨.ok (), q, w⟩ ∧
      q.body.bytes = toLE 2 acc.data.length ++ acc.data := by
    have hgv : ∃ ws v, tokenGetVersion env { e₀ with body := ⟨true, toLE 2 acc.data.length ++
        (blank .equation).drop 2⟩ } acc.data = (ws, .ok v) := by
      simp only [tokenGetVersion, tokenizedVersion, hc]
      exact ⟨_, _, rfl⟩
    obtain ⟨ws, v, hgv⟩ := hgv
    have hset := setData_ok (e := e₀) (d := blank .equation) (value := acc.data) (by rw [hc]; rfl)
      (by rw [hc]; rfl) (by rw [hc]; rfl) (by rw [he₀]) (by decide) hn hgv
    have hrun : loadString env trie mode expr e₀ = setData (tokenGetVersion env) acc.data e₀ := by
      simp [loadString, PyM.bind_run, hc, henc]
    rw [hrun, hset]
    exact ⟨_, _, rfl, rfl⟩
  obtain ⟨q, w, hl, hq⟩ := hl
  rw [← he₀] at hnew
  have h1 : (PyM.lift (new env .equation { name := nm } []) : PyM Graphed Ent) g = ⟨.ok e₀, g, w₀⟩ := by
    rw [PyM.lift_run, hnew]
  have h2 : (PyM.lift (loadedString env trie mode expr e₀) : PyM Graphed Ent) g = ⟨.ok q, g, w⟩ := by
    rw [PyM.lift_run]
    simp only [loadedString, hl]
  refine ⟨q, w₀ ++ (w ++ []), ?_, hq⟩
  unfold graphedText
  rw [PyM.bind_ok h1, PyM.bind_ok h2, onGEq_ok (PyM.modify_run _ _)]
  rfl

end Ent
end Verif
