import Verif.Proofs.GdbLoad

/-! Helper lemmas for loading dictionaries into graph databases: the blank database, the class and the colours. -/

namespace Verif
open Spec
namespace Ent
variable {V : Type} [LinearOrder V]

/-! ### The blank database -/

/-- A database in which everything but the mode is zero. -/
def blankPlot (c : Cls) (m : UInt8) : Plot where
  head := toLE 2 (emptySize c) ++ [0x00, m, 0x00, 0x00, 0x00] ++ List.replicate (9 * (fieldNames c).length) 0x00
  styles := List.replicate (styleCount c) 0x00
  eqs := List.replicate (equationCount c) ⟨0x00, []⟩
  tail := if colored c then some ⟨[0, 0, 0], List.replicate (styleCount c) 0x00, [0, 0, 0, 0, 0]⟩ else none

theorem blank_fits {c : Cls} (hc : c ∈ plotClasses) (m : UInt8) : (blankPlot c m).Fits c := by
  refine ⟨?_, by simp [blankPlot], by simp [blankPlot], ?_, ?_⟩
  · have h7 : firstField c = 7 := (by decide : ∀ c ∈ plotClasses, firstField c = 7) _ hc
    simp only [blankPlot, List.length_append, length_toLE, List.length_cons, List.length_nil, List.length_replicate,
      fieldStart, h7]
  · intro q hq
    rw [List.eq_of_mem_replicate hq]
    simp
  · intro t ht
    simp only [blankPlot] at ht
    split at ht
    · rw [← Option.some.inj ht]
      simp
    · simp at ht

theorem blank_bytes : ∀ c ∈ plotClasses, clearCalc c = (blankPlot c 0x00).bytes := by decide +kernel

/-- Clearing a database and storing the mode. -/
theorem clear_run {e : Ent} (hc : e.cls ∈ plotClasses) (m : UInt8) {f : Unit → PyM Ent Unit} :
    (do
      clear
      let u ← PyM.modify fun e =>
        { e with body := ⟨true, setSlice e.body.bytes { start := some 3, stop := some 4 } [m]⟩ }
      f u : PyM Ent Unit) e = f () (onPlot e (blankPlot e.cls m)) := by
  have hlen : 3 < (blankPlot e.cls 0x00).head.length := by
    have := length_plot_head hc (blank_fits hc 0x00); omega
  have hb := head_lt _ hlen
  have hs : setSlice (clearCalc e.cls) { start := some 3, stop := some 4 } [m] = (blankPlot e.cls m).bytes := by
    rw [blank_bytes _ hc, show ({ start := some 3, stop := some 4 } : Slice) = Slice.nat 3 4 from rfl,
      setSlice_one hb (bounds_nat (a := 3) (b := 4) (by omega) (by omega)), head_set _ hlen]
    have : (blankPlot e.cls 0x00).head.set 3 m = (blankPlot e.cls m).head := by
      simp only [blankPlot, toLE, List.append_assoc]
      rfl
    rw [this]
    rfl
  unfold clear
  rw [PyM.bind_ok (PyM.modify_run _ _), PyM.bind_ok (PyM.modify_run _ _)]
  simp only [hs]
  rfl

/-- A number that is zero. -/
def zeroEnt : Ent := ⟨.real, [0x0D, 0x00], [0x00], [], [0x00], [0x00], ⟨true, List.replicate 9 0x00⟩⟩

theorem zero_real : RealElem zeroEnt := by
  unfold RealElem zeroEnt
  decide

/-- Fields of a database whose numbers are zero. -/
theorem zero_fields {c : Cls} (hc : c ∈ plotClasses) {h : Bytes}
    (hh : h.drop 7 = List.replicate (9 * (fieldNames c).length) 0x00) (i : Nat) (n : String)
    (hi : (fieldNames c)[i]? = some n) : fieldBytes c i h = List.replicate 9 0x00 := by
  have hlt : i < (fieldNames c).length := (List.getElem?_eq_some_iff.mp hi).1
  have h7 : firstField c = 7 := (by decide : ∀ c ∈ plotClasses, firstField c = 7) _ hc
  rw [fieldBytes, fieldStart, h7, ← List.drop_drop, hh, List.drop_replicate, List.take_replicate]
  congr 1
  omega

/-- Updating one of the bytes of modes, when the result is known. -/
theorem orFlags_value {p : Plot} {e : Ent} (hc : e.cls ∈ plotClasses) (hp : p.Fits e.cls) {k : Nat} (hk : k < 7)
    {s : FlagItems} {b : UInt8} (h : flagsSet (flagsUpdate (flagsGet [p.head.getD k 0]) s) = .ok [b])
    (hs : ∀ kv ∈ s, kv.1 < 8) :
    orFlags (flagsViewAt (k : Int) (some ((k + 1 : Nat) : Int))) s (onPlot e p) =
        ⟨.ok (), onPlot e { p with head := p.head.set k b }, []⟩ := by
  obtain ⟨b', h1, h2⟩ := orFlags_head hc hp hk hs
  obtain ⟨b'', h3, h4⟩ := flag_step (p.head.getD k 0) hs
  rw [h] at h3
  have : b = b'' := by simpa using h3
  rw [h1, this, byte_ext (a := b') (b := b'') (fun k hk => by rw [h2 k hk, h4 k hk])]

/-! ### The class -/

theorem modeId_plot {p : Plot} {e : Ent} (hc : e.cls ∈ plotClasses) (hp : p.Fits e.cls) :
    (onPlot e p).modeId = (p.head.getD 3 0).toNat := by
  have h3 : 3 < p.head.length := by have := length_plot_head hc hp; omega
  have hb := head_lt p h3
  unfold modeId
  show fromLE ((p.bytes.drop 3).take 1) = _
  rw [List.drop_eq_getElem_cons hb, head_get p h3, List.getD_eq_getElem?_getD, List.getElem?_eq_getElem h3]
  simp [fromLE]

/-- The class of a database is the one its mode and its colours say. -/
theorem coerce_plot (env : Env V) {p : Plot} {e : Ent} (hc : e.cls ∈ plotClasses) (hp : p.Fits e.cls)
    (hm : p.head.getD 3 0 = (plotMode e.cls).2) (ht : p.tail.isSome = colored e.cls) :
    coerce env (onPlot e p) = ⟨.ok (), onPlot e p, []⟩ := by
  have hid := modeId_plot hc hp
  rw [hm] at hid
  have hcol : (onPlot e p).colorData = tailBytes p.tail := colorData_plot (e := onPlot e p) hc hp rfl
  obtain ⟨cls, a1, a2, a3, a4, a5, a6⟩ := e
  simp only [onPlot] at *
  have hmono : colored cls = false → tailBytes p.tail = [] := by
    intro h
    rw [h] at ht
    rcases hpt : p.tail with _ | t
    · rfl
    · rw [hpt] at ht; simp at ht
  simp only [plotClasses, List.mem_cons, List.not_mem_nil, or_false] at hc
  rcases hc with rfl | rfl | rfl | rfl | rfl | rfl | rfl | rfl <;>
    simp only [plotMode] at hid <;>
    (try rw [hmono rfl] at hcol) <;>
    simp [coerce, coerceTyped, coerceMonoGDB, coerceColorGDB, setClass, PyM.bind_run, hid, hcol]

/-- The same after the class was set to the base of databases with colours. -/
theorem coerce_color (env : Env V) {p : Plot} {e : Ent} (hc : e.cls ∈ plotClasses) (hp : p.Fits e.cls)
    (hm : p.head.getD 3 0 = (plotMode e.cls).2) (ht : colored e.cls = true) :
    coerce env { onPlot e p with cls := .gdb } = ⟨.ok (), onPlot e p, []⟩ := by
  have hid := modeId_plot hc hp
  have hid' : ({ onPlot e p with cls := .gdb } : Ent).modeId = (onPlot e p).modeId := rfl
  rw [hm] at hid
  rw [hid] at hid'
  obtain ⟨cls, a1, a2, a3, a4, a5, a6⟩ := e
  simp only [onPlot] at *
  simp only [plotClasses, List.mem_cons, List.not_mem_nil, or_false] at hc
  rcases hc with rfl | rfl | rfl | rfl | rfl | rfl | rfl | rfl <;>
    simp only [plotMode, colored] at hid' ht <;>
    first
      | exact absurd ht (by decide)
      | simp [coerce, coerceTyped, coerceColorGDB, setClass, PyM.bind_run, hid']

/-! ### The colours -/

/-- The database with other settings of colours. -/
def withTail (p : Plot) (t : ColorPart) : Plot := { p with tail := some t }

theorem withTail_fits {p : Plot} {c : Cls} (hp : p.Fits c) {t : ColorPart} (h1 : t.magic.length = 3)
    (h2 : t.colors.length = styleCount c) (h3 : t.settings.length = 5) : (withTail p t).Fits c :=
  ⟨hp.head, hp.styles, hp.eqs, hp.tokens, fun u hu => by
    have : t = u := Option.some.inj hu
    subst this
    exact ⟨h1, h2, h3⟩⟩

/-- The bytes before the settings of colours. -/
def beforeSettings (p : Plot) (t : ColorPart) : Bytes :=
  p.head ++ p.styles ++ p.eqs.flatMap PlotEq.bytes ++ t.magic ++ t.colors

theorem withTail_bytes (p : Plot) (t : ColorPart) : (withTail p t).bytes = beforeSettings p t ++ t.settings := by
  simp [withTail, Plot.bytes, tailBytes, ColorPart.bytes, beforeSettings]

/-- One of the five settings of colours. -/
theorem settings_put {α : Type} {v : View α} {value : α} {p : Plot} {t : ColorPart} {e : Ent} {j : Nat} {b : UInt8}
    (hl : v.length = some 1) (hs : ∀ n, 5 ≤ n → v.slice.bounds n = (n - 5 + j, n - 5 + j + 1)) (hj : j < 5)
    (ht : t.settings.length = 5)
    (h : v.conv.set value (some 1) [t.settings.getD j 0] () = ⟨.ok [b], (), []⟩) :
    viewPut v value (onPlot e (withTail p t)) =
      ⟨.ok (), onPlot e (withTail p { t with settings := t.settings.set j b }), []⟩ := by
  have hlen : (withTail p t).bytes.length = (beforeSettings p t).length + 5 := by
    rw [withTail_bytes, List.length_append, ht]
  have hk : (beforeSettings p t).length + j < (withTail p t).bytes.length := by omega
  have hb := hs (withTail p t).bytes.length (by omega)
  rw [hlen, Nat.add_sub_cancel, ← hlen] at hb
  have hget : (withTail p t).bytes[(beforeSettings p t).length + j] = t.settings.getD j 0 := by
    simp only [withTail_bytes]
    rw [List.getElem_append_right (by omega), List.getD_eq_getElem?_getD, List.getElem?_eq_getElem (by omega)]
    simp
  rw [viewPut_byte (e := onPlot e (withTail p t)) (b := b) (ws := []) hl hk hb rfl (by rw [hget]; exact h)]
  congr 1
  unfold onPlot
  simp only [Ent.mk.injEq, true_and, Buf.mk.injEq]
  rw [withTail_bytes, withTail_bytes, List.set_append_right _ _ (by omega), Nat.add_sub_cancel_left]
  rfl

theorem settings_flags {p : Plot} {t : ColorPart} {e : Ent} {s : FlagItems} {b : UInt8} (ht : t.settings.length = 5)
    (h : flagsSet (flagsUpdate (flagsGet [t.settings.getD 4 0]) s) = .ok [b]) :
    orFlags colorFlagsView s (onPlot e (withTail p t)) =
      ⟨.ok (), onPlot e (withTail p { t with settings := t.settings.set 4 b }), []⟩ := by
  have hs : ∀ n, 5 ≤ n → colorFlagsView.slice.bounds n = (n - 5 + 4, n - 5 + 4 + 1) := by
    intro n hn
    rw [show colorFlagsView.slice.bounds n = _ from bounds_last (n := n) (by omega)]
    congr 1 <;> omega
  have hlen : (withTail p t).bytes.length = (beforeSettings p t).length + 5 := by
    rw [withTail_bytes, List.length_append, ht]
  have hk : (beforeSettings p t).length + 4 < (withTail p t).bytes.length := by omega
  have hb : colorFlagsView.slice.bounds (withTail p t).bytes.length =
      ((beforeSettings p t).length + 4, (beforeSettings p t).length + 4 + 1) := by
    rw [hs _ (by omega), hlen, Nat.add_sub_cancel]
  have hget : (withTail p t).bytes[(beforeSettings p t).length + 4] = t.settings.getD 4 0 := by
    simp only [withTail_bytes]
    rw [List.getElem_append_right (by omega), List.getD_eq_getElem?_getD, List.getElem?_eq_getElem (by omega)]
    simp
  have hview : viewGet colorFlagsView (onPlot e (withTail p t)) = .ok (flagsGet [t.settings.getD 4 0]) := by
    show wrapIndexError (colorFlagsView.conv.get (getSlice (withTail p t).bytes _)) = _
    rw [getSlice_one hk hb, hget]
    rfl
  unfold orFlags
  rw [PyM.bind_ok (PyM.get_run _), hview, PyM.bind_ok (PyM.ofExcept_run _ _),
    settings_put (j := 4) (b := b) (by decide) hs (by omega) ht]
  · rfl
  · show PyM.ofExcept (flagsSet _) () = _
    rw [h]; rfl

end Ent
end Verif
