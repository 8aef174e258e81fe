import Verif.Proofs.JsonGdb
import Verif.Props.GdbBack

/-! Property theorems about the numbers of graph databases through JSON: C120. -/

namespace Verif
open Spec Ent
variable {V : Type} [LinearOrder V]

/-- C120 for graph databases, the part that holds: the dictionary of a plain function, parametric or polar database whose numbers each have six
digits or more or are floats, and whose resolution is a whole number from 1 to 8, loads back into any database of the same class:
all bytes are the same and there is no warning. What is missing of databases is said at C102. -/
theorem C120_gdb_partial (env : Env V) (trie : Trie (Tok V)) (mode : EncMode) (nm nmE : Bytes) (p : Plot) (e e' : Ent)
    (hc : e.cls ∈ [.func, .param, .polar]) (hcls : e'.cls = e.cls) (hb : e.body = ⟨true, p.bytes⟩) (hp : PlainPlot e.cls p)
    (hnum : ∀ (i : Nat) (n : String), (fieldNames e.cls)[i]? = some n → JsonField n (fieldBytes e.cls i p.head)) :
    ∃ d, gdbDict env nm (realIO env nm) e () = ⟨.ok d, (), []⟩ ∧
      loadGdbDict env nm (realIO env nm) (equationOf env trie mode nmE) d e' = ⟨.ok (), { e' with body := e.body }, []⟩ := by
  have hidx : ∀ c ∈ [Cls.func, .param, .polar], ∀ i ∈ List.range 9, ∀ n, (fieldNames c)[i]? = some n →
      (fieldNames c).idxOf n = i ∧ n ∈ plotNames ++ ["Xres", "Tmin", "Tmax", "Tstep", "Thetamin", "Thetamax", "Thetastep"] := by
    intro c hc i hi n hn
    have htab : ∀ c ∈ [Cls.func, .param, .polar], ∀ i ∈ List.range (fieldNames c).length,
        (fieldNames c).idxOf ((fieldNames c).getD i "") = i ∧
        (fieldNames c).getD i "" ∈ plotNames ++ ["Xres", "Tmin", "Tmax", "Tstep", "Thetamin", "Thetamax", "Thetastep"] := by decide +kernel
    have := htab c hc i (List.mem_range.2 (List.getElem?_eq_some_iff.mp hn).1)
    rwa [List.getD_eq_getElem?_getD, hn, Option.getD_some] at this
  have hlen : ∀ c ∈ [Cls.func, .param, .polar], (fieldNames c).length ≤ 9 := by decide
  have hex : ∀ n : String, ∃ j, ∀ i, (fieldNames e.cls)[i]? = some n →
      Carried (realIO env nm) (realVal env nm) (n = "Xres") (realEntry nm (fieldBytes e.cls i p.head)) j ∧
      numberWarns (realIO env nm) (realVal env nm) (n.toList, j) = [] := by
    intro n
    by_cases hn : n ∈ fieldNames e.cls
    · obtain ⟨i, hi⟩ := List.mem_iff_getElem?.mp hn
      have hr : ∀ i, (fieldNames e.cls)[i]? = some n → i ∈ List.range 9 := fun i hi =>
        List.mem_range.2 (lt_of_lt_of_le (List.getElem?_eq_some_iff.mp hi).1 (hlen _ hc))
      obtain ⟨h1, h2⟩ := hidx _ hc i (hr i hi) n hi
      obtain ⟨j, hj1, hj2⟩ := carried_field env nm (hnum i n hi)
      refine ⟨j, fun i' hi' => ?_⟩
      obtain rfl : i = i' := h1.symm.trans (hidx _ hc i' (hr i' hi') n hi').1
      exact ⟨hj1, hj2 h2⟩
    · exact ⟨.int 0, fun i hi => absurd (List.mem_iff_getElem?.mpr ⟨i, hi⟩) hn⟩
  choose js hjs using hex
  have hcar : ∀ (i : Nat) (n : String), (fieldNames e.cls)[i]? = some n →
      ∃ x, Carried (realIO env nm) (realVal env nm) (n = "Xres") x (js n) ∧ fieldBytes e.cls i p.head = x.body.bytes :=
    fun i n hi => ⟨_, (hjs n i hi).1, rfl⟩
  obtain ⟨d, h1, h2⟩ := C102_reload_partial env trie mode nm nmE (realIO env nm) (realVal env nm) js p e e' hc hcls hb hp hcar
  refine ⟨d, h1, ?_⟩
  rw [h2]
  congr 1
  have he : onPlot e p = e := by rw [onPlot, ← hb]
  obtain ⟨t, ht, -, -, g, a, l, b, dd, hset, -⟩ := hp.tail
  have hd := gdbDict_run env nm hc hp hcar ht hset
  rw [he, h1] at hd
  obtain rfl : d = _ := by injection hd with hd _ _; exact Except.ok.inj hd
  rw [List.flatMap_eq_nil_iff]
  intro kv hkv
  simp only [dictOf, numbersOf, ← List.map_append, List.take_append_drop, List.mem_map] at hkv
  obtain ⟨n, hn, rfl⟩ := hkv
  obtain ⟨i, hi⟩ := List.mem_iff_getElem?.mp hn
  exact (hjs n i hi).2

/-- A function database with the numbers -10, 10, 1, -10, 10, `y` and 1. -/
def jsonPlot (y : Bytes) : Plot where
  head := toLE 2 (emptySize .func) ++ [0x00, 0x10, 0x35, 0x00, 0x01] ++
    [0x80, 0x81, 0x10, 0, 0, 0, 0, 0, 0] ++ [0x00, 0x81, 0x10, 0, 0, 0, 0, 0, 0] ++ [0x00, 0x80, 0x10, 0, 0, 0, 0, 0, 0] ++
    [0x80, 0x81, 0x10, 0, 0, 0, 0, 0, 0] ++ [0x00, 0x81, 0x10, 0, 0, 0, 0, 0, 0] ++ y ++ [0x00, 0x80, 0x10, 0, 0, 0, 0, 0, 0]
  styles := List.replicate 10 0
  eqs := List.replicate 10 ⟨0x03, []⟩
  tail := some ⟨[0x38, 0x34, 0x43], List.replicate 10 2, [1, 2, 3, 4, 1]⟩

/-- The dictionary of a database loaded back into it, with numbers as JSON has them. -/
def jsonReload (e : Ent) : Out Ent Unit :=
  match gdbDict sampleEnv [0x41] (realIO sampleEnv [0x41]) e () with
  | ⟨.ok d, _, _⟩ => loadGdbDict sampleEnv [0x41] (realIO sampleEnv [0x41]) (equationOf sampleEnv sampleTrie .max [0x5E, 0x10]) d e
  | ⟨.error x, _, _⟩ => ⟨.error x, e, []⟩

theorem plain_jsonPlot : PlainPlot .func (jsonPlot [0x00, 0x7F, 0x50, 0, 0, 0, 0, 0, 0]) where
  fits := ⟨by decide, by decide, by decide, by decide, by rintro t ⟨⟩; decide⟩
  start := by decide
  format := by decide
  seq := by decide
  ext := by decide
  eqs := by decide
  styles := by decide
  tail := ⟨_, rfl, by decide, by decide, 1, 2, 3, 4, 1, by decide⟩

example : jsonReload (plotEntry .func (jsonPlot [0x00, 0x7F, 0x50, 0, 0, 0, 0, 0, 0])) =
    ⟨.ok (), plotEntry .func (jsonPlot [0x00, 0x7F, 0x50, 0, 0, 0, 0, 0, 0]), []⟩ := by decide +kernel

/-- C120 fails for graph databases: the distance of 0.3 between the marks of an axis becomes 0.29999999999999. -/
theorem C120_gdb_false :
    jsonReload (plotEntry .func (jsonPlot [0x00, 0x7F, 0x30, 0, 0, 0, 0, 0, 0])) =
      ⟨.ok (), plotEntry .func (jsonPlot [0x00, 0x7F, 0x29, 0x99, 0x99, 0x99, 0x99, 0x99, 0x99]), []⟩ := by decide +kernel

/-- C120 fails for the kinds of numbers as well: a distance of 2π is written as the float nearest to it and comes back as 6.2831853071796, a plain
number; a distance of one half that is a fraction comes back as 0.5. -/
theorem C120_kind_false :
    jsonReload (plotEntry .func (jsonPlot [0x20, 0x80, 0x20, 0, 0, 0, 0, 0, 0])) =
      ⟨.ok (), plotEntry .func (jsonPlot [0x00, 0x80, 0x62, 0x83, 0x18, 0x53, 0x07, 0x17, 0x96]), []⟩ ∧
    jsonReload (plotEntry .func (jsonPlot [0x18, 0x7F, 0x50, 0, 0, 0, 0, 0, 0])) =
      ⟨.ok (), plotEntry .func (jsonPlot [0x00, 0x7F, 0x50, 0, 0, 0, 0, 0, 0]), []⟩ := by
  refine ⟨by decide +kernel, by decide +kernel⟩

end Verif
