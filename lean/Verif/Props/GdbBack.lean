import Verif.Proofs.GdbBack
import Verif.Props.GdbDict

/-! Property theorems about the dictionaries of graph databases: C102. -/

namespace Verif
open Spec
open Ent
variable {V : Type} [LinearOrder V]

/-! ### C102 – the dictionary of a database loads back -/

/-- C102, the part that holds: for function, parametric and polar databases with colours whose equations have no
tokens, whose colours and styles are known, and whose other settings have names, if the numbers go through JSON
unharmed, the dictionary loads back into any database of the same class: all bytes are the same. Missing: databases
without colours, sequences, equations with tokens, and settings without names, see below. -/
theorem C102_reload_partial (env : Env V) (trie : Trie (Tok V)) (mode : EncMode) (nm nmE : Bytes) {J : Type}
    (io : NumIO J) (val : J → Ent) (js : String → J) (p : Plot) (e e' : Ent)
    (hc : e.cls ∈ [.func, .param, .polar]) (hcls : e'.cls = e.cls) (hb : e.body = ⟨true, p.bytes⟩)
    (hp : PlainPlot e.cls p)
    (hnum : ∀ (i : Nat) (n : String), (fieldNames e.cls)[i]? = some n →
      ∃ x, Carried io val (n = "Xres") x (js n) ∧ fieldBytes e.cls i p.head = x.body.bytes) :
    ∃ d, gdbDict env nm io e () = ⟨.ok d, (), []⟩ ∧
      loadGdbDict env nm io (equationOf env trie mode nmE) d e' =
        ⟨.ok (), { e' with body := e.body }, (d.window ++ d.settings).flatMap (numberWarns io val)⟩ := by
  have he : onPlot e p = e := by rw [onPlot, ← hb]
  obtain ⟨t, ht, hmagic, hcol, g, a, l, b, d, hset, hg, ha, hl, hb1, hb2, hd⟩ := hp.tail
  refine ⟨dictOf e.cls p js (colorOf g a l b d), ?_, ?_⟩
  · have := gdbDict_run env nm hc hp hnum ht hset
    rwa [he] at this
  · have hknown := dict_known (js := js) (d := d) hc hp hg ha hl ⟨hb1, hb2⟩
    have hexpr : ∀ kv ∈ (dictOf e.cls p js (colorOf g a l b d)).equations, kv.2.expr = some [] := by
      intro kv hkv
      simp only [dictOf] at hkv
      obtain ⟨q, -, hq⟩ := List.mem_map.mp (List.of_mem_zip hkv).2
      rw [← hq]
      rfl
    obtain ⟨p', hrun, hsays⟩ := C101_load_partial env trie mode nm nmE io val (fun _ => [])
      (dictOf e.cls p js (colorOf g a l b d)) e' (by rw [hcls]; exact back_plot hc) (by rw [hcls]; exact hknown)
      (fun h => absurd rfl h)
      (by
        intro kv hkv
        simp only [dictOf, numbersOf, ← List.map_append, List.take_append_drop, List.mem_map] at hkv
        obtain ⟨n, hn, rfl⟩ := hkv
        obtain ⟨i, hi⟩ := List.mem_iff_getElem?.mp hn
        obtain ⟨x, hx, -⟩ := hnum i n hi
        exact hx.back)
      (by
        intro kv hkv s hs
        rw [hexpr kv hkv] at hs
        obtain rfl := Option.some.inj hs
        exact ⟨⟨[], env.initial, 0, [mode.start]⟩, rfl, rfl, by simp⟩)
    rw [hcls] at hsays
    have hpp : p' = p := says_back hc hp rfl (fun i n hi => by
      obtain ⟨x, hx, hf⟩ := hnum i n hi
      rw [hf]
      exact hx.same) ht hset hg ha hl hd hsays
    rw [hrun, hpp, hb]
    congr 1
    have : (dictOf e.cls p js (colorOf g a l b d)).equations.flatMap
        (fun kv => textWarns env (fun _ => []) (kv.2.expr.getD [])) = [] := by
      rw [List.flatMap_eq_nil_iff]
      intro kv _
      rfl
    rw [this, List.append_nil]

/-- A plain polar database. -/
def samplePolar : Plot where
  head := toLE 2 124 ++ [0x00, 0x20, 0x35, 0x00, 0x01] ++
    (List.range 9).flatMap fun k => [0x00, 0x80, UInt8.ofNat k, 0, 0, 0, 0, 0, 0]
  styles := [0, 1, 2, 3, 4, 6]
  eqs := (List.range 6).map fun k => ⟨UInt8.ofNat (3 + 32 * k), []⟩
  tail := some ⟨[0x38, 0x34, 0x43], [1, 2, 3, 13, 14, 15], [1, 2, 3, 4, 1]⟩

/-- The entry with the bytes of a database. -/
def plotEntry (c : Cls) (p : Plot) : Ent := { noData c with body := ⟨true, p.bytes⟩ }

/-- The numbers of the sample database. -/
def sampleVal (b : Bytes) : Ent := ⟨.real, [0x0D, 0x00], [0x00], List.replicate 8 0x41, [0x00], [0x00], ⟨true, b⟩⟩

example : PlainPlot .polar samplePolar where
  fits := ⟨by decide, by decide, by decide, by decide, by rintro t ⟨⟩; decide⟩
  start := by decide
  format := by decide
  seq := by decide
  ext := by decide
  eqs := by decide
  styles := by decide
  tail := ⟨_, rfl, by decide, by decide, 1, 2, 3, 4, 1, by decide⟩

example : ∀ (i : Nat) (n : String), (fieldNames .polar)[i]? = some n →
    ∃ x, Carried sampleIO sampleVal (n = "Xres") x (fieldBytes .polar ((fieldNames .polar).idxOf n) samplePolar.head) ∧
      fieldBytes .polar i samplePolar.head = x.body.bytes := by
  intro i n hi
  have htab : ∀ i ∈ List.range 9, RealElem (sampleVal (fieldBytes .polar i samplePolar.head)) ∧
      (fieldNames .polar).idxOf ((fieldNames .polar).getD i "") = i := by
    unfold RealElem; decide +kernel
  have hlt : i < 9 := (List.getElem?_eq_some_iff.mp hi).1
  obtain ⟨h1, h2⟩ := htab i (List.mem_range.2 hlt)
  rw [List.getD_eq_getElem?_getD, hi, Option.getD_some] at h2
  rw [h2]
  refine ⟨sampleVal (fieldBytes .polar i samplePolar.head), ⟨h1, ?_, ⟨rfl, h1, _, rfl⟩, rfl⟩, rfl⟩
  rintro y ⟨-, hy⟩
  simp only [sampleIO, ite_self, ← hy]
  rfl

/-- The dictionary of a database loaded back into it. -/
def reloadSample (e : Ent) : Out Ent Unit :=
  match gdbDict sampleEnv [0x41] sampleIO e () with
  | ⟨.ok d, _, _⟩ => loadGdbDict sampleEnv [0x41] sampleIO (equationOf sampleEnv sampleTrie .max [0x5E, 0x10]) d e
  | ⟨.error x, _, _⟩ => ⟨.error x, e, []⟩

example : reloadSample (plotEntry .polar samplePolar) = ⟨.ok (), plotEntry .polar samplePolar, []⟩ := by decide +kernel

/-- C102 is false of the code: the dictionary of a database without colours has no colours for the equations, which
loading asks for; … -/
theorem C102_mono_false :
    (reloadSample (plotEntry .monoPolar { samplePolar with tail := none })).res = .error .keyError := by decide +kernel

/-- … the tokens of an equation get a null byte in front; … -/
theorem C102_tokens_false :
    let p := { samplePolar with eqs := ⟨0x23, [0xEB, 0x41]⟩ :: samplePolar.eqs.drop 1 }
    (reloadSample (plotEntry .polar p)).res = .ok () ∧
    (getEquations (reloadSample (plotEntry .polar p)).st)[0]? = some ⟨[0], [1], [0x23, 3, 0, 0x00, 0xEB, 0x41]⟩ := by
  decide +kernel

/-- … a grid of lines is written as no grid; … -/
theorem C102_grid_false :
    let p := { samplePolar with head := samplePolar.head.set 4 0x84 }
    (reloadSample (plotEntry .polar p)).res = .ok () ∧
    (reloadSample (plotEntry .polar p)).st.body.bytes.getD 4 0 = 0x00 := by decide +kernel

/-- … a border without a colour is made white; … -/
theorem C102_border_false :
    let p := { samplePolar with tail := some ⟨[0x38, 0x34, 0x43], [1, 2, 3, 13, 14, 15], [1, 2, 3, 0, 1]⟩ }
    (reloadSample (plotEntry .polar p)).res = .ok () ∧
    (reloadSample (plotEntry .polar p)).st = plotEntry .polar samplePolar := by decide +kernel

/-- A database of sequences. -/
def sampleSeq : Plot where
  head := toLE 2 172 ++ [0x00, 0x80, 0x00, 0x00, 0x00] ++
    (List.range 16).flatMap fun k => [0x00, 0x80, UInt8.ofNat k, 0, 0, 0, 0, 0, 0]
  styles := [0, 1, 2]
  eqs := (List.range 3).map fun k => ⟨UInt8.ofNat (3 + 32 * k), []⟩
  tail := some ⟨[0x38, 0x34, 0x43], [1, 2, 3], [1, 2, 3, 4, 1]⟩

example : sampleSeq.Fits .seq ∧ emptySize .seq = 172 :=
  ⟨⟨by decide +kernel, by decide, by decide, by decide, by rintro t ⟨⟩; decide⟩, by decide +kernel⟩

/-- … and the dictionary of sequences raises an error on loading, besides giving the initial value of the second
sequence that of its second term. -/
theorem C102_sequence_false :
    (reloadSample (plotEntry .seq sampleSeq)).res = .error .keyError ∧
    ((gdbDict sampleEnv [0x41] sampleIO (plotEntry .seq sampleSeq) ()).res.toOption.bind fun d =>
      lastFor "vnMin".toList d.settings) =
      some (fieldBytes .seq ((fieldNames .seq).idxOf "vnMinp1") sampleSeq.head) ∧
    fieldBytes .seq ((fieldNames .seq).idxOf "vnMinp1") sampleSeq.head ≠
      fieldBytes .seq ((fieldNames .seq).idxOf "vnMin") sampleSeq.head := by decide +kernel

end Verif
