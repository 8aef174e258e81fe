import Verif.Proofs.GdbDefault

/-! C126: the default dictionaries of graph databases. -/

namespace Verif
open Spec Ent Json
variable {V : Type} [LinearOrder V]

theorem std_named (k : String) (h : k ∈ graphColors) : KnownEq (stdEq k) :=
  ⟨⟨"ThickLine", by decide, rfl⟩, ⟨k, h, rfl⟩, by simp [stdEq], by simp [stdEq]⟩

theorem std_known {c : Cls} {m : String} {seq : Option Str} {settings : List (Str × JNum)} {equations : List (Str × EqDict)}
    (hc : colored c = true) (hm : m = (plotMode c).1)
    (hn : ∀ kv ∈ stdWindow ++ settings, ∃ n ∈ fieldNames c, kv.1 = n.toList)
    (he : ∀ kv ∈ equations, (∃ n ∈ curveNames c, kv.1 = n.toList) ∧ ∃ k ∈ graphColors, kv.2 = stdEq k) :
    KnownGdb c (stdDict m seq settings equations) := by
  refine ⟨by rw [← hm]; rfl, by simp [stdDict], by simp [stdDict], hn, ?_, ?_⟩
  · intro kv hkv
    obtain ⟨h, k, hk, h'⟩ := he kv hkv
    exact ⟨h, h' ▸ std_named k hk⟩
  · intro cd hcd
    obtain rfl : stdColor = cd := Option.some.inj hcd
    exact ⟨hc, fun _ => ⟨"MedGray", by decide, rfl⟩, fun _ => ⟨"Black", by decide, rfl⟩, fun h => absurd rfl h,
      fun n hn => by obtain rfl : (1 : Int) = n := Option.some.inj hn; decide⟩

theorem table_all {P : Nat → String → Prop} (l : List String) (h : ∀ i ∈ List.range l.length, P i (l.getD i "")) :
    ∀ (i : Nat) (n : String), l[i]? = some n → P i n := by
  intro i n hi
  have hlt := (List.getElem?_eq_some_iff.mp hi).1
  have := h i (List.mem_range.mpr hlt)
  rwa [List.getD_eq_getElem?_getD, hi] at this

theorem every_all {P : Nat → String → Prop} (l : List String) (k : Nat) (hk : 0 < k)
    (h : ∀ i ∈ List.range l.length, i * k < l.length → P i (l.getD (i * k) "")) :
    ∀ (i : Nat) (n : String), l[i * k]? = some n → P i n := by
  intro i n hi
  have hlt := (List.getElem?_eq_some_iff.mp hi).1
  have := h i (List.mem_range.mpr (lt_of_le_of_lt (Nat.le_mul_of_pos_right i hk) hlt)) hlt
  rwa [List.getD_eq_getElem?_getD, hi] at this

/-- The bytes of a number of JSON. -/
def stdBytes (j : JNum) : Bytes := (loadJson j ⟨true, clearFull .real⟩).st.bytes

theorem std_says_func : Says .func stdFunc stdBytes (fun _ => []) (standardPlot .func) where
  fits := ⟨by decide, by decide, by decide, by decide, fun t h => by cases h; decide⟩
  start := by decide
  format := by decide
  seq := by decide
  ext := by decide
  numbers := table_all _ (by decide +kernel)
  curves := table_all _ (by decide +kernel)
  styles := every_all _ _ (by decide) (by decide +kernel)
  mono := by decide
  colors := fun _ => ⟨_, rfl, rfl, by decide +kernel, every_all _ _ (by decide) (by decide +kernel)⟩

theorem std_says_param : Says .param stdParam stdBytes (fun _ => []) (standardPlot .param) where
  fits := ⟨by decide, by decide, by decide, by decide, fun t h => by cases h; decide⟩
  start := by decide
  format := by decide
  seq := by decide
  ext := by decide
  numbers := table_all _ (by decide +kernel)
  curves := table_all _ (by decide +kernel)
  styles := every_all _ _ (by decide) (by decide +kernel)
  mono := by decide
  colors := fun _ => ⟨_, rfl, rfl, by decide +kernel, every_all _ _ (by decide) (by decide +kernel)⟩

theorem std_says_polar : Says .polar stdPolar stdBytes (fun _ => []) (standardPlot .polar) where
  fits := ⟨by decide, by decide, by decide, by decide, fun t h => by cases h; decide⟩
  start := by decide
  format := by decide
  seq := by decide
  ext := by decide
  numbers := table_all _ (by decide +kernel)
  curves := table_all _ (by decide +kernel)
  styles := every_all _ _ (by decide) (by decide +kernel)
  mono := by decide
  colors := fun _ => ⟨_, rfl, rfl, by decide +kernel, every_all _ _ (by decide) (by decide +kernel)⟩

/-- The number is read exactly as a number should be, and no warning is due when it is stored. -/
def stdGood (kv : Str × JNum) : Bool :=
  (match loadJson kv.2 ⟨true, clearFull .real⟩ with
  | ⟨.ok (), ⟨true, b⟩, []⟩ => b.length == 9 && b.getD 0 0 % 64 == 0
  | _ => false) &&
  match wholeOf (stdVal [] kv.2) with
  | .ok r => (valueWarnings (String.ofList kv.1) r.1 r.2 ++ classWarnings .real).isEmpty
  | .error _ => false

theorem std_good (env : Env V) (nm : Bytes) {kv : Str × JNum} (h : stdGood kv = true) :
    Converts (realIO env nm) (stdVal nm) kv.2 ∧ numberWarns (realIO env nm) (stdVal nm) kv = [] := by
  unfold stdGood at h
  rw [Bool.and_eq_true] at h
  obtain ⟨h1, h2⟩ := h
  have hw : wholeOf (stdVal [] kv.2) = (realIO env nm).num (stdVal nm kv.2) := rfl
  split at h2
  · rename_i r hr
    rw [hw] at hr
    split at h1
    · rename_i b hb
      rw [Bool.and_eq_true, beq_iff_eq, beq_iff_eq] at h1
      refine ⟨std_converts env nm hb h1 ?_, ?_⟩
      · have hv : stdVal nm kv.2 = realEntry nm b := by unfold stdVal; rw [hb]
        rw [hv] at hr
        have hr' : wholeOf (realEntry nm b) = .ok r := hr
        unfold wholeOf at hr'
        rw [show realFloat (realEntry nm b).cls (realEntry nm b).body = realFloat .real ⟨true, b⟩ from rfl] at hr'
        split at hr'
        · cases hr'
        · rename_i x hx
          exact ⟨x, hx⟩
      · unfold numberWarns
        rw [hr]
        exact List.isEmpty_iff.mp h2
    · cases h1
  · cases h2

theorem std_empty (env : Env V) (trie : Trie (Tok V)) (mode : EncMode) : Tokenizes env trie mode (fun _ => []) [] :=
  ⟨_, rfl, rfl, by decide⟩

theorem std_load (env : Env V) (trie : Trie (Tok V)) (mode : EncMode) (nm nmE : Bytes) {e : Ent} {d : GdbDict JNum} {p : Plot}
    (hc : e.cls ∈ plotClasses) (hcol : colored e.cls = true) (hd : defaultDict e.cls = some d) (hk : KnownGdb e.cls d)
    (hq : KnownSeq e.cls d) (hn : ∀ kv ∈ d.window ++ d.settings, stdGood kv = true) (ht : ∀ kv ∈ d.equations, kv.2.expr = some [])
    (hs : Says e.cls d stdBytes (fun _ => []) p) :
    loadDefault env nm (equationOf env trie mode nmE) e = ⟨.ok (), { e with body := ⟨true, p.bytes⟩ }, []⟩ := by
  obtain ⟨p', hrun, hs'⟩ := C101_load_partial env trie mode nm nmE (realIO env nm) (stdVal nm) (fun _ => []) d e hc hk hq
    (fun kv hkv => (std_good env nm (hn kv hkv)).1)
    (fun kv hkv t h => by rw [ht kv hkv] at h; cases h; exact std_empty env trie mode)
  obtain rfl := says_unique hc hcol hs' hs
  unfold loadDefault
  rw [PyM.bind_ok (PyM.get_run _)]
  simp only [hd]
  rw [hrun]
  have w1 : (d.window ++ d.settings).flatMap (numberWarns (realIO env nm) (stdVal nm)) = [] := by
    rw [List.flatMap_eq_nil_iff]
    exact fun kv hkv => (std_good env nm (hn kv hkv)).2
  have w2 : (d.equations.flatMap fun kv => textWarns env (fun _ => []) (kv.2.expr.getD [])) = [] := by
    rw [List.flatMap_eq_nil_iff]
    intro kv _
    rfl
  rw [w1, w2]
  rfl

/-- C126, the part that holds: a function, parametric or polar database with colours, whatever it was before, becomes the standard one when
it is given no dictionary, without a warning; its name, version and archive flag are kept. -/
theorem C126_load_partial (env : Env V) (trie : Trie (Tok V)) (mode : EncMode) (nm nmE : Bytes) (e : Ent)
    (hc : e.cls = .func ∨ e.cls = .param ∨ e.cls = .polar) :
    loadDefault env nm (equationOf env trie mode nmE) e = ⟨.ok (), { e with body := ⟨true, (standardPlot e.cls).bytes⟩ }, []⟩ := by
  rcases hc with h | h | h
  · refine std_load env trie mode nm nmE (d := stdFunc) (by rw [h]; decide) (by rw [h]; decide) (by rw [h]; exact default_func) ?_
      (fun h => absurd rfl h) (by decide +kernel) (by decide +kernel) (by rw [h]; exact std_says_func)
    rw [h]
    exact std_known (by decide) (by decide) (by decide +kernel) (by decide +kernel)
  · refine std_load env trie mode nm nmE (d := stdParam) (by rw [h]; decide) (by rw [h]; decide) (by rw [h]; exact default_param) ?_
      (fun h => absurd rfl h) (by decide +kernel) (by decide +kernel) (by rw [h]; exact std_says_param)
    rw [h]
    exact std_known (by decide) (by decide) (by decide +kernel) (by decide +kernel)
  · refine std_load env trie mode nm nmE (d := stdPolar) (by rw [h]; decide) (by rw [h]; decide) (by rw [h]; exact default_polar) ?_
      (fun h => absurd rfl h) (by decide +kernel) (by decide +kernel) (by rw [h]; exact std_says_polar)
    rw [h]
    exact std_known (by decide) (by decide) (by decide +kernel) (by decide +kernel)

/-- … but no sequence database can be given its default: it is refused with a `KeyError`, since the default has no settings of sequences
where they are looked for. -/
theorem C126_sequence_false (env : Env V) (trie : Trie (Tok V)) (mode : EncMode) (nm nmE : Bytes) (e : Ent) (hc : e.cls = .seq) :
    (loadDefault env nm (equationOf env trie mode nmE) e).res = .error .keyError := by
  have hk : KnownGdb e.cls stdSeq := by
    rw [hc]
    exact std_known (by decide) (by decide) (by decide +kernel) (by decide +kernel)
  have hn : ∀ kv ∈ stdSeq.window ++ stdSeq.settings, stdGood kv = true := by decide +kernel
  have ht : ∀ kv ∈ stdSeq.equations, kv.2.expr = some [] := by decide +kernel
  unfold loadDefault
  rw [PyM.bind_ok (PyM.get_run _)]
  simp only [hc, default_seq]
  exact C101_sequence_false env trie mode nm nmE (realIO env nm) (stdVal nm) (fun _ => []) stdSeq e (.inl hc) hk (by decide) rfl
    (fun kv hkv => (std_good env nm (hn kv hkv)).1) (fun kv hkv t h => by rw [ht kv hkv] at h; cases h; exact std_empty env trie mode)

/-- … and the classes without a mode have no default: they are emptied, and an error is raised. -/
theorem C126_base_false (env : Env V) (nm : Bytes) (eq : Str → PyM Unit Ent) (e : Ent) (hc : e.cls = .monoGDB ∨ e.cls = .gdb) :
    (loadDefault env nm eq e).res = .error .attributeError ∧ (loadDefault env nm eq e).st = (clear e).st := by
  have hd : defaultDict e.cls = none := by rcases hc with h | h <;> rw [h] <;> rfl
  unfold loadDefault
  rw [PyM.bind_ok (PyM.get_run _)]
  simp only [hd]
  constructor <;> rcases hc with h | h <;> simp [clear, PyM.bind_run, h]

/-- What a text of `null` does is what no dictionary does. -/
theorem C126_null_partial (env : Env V) (trie : Trie (Tok V)) (mode : EncMode) (nm nmE : Bytes) (s : Str) (hs : loads s = .ok .null) (e : Ent)
    (hc : e.cls = .func ∨ e.cls = .param ∨ e.cls = .polar) :
    ∃ m, loadGdbString env nm (equationOf env trie mode nmE) s = some m ∧
      m e = ⟨.ok (), { e with body := ⟨true, (standardPlot e.cls).bytes⟩ }, []⟩ := by
  refine ⟨loadDefault env nm (equationOf env trie mode nmE), ?_, C126_load_partial env trie mode nm nmE e hc⟩
  unfold loadGdbString
  rw [hs]
  rfl

example : (match loads " null\n".toList with | .ok .null => true | _ => false) = true := by decide +kernel

/-- The standard database of polar mode: 126 bytes, of which the numbers are those of the default. -/
example : (standardPlot .polar).bytes.length = 126 ∧ ((standardPlot .polar).bytes.drop 52).take 18 =
    [0x00, 0x80, 0x10, 0, 0, 0, 0, 0, 0, 0x00, 0x80, 0, 0, 0, 0, 0, 0, 0] := by decide +kernel

/-- The numbers of the standard database are the floats of the default, although neither 6.283185307 nor 0.13089969389957 is one exactly. -/
example : (standardNumbers .polar).map (fun b => realFloat .real ⟨true, b⟩) =
    [.ok ⟨false, 0, 0⟩, .ok ⟨false, 1768559437956561, -48⟩, .ok ⟨false, 1179039625338031, -53⟩] := by decide +kernel

/-- A function database without colours, as it is made. -/
def monoSample : Ent := ⟨.monoFunc, [0x0D, 0x00], [0x08], List.replicate 8 0x41, [0x00], [0x00], ⟨true, clearCalc .monoFunc⟩⟩

theorem default_monoFunc : defaultDict .monoFunc = some stdFunc := by
  rw [← default_func]
  simp only [defaultDict, defaultText]

/-- … and a database without colours gets the colours of the default, but not the room for them: without a warning it becomes one of the
class with colours whose fifth equation has the bytes `84C` for its flags and its length. -/
theorem C126_mono_false : let r := loadDefault sampleEnv [0x41] (equationOf sampleEnv sampleTrie .max [0x5E, 0x10]) monoSample
    (r.res = .ok () ∧ r.warns = []) ∧ r.st.cls = .func ∧
      ((getEquations r.st)[4]?).map (fun q => q.body.take 3) = some [0x38, 0x34, 0x43] := by
  have h : loadDefault sampleEnv [0x41] (equationOf sampleEnv sampleTrie .max [0x5E, 0x10]) monoSample =
      loadGdbDict sampleEnv [0x41] (realIO sampleEnv [0x41]) (equationOf sampleEnv sampleTrie .max [0x5E, 0x10]) stdFunc monoSample := by
    unfold loadDefault
    rw [PyM.bind_ok (PyM.get_run _)]
    simp only [monoSample, default_monoFunc]
    simp
  rw [h]
  decide +kernel

end Verif
