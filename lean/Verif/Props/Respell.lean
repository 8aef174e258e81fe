import Verif.Proofs.Respell
import Verif.Props.Tokenized

/-! Property theorems about loading the text of an entry again (C150). -/

namespace Verif
open Spec Ent
variable {V : Type} [LinearOrder V]

/-- Assigning data that are too long. -/
theorem setData_overflow {gv : GetVersion} {value : Bytes} {e : Ent} (hz : e.cls.isSized = true)
    (h1 : lengthStart e.cls = 0) (hn : 65536 ≤ value.length) :
    setData gv value e = ⟨.error .overflowError, e, []⟩ := by
  have := setLength_overflow (e := e) h1 hn
  simp [setData, PyM.bind_run, hz, this]

/-- Quotation marks put around a text are taken off again. -/
theorem strip_quotes {a : Str} (h1 : a.head? ≠ some '"') (h2 : a.getLast? ≠ some '"') :
    stripChars ['"'] ('"' :: a ++ ['"']) = a := by
  have hl : ∀ b : Str, b.head? ≠ some '"' → lstripChars ['"'] b = b := by
    intro b hb
    cases b with
    | nil => rfl
    | cons c cs =>
      have : c ≠ '"' := fun h => hb (by simp [h])
      simp [lstripChars, List.dropWhile, this]
  rcases a.eq_nil_or_concat with rfl | ⟨b, c, rfl⟩
  · decide
  · have hc : c ≠ '"' := by simpa using h2
    have e1 : lstripChars ['"'] ('"' :: (b ++ [c]) ++ ['"']) = (b ++ [c]) ++ ['"'] := by
      have : lstripChars ['"'] ('"' :: (b ++ [c]) ++ ['"']) = lstripChars ['"'] ((b ++ [c]) ++ ['"']) := rfl
      rw [this]
      apply hl
      cases b with
      | nil => simpa using hc
      | cons x xs => simpa using h1
    unfold stripChars
    rw [List.concat_eq_append, e1]
    simp [rstripChars, List.dropWhile, hc]

/-- C150, exactly. Loading the text of a program, string or equation into it again succeeds with the same data if and
only if the text – of a string without the quotation marks at its ends – is read, as the mode reads, as tokens whose
codes are these data. In this case nothing but the version can change. -/
theorem C150_exact (env : Env V) (e : Ent) (hc : e.cls ∈ plainTokenized) (hm : e.body.mutable = true)
    (hl : 2 ≤ e.body.bytes.length) (hn : e.data.length < 65536) (toks : List (Tok V × List Str))
    (hnames : ∀ p ∈ toks, [] ∉ p.2) (mode : EncMode) :
    ((∃ e' ws, loadString env (Trie.fromTokens toks) mode (e.string env) e = ⟨.ok (), e', ws⟩ ∧ e'.data = e.data) ↔
      ∃ ps, ReadIn (illegalTok env.initial) Tok.bits (namePairs toks) (loadedText e.cls (e.string env)) ps mode ∧
        ps.flatMap (fun p => p.2.bits) = e.data) ∧
    ∀ e' ws, loadString env (Trie.fromTokens toks) mode (e.string env) e = ⟨.ok (), e', ws⟩ → e'.data = e.data →
      e'.version.length = 1 ∧
      e' = { e with version := e'.version, body := ⟨true, toLE 2 e.data.length ++ e.data⟩ } := by
  obtain ⟨hz, h1, h2, h3, h4⟩ := plainTokenized_facts hc
  have hb : e.body = ⟨true, e.body.bytes⟩ := by rw [← hm]
  have hrun : ∀ acc, encode env.initial (Trie.fromTokens toks) mode (loadedText e.cls (e.string env)) = some (.ok acc) →
      loadString env (Trie.fromTokens toks) mode (e.string env) e = setData (tokenGetVersion env) acc.data e := by
    intro acc henc
    have henc' : encode env.initial (Trie.fromTokens toks) mode
        (if e.cls = .string then stripChars ['"'] (e.string env) else e.string env) = some (.ok acc) := henc
    simp [loadString, PyM.bind_run, h3, h4, henc']
  have hset : ∀ value : Bytes, value.length < 65536 → ∃ v ws, setData (tokenGetVersion env) value e = ⟨.ok (),
      { e with version := [v], body := ⟨true, toLE 2 value.length ++ value⟩ }, ws⟩ := fun value hv =>
    ⟨_, _, setData_ok (gv := tokenGetVersion env) (value := value) hz h1 h2 hb hl hv rfl⟩
  have hdata : ∀ (v : UInt8) (value : Bytes),
      ({ e with version := [v], body := ⟨true, toLE 2 value.length ++ value⟩ } : Ent).data = value := by
    intro v value
    simp only [data, h2]
    exact List.drop_left' (length_toLE 2 _)
  have hback : ∀ e' ws, loadString env (Trie.fromTokens toks) mode (e.string env) e = ⟨.ok (), e', ws⟩ →
      ∃ acc v, encode env.initial (Trie.fromTokens toks) mode (loadedText e.cls (e.string env)) = some (.ok acc) ∧
        e' = { e with version := [v], body := ⟨true, toLE 2 acc.data.length ++ acc.data⟩ } := by
    intro e' ws hload
    rcases henc : encode env.initial (Trie.fromTokens toks) mode (loadedText e.cls (e.string env)) with _ | (err | acc)
    · exact absurd henc (C41_encode_terminates _ _ hnames _ _)
    · rw [C70_load_string_error env e hc _ mode _ err henc] at hload
      exact absurd (congrArg Out.res hload) (by simp)
    · rw [hrun acc henc] at hload
      rcases Nat.lt_or_ge acc.data.length 65536 with hv | hv
      · obtain ⟨v, ws', hs⟩ := hset acc.data hv
        rw [hs] at hload
        exact ⟨acc, v, rfl, (congrArg Out.st hload).symm⟩
      · rw [setData_overflow hz h1 hv] at hload
        exact absurd (congrArg Out.res hload) (by simp)
  refine ⟨⟨?_, ?_⟩, ?_⟩
  · rintro ⟨e', ws, hload, hd⟩
    obtain ⟨acc, v, henc, rfl⟩ := hback e' ws hload
    rw [hdata] at hd
    exact (encode_iff_reads env.initial toks hnames mode _ _).1 ⟨acc, henc, hd⟩
  · intro h
    obtain ⟨acc, henc, hd⟩ := (encode_iff_reads env.initial toks hnames mode _ _).2 h
    obtain ⟨v, ws, hs⟩ := hset acc.data (hd ▸ hn)
    exact ⟨_, ws, (hrun acc henc).trans hs, (hdata v acc.data).trans hd⟩
  · intro e' ws hload hd
    obtain ⟨acc, v, henc, rfl⟩ := hback e' ws hload
    rw [hdata] at hd
    exact ⟨rfl, by rw [hd]⟩

/-- C150, the part that holds: if the entry consists of tokens of the decoding table and the name of each is what the
mode reads where it stands, loading the text again gives the same data, and so the same tokens. For strings the first and
the last token must not show a quotation mark. -/
theorem C150_text_partial (env : Env V) (htbl : CodeTable env.table) (e : Ent) (hc : e.cls ∈ plainTokenized)
    (hm : e.body.mutable = true) (hl : 2 ≤ e.body.bytes.length) (hn : e.data.length < 65536)
    (ts : List (Tok V)) (hts : ∀ t ∈ ts, t ∈ env.table) (hd : e.data = ts.flatMap Tok.bits)
    (toks : List (Tok V × List Str)) (hnames : ∀ p ∈ toks, [] ∉ p.2) (mode : EncMode)
    (hread : ReadIn (illegalTok env.initial) Tok.bits (namePairs toks) (ts.flatMap Tok.display)
      (ts.map fun t => (t.display, t)) mode)
    (hq : e.cls = .string → (ts.flatMap Tok.display).head? ≠ some '"' ∧ (ts.flatMap Tok.display).getLast? ≠ some '"') :
    ∃ e' ws, loadString env (Trie.fromTokens toks) mode (e.string env) e = ⟨.ok (), e', ws⟩ ∧ e'.data = e.data ∧
      (e'.tokens env).2 = ts := by
  have hdec := C39_decode_concat env.initial env.table htbl ts hts
  have htok : (e.tokens env).2 = ts := by
    simp only [tokens, hd]
    exact hdec.1
  have htext : loadedText e.cls (e.string env) = ts.flatMap Tok.display := by
    unfold loadedText Ent.string
    rw [htok]
    by_cases hs : e.cls = .string
    · simp only [if_pos hs]
      exact strip_quotes (hq hs).1 (hq hs).2
    · simp only [if_neg hs]
  obtain ⟨e', ws, h1, h2⟩ := (C150_exact env e hc hm hl hn toks hnames mode).1.2
    ⟨_, by rw [htext]; exact hread, by rw [hd, List.flatMap_map]⟩
  refine ⟨e', ws, h1, h2, ?_⟩
  simp only [tokens, h2]
  exact htok

/-- C150, names that cannot be mistaken: an entry of tokens each of whose names is not the start of another name, has no
other name at its start and does not start with a backslash loads back from its text in every mode. -/
theorem C150_unmistakable_partial (env : Env V) (htbl : CodeTable env.table) (e : Ent) (hc : e.cls ∈ plainTokenized)
    (hm : e.body.mutable = true) (hl : 2 ≤ e.body.bytes.length) (hn : e.data.length < 65536)
    (ts : List (Tok V)) (hts : ∀ t ∈ ts, t ∈ env.table) (hd : e.data = ts.flatMap Tok.bits)
    (toks : List (Tok V × List Str)) (hnames : ∀ p ∈ toks, [] ∉ p.2)
    (hu : ∀ t ∈ ts, Unmistakable (namePairs toks) t.display t)
    (hq : e.cls = .string → (ts.flatMap Tok.display).head? ≠ some '"' ∧ (ts.flatMap Tok.display).getLast? ≠ some '"') :
    ∀ mode, ∃ e' ws, loadString env (Trie.fromTokens toks) mode (e.string env) e = ⟨.ok (), e', ws⟩ ∧
      e'.data = e.data ∧ (e'.tokens env).2 = ts := fun mode =>
  C150_text_partial env htbl e hc hm hl hn ts hts hd toks hnames mode (unmistakable_reads _ mode ts hu) hq

/-- The environment of the examples with the table that has `a`, `b` and `ab`. -/
def abEnv : Env Nat := { sampleEnv with table := exTable }

/-- A program of the given data. -/
def abProgram (c : Cls) (d : Bytes) : Ent :=
  { sampleProgram with cls := c, body := ⟨true, toLE 2 d.length ++ d⟩ }

/-- C150 is false, of tokens whose names together are the name of another: the program `a`, `b` shows `ab` and becomes
the program of the one token `ab`; and of tokens inside string literals: the program `"`, `ab` becomes `"`, `a`, `b`; and
of strings that end in a quotation mark. Nothing warns. -/
theorem C150_text_false :
    (∃ e : Ent, e.cls = .program ∧ (∃ ts : List (Tok Nat), (∀ t ∈ ts, t ∈ abEnv.table) ∧ e.data = ts.flatMap Tok.bits) ∧
      ∃ e', loadString abEnv (Trie.fromTokens exToks) .smart (e.string abEnv) e = ⟨.ok (), e', []⟩ ∧
        e.data = [0xBB, 0xB1, 0xBB, 0xB2] ∧ e'.data = [0xBB, 0xB0] ∧ e'.string abEnv = e.string abEnv) ∧
    (∃ e : Ent, e.cls = .program ∧ ∃ e', loadString abEnv (Trie.fromTokens exToks) .smart (e.string abEnv) e =
        ⟨.ok (), e', []⟩ ∧ e.data = [0x2A, 0xBB, 0xB0] ∧ e'.data = [0x2A, 0xBB, 0xB1, 0xBB, 0xB2]) ∧
    (∃ e : Ent, e.cls = .string ∧ ∃ e', loadString abEnv (Trie.fromTokens exToks) .smart (e.string abEnv) e =
        ⟨.ok (), e', []⟩ ∧ e.data = [0x41, 0x2A] ∧ e'.data = [0x41]) := by
  refine ⟨⟨abProgram .program [0xBB, 0xB1, 0xBB, 0xB2], rfl, ⟨[exTok [0xBB, 0xB1] "a" 3, exTok [0xBB, 0xB2] "b" 4],
      by decide +kernel, by decide +kernel⟩, ?_⟩, ⟨abProgram .program [0x2A, 0xBB, 0xB0], rfl, ?_⟩,
      ⟨abProgram .string [0x41, 0x2A], rfl, ?_⟩⟩
  · exact ⟨_, rfl, by decide +kernel⟩
  · exact ⟨_, rfl, by decide +kernel⟩
  · exact ⟨_, rfl, by decide +kernel⟩

/-- The names `A` and `B` are unmistakable. -/
example : ∀ t ∈ [exTok [0x41] "A" 0, exTok [0x42] "B" 0], Unmistakable (namePairs exToks) t.display t := by
  unfold Unmistakable; decide +kernel

example : ((loadString abEnv (Trie.fromTokens exToks) .smart
    ((abProgram .program [0x41, 0xBB, 0xB0, 0x42]).string abEnv) (abProgram .program [0x41, 0xBB, 0xB0, 0x42])).st.data) =
    [0x41, 0xBB, 0xB0, 0x42] := by decide +kernel

end Verif
