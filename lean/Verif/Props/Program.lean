import Verif.Spec.Program
import Verif.Model.Program
import Verif.Props.Tokenized

/-! C136: which programs are taken for assembly programs. -/

namespace Verif
open Spec Ent
variable {V : Type} [LinearOrder V]

omit [LinearOrder V] in
/-- Two bytes occur in codes put together only as a code, if no code ends with the first of them. -/
theorem hasSub_codes {a b : UInt8} {ts : List (Tok V)} (h : ∀ t ∈ ts, (t.bits.length = 1 ∨ t.bits.length = 2) ∧ t.bits.getLast? ≠ some a) :
    hasSub [a, b] (ts.flatMap Tok.bits) = true ↔ ∃ t ∈ ts, t.bits = [a, b] := by
  have step : ∀ (x : UInt8) (l : Bytes), hasSub [a, b] (x :: l) = true ↔ (x = a ∧ l.head? = some b) ∨ hasSub [a, b] l = true := by
    intro x l
    unfold hasSub
    conv_lhs => unfold findSub
    have : ([a, b].isPrefixOf (x :: l) = true) ↔ (x = a ∧ l.head? = some b) := by
      rw [List.isPrefixOf_iff_prefix, List.cons_prefix_cons]
      cases l with
      | nil => simp
      | cons y l => simp [List.cons_prefix_cons, eq_comm]
    by_cases hp : [a, b].isPrefixOf (x :: l) = true
    · rw [if_pos hp]
      exact ⟨fun _ => Or.inl (this.1 hp), fun _ => rfl⟩
    · rw [if_neg hp, Option.isSome_map]
      exact ⟨Or.inr, fun h => h.resolve_left (mt this.2 hp)⟩
  induction ts with
  | nil => simp [hasSub, findSub]
  | cons t ts ih =>
    have ih' : hasSub [a, b] (ts.flatMap Tok.bits) = true ↔ ∃ t ∈ ts, t.bits = [a, b] := ih fun u hu => h u (List.mem_cons_of_mem _ hu)
    obtain ⟨hl, hx⟩ := h t (List.mem_cons_self ..)
    rw [List.flatMap_cons]
    rcases hb : t.bits with _ | ⟨x, _ | ⟨y, _ | ⟨z, r⟩⟩⟩
    · simp [hb] at hl
    · rw [hb] at hx
      have hx : x ≠ a := by simpa using hx
      rw [List.singleton_append, step, ih']
      simp [hx, hb]
    · rw [hb] at hx
      have hx : y ≠ a := by simpa using hx
      rw [show [x, y] ++ ts.flatMap Tok.bits = x :: y :: ts.flatMap Tok.bits from rfl, step, step, ih']
      simp [hx, hb]
    · simp [hb] at hl

theorem endsWith_suffix (s t : Str) : endsWith s t = true ↔ t <:+ s := by
  unfold endsWith
  rw [List.isPrefixOf_iff_prefix, List.reverse_prefix]

/-- When a program made of tokens is taken for assembly. -/
theorem looksAsm_tokens (env : Env V) (htbl : CodeTable env.table) (hce : CleanEnds env.table) {ts : List (Tok V)} (hts : ∀ t ∈ ts, t ∈ env.table) :
    looksAsm env (ts.flatMap Tok.bits) = true ↔ (∃ t ∈ ts, t.bits ∈ compiledMarks) ∨ Ends83 ts := by
  obtain ⟨h1, h2⟩ := C39_decode_concat env.initial env.table htbl ts hts
  unfold looksAsm
  simp only [h1, h2, List.isEmpty_nil, Bool.true_and, Bool.not_true, Bool.false_and, Bool.or_false, Bool.or_eq_true, endsWith_suffix]
  refine or_congr ?_ Iff.rfl
  have hbb := fun b => hasSub_codes (a := 0xBB) (b := b) (ts := ts) fun t ht => ⟨(htbl t (hts t ht)).1, (hce t (hts t ht)).1⟩
  have hef := fun b => hasSub_codes (a := 0xEF) (b := b) (ts := ts) fun t ht => ⟨(htbl t (hts t ht)).1, (hce t (hts t ht)).2⟩
  unfold asmTokens compiledMarks
  simp only [List.any_cons, List.any_nil, Bool.or_false, Bool.or_eq_true, hbb, hef, List.mem_cons, List.not_mem_nil, or_false]
  constructor
  · rintro (⟨t, h, h'⟩ | ⟨t, h, h'⟩ | ⟨t, h, h'⟩) <;> exact ⟨t, h, by simp [h']⟩
  · rintro ⟨t, h, h' | h' | h'⟩
    · exact Or.inl ⟨t, h, h'⟩
    · exact Or.inr (Or.inl ⟨t, h, h'⟩)
    · exact Or.inr (Or.inr ⟨t, h, h'⟩)

/-- The class of the program that loading the bytes of a program gives. -/
theorem load_program (env : Env V) {e : Ent} (hw : WF e) (hno : e.metaLen = [0x0D, 0x00] → ¬FlashIsLength e)
    (ht : e.typeId = [5] ∨ e.typeId = [6]) {b : Bytes} (hb : e.bytes = .ok b) :
    load env b (fresh env) = ⟨.ok (), { e with cls := programClass (fromLE e.typeId) (looksAsm env (e.body.bytes.drop 2)) .program, body := ⟨true, e.body.bytes⟩ },
      loadWarnings .program e.metaLen e.version⟩ := by
  obtain ⟨v, hv⟩ := length_one hw.version
  have hload : load env b (fresh env) = loadBase env b (fresh env) := by
    simp [load, PyM.bind_run, fresh]
  have key : ∀ (t : UInt8) (c : Cls), e.typeId = [t] → Cls.getType t.toNat = some c → (c = .program ∨ c = .protProgram) → (t.toNat = 5 ∨ t.toNat = 6) →
      load env b (fresh env) = ⟨.ok (), { e with cls := programClass t.toNat (looksAsm env (e.body.bytes.drop 2)) .program, body := ⟨true, e.body.bytes⟩ },
      loadWarnings .program e.metaLen e.version⟩ := by
    intro t c ht hc hcl ht5
    rw [hload, loadBase_bytes env hw hno hb]
    have hrun : coerceTyped env { e with cls := c, body := ⟨true, e.body.bytes⟩ } =
        ⟨.ok (), { e with cls := programClass t.toNat (looksAsm env (e.body.bytes.drop 2)) .program, body := ⟨true, e.body.bytes⟩ }, []⟩ := by
      have h1 : coerceTyped env { e with cls := c, body := ⟨true, e.body.bytes⟩ } =
          coerceProgram env { e with cls := c, body := ⟨true, e.body.bytes⟩ } := by
        rcases hcl with h | h <;> simp [coerceTyped, PyM.bind_run, h]
      rw [h1, coerceProgram_run env (e := { e with cls := c, body := ⟨true, e.body.bytes⟩ }) (t := t) ht (by rcases hcl with h | h <;> simp [h]) (by rcases hcl with h | h <;> simp [h])]
      have h2 : Ent.data { e with cls := c, body := ⟨true, e.body.bytes⟩ } = e.body.bytes.drop 2 := by
        unfold Ent.data dataStart
        rcases hcl with h | h <;> simp only [h] <;> rfl
      rw [h2]
      rcases ht5 with h | h <;> simp [programClass, h]
    have hco : coerce env { e with cls := .entry, body := ⟨true, e.body.bytes⟩ } = _ :=
      (coerce_base env (e := { e with cls := .entry, body := ⟨true, e.body.bytes⟩ }) rfl ht hc).trans hrun
    have hcls : (fresh env).cls = .entry := rfl
    rw [hcls, finish_of_coerce env hco hv (metaLen_iff (show e.metaLen.length = 2 from metaLen_length hw.toSections))]
    have hlw : loadWarnings (programClass t.toNat (looksAsm env (e.body.bytes.drop 2)) .program) e.metaLen e.version = loadWarnings .program e.metaLen e.version := by
      unfold loadWarnings programClass
      rcases ht5 with h | h <;> rw [h] <;> cases looksAsm env (e.body.bytes.drop 2) <;> rfl
    simp only [after, checkType, hcls, Cls.typeId, hlw, List.nil_append]
  rcases ht with h | h
  · have := key 5 .program h rfl (Or.inl rfl) (Or.inl rfl)
    rw [this, h]
    rfl
  · have := key 6 .protProgram h rfl (Or.inr rfl) (Or.inr rfl)
    rw [this, h]
    rfl

/-- C136, the part that holds: a program made of tokens of the sheet is loaded as an assembly program exactly if one of its tokens is
a mark of compiled code or its text ends like that of programs for the TI-83; as a protected one exactly if its type says so.
Nothing else depends on it. If no token behind the first is a mark, that is what the claim says. -/
theorem C136_class_partial (env : Env V) (htbl : CodeTable env.table) (hce : CleanEnds env.table) (ts : List (Tok V)) (hts : ∀ t ∈ ts, t ∈ env.table)
    {e : Ent} (hw : WF e) (hno : e.metaLen = [0x0D, 0x00] → ¬FlashIsLength e) (ht : e.typeId = [5] ∨ e.typeId = [6])
    (hd : e.body.bytes.drop 2 = ts.flatMap Tok.bits) :
    ∃ b c, e.bytes = .ok b ∧
      load env b (fresh env) = ⟨.ok (), { e with cls := c, body := ⟨true, e.body.bytes⟩ }, loadWarnings .program e.metaLen e.version⟩ ∧
      c ∈ [Cls.program, .asmProgram, .protProgram, .protAsmProgram] ∧
      (c ∈ [Cls.asmProgram, .protAsmProgram] ↔ (∃ t ∈ ts, t.bits ∈ compiledMarks) ∨ Ends83 ts) ∧
      (c ∈ [Cls.protProgram, .protAsmProgram] ↔ e.typeId = [6]) ∧
      ((∀ t ∈ ts.tail, t.bits ∉ compiledMarks) → (c ∈ [Cls.asmProgram, .protAsmProgram] ↔ Marked ts ∨ Ends83 ts)) := by
  have hb := bytes_ok (e := e) hw.length
  have hasm := looksAsm_tokens env htbl hce hts
  have hcl : ∀ asm : Bool, programClass (fromLE e.typeId) asm .program ∈ [Cls.program, .asmProgram, .protProgram, .protAsmProgram] ∧
      (programClass (fromLE e.typeId) asm .program ∈ [Cls.asmProgram, .protAsmProgram] ↔ asm = true) ∧
      (programClass (fromLE e.typeId) asm .program ∈ [Cls.protProgram, .protAsmProgram] ↔ e.typeId = [6]) := by
    intro asm
    rcases ht with h | h <;> rw [h] <;> cases asm <;> decide
  refine ⟨_, _, hb, load_program env hw hno ht hb, (hcl _).1, ?_, (hcl _).2.2, fun hm => ?_⟩
  · rw [(hcl _).2.1, hd, hasm]
  · rw [(hcl _).2.1, hd, hasm]
    refine or_congr ⟨?_, ?_⟩ Iff.rfl
    · rintro ⟨t, h, h'⟩
      rcases ts with _ | ⟨u, ts⟩
      · cases h
      · rcases List.mem_cons.1 h with rfl | h
        · exact ⟨_, _, rfl, h'⟩
        · exact absurd h' (hm t h)
    · rintro ⟨t, r, rfl, h⟩
      exact ⟨t, List.mem_cons_self .., h⟩

/-- The end of a program for the TI-83, with another line before it; and the same without its last line. -/
example : let env := { sampleEnv with table := [⟨[0xD4], "End".toList, [], 0⟩, ⟨[0x30], "0".toList, [], 0⟩, ⟨[0x3F], "\n".toList, [], 0⟩] }
    CodeTable env.table ∧ CleanEnds env.table ∧
    ([[0x0D, 0x00, 0x0D, 0x00, 0x05, 0x41, 0, 0, 0, 0, 0, 0, 0, 0x00, 0x00, 0x0D, 0x00, 0x0B, 0x00,
      0x30, 0x30, 0x3F, 0xD4, 0x3F, 0x30, 0x30, 0x30, 0x30, 0x3F, 0xD4],
     [0x0D, 0x00, 0x0C, 0x00, 0x05, 0x41, 0, 0, 0, 0, 0, 0, 0, 0x00, 0x00, 0x0C, 0x00, 0x0A, 0x00,
      0x30, 0x30, 0x3F, 0xD4, 0x3F, 0x30, 0x30, 0x30, 0x30, 0x3F]].map fun b => (load env b (fresh env)).st.cls) = [.asmProgram, .program] := by
  intro env
  refine ⟨?_, ?_, by decide +kernel⟩
  · unfold CodeTable
    decide +kernel
  · unfold CleanEnds
    decide +kernel

/-- C136, the text of a program made of tokens is the names of its tokens; an assembly program has one warning, another none. -/
theorem C136_text (env : Env V) (htbl : CodeTable env.table) (ts : List (Tok V)) (hts : ∀ t ∈ ts, t ∈ env.table)
    {e : Ent} (hc : e.cls ∈ [Cls.program, .asmProgram, .protProgram, .protAsmProgram]) (hd : e.body.bytes.drop 2 = ts.flatMap Tok.bits) :
    programString env e () = ⟨.ok (ts.flatMap Tok.display), (), if e.cls ∈ [Cls.asmProgram, .protAsmProgram] then [.asmText] else []⟩ := by
  obtain ⟨h1, h2⟩ := C39_decode_concat env.initial env.table htbl ts hts
  have hdata : e.data = ts.flatMap Tok.bits := by
    rw [← hd]
    unfold Ent.data dataStart
    simp only [List.mem_cons, List.not_mem_nil, or_false] at hc
    rcases hc with h | h | h | h <;> simp only [h] <;> rfl
  have hs : Ent.string env e = ts.flatMap Tok.display := by
    unfold Ent.string Ent.tokens
    rw [hdata, h1, if_neg]
    intro h
    rw [h] at hc
    exact absurd hc (by decide)
  unfold programString
  simp only [List.mem_cons, List.not_mem_nil, or_false, PyM.ite_run]
  split
  · simp [PyM.bind_run, hs]
  · simp [PyM.bind_run, hs, Ent.tokens, hdata, h2]

/-- C136 is false: the marks are looked for everywhere, also inside of strings, and even where their two bytes belong to two different
tokens or to none. Every program that contains the bytes of a mark anywhere becomes an assembly program, although it begins with
something else. -/
theorem C136_anywhere_false (env : Env V) (pre post : Bytes) {m : Bytes} (hm : m ∈ compiledMarks)
    {e : Ent} (hw : WF e) (hno : e.metaLen = [0x0D, 0x00] → ¬FlashIsLength e) (ht : e.typeId = [5] ∨ e.typeId = [6])
    (hd : e.body.bytes.drop 2 = pre ++ m ++ post) :
    ∃ b c, e.bytes = .ok b ∧ (load env b (fresh env)).st.cls = c ∧ c ∈ [Cls.asmProgram, .protAsmProgram] := by
  have hb := bytes_ok (e := e) hw.length
  have h1 : hasSub m (pre ++ m ++ post) = true := by
    apply hasSub_append
    have : ∀ p : Bytes, hasSub m (p ++ m) = true := by
      intro p
      unfold hasSub
      induction p with
      | nil =>
        rcases m with _ | ⟨x, r⟩
        · rfl
        · rw [List.nil_append]
          unfold findSub
          rw [if_pos (List.isPrefixOf_iff_prefix.2 (List.prefix_refl _))]
          rfl
      | cons x p ih =>
        rw [List.cons_append]
        unfold findSub
        split
        · rfl
        · rw [Option.isSome_map]
          exact ih
    exact this pre
  have h2 : looksAsm env (pre ++ m ++ post) = true := by
    unfold looksAsm
    have : asmTokens.any (hasSub · (pre ++ m ++ post)) = true := List.any_eq_true.2 ⟨m, hm, h1⟩
    simp only [this, Bool.true_or]
  refine ⟨_, _, hb, rfl, ?_⟩
  rw [load_program env hw hno ht hb, hd, h2]
  simp only
  rcases ht with h | h <;> rw [h] <;> decide

/-- The program `"`, mark, `"`: a string that only mentions the mark. -/
example : (load sampleEnv [0x0D, 0x00, 0x06, 0x00, 0x05, 0x41, 0, 0, 0, 0, 0, 0, 0, 0x00, 0x00, 0x06, 0x00,
    0x04, 0x00, 0x2A, 0xBB, 0x6D, 0x2A] (fresh sampleEnv)).st.cls = .asmProgram := by decide +kernel

/-- The marks in two halves: a code that ends with `BB` and the code `6D`. -/
example : let env := { sampleEnv with table := sampleEnv.table ++ [⟨[0x5E, 0xBB], "Y".toList, [], 0⟩, ⟨[0x6D], "≤".toList, [], 0⟩] }
    (load env [0x0D, 0x00, 0x06, 0x00, 0x06, 0x41, 0, 0, 0, 0, 0, 0, 0, 0x00, 0x00, 0x05, 0x00,
    0x03, 0x00, 0x5E, 0xBB, 0x6D] (fresh env)).st.cls = .protAsmProgram := by decide +kernel

end Verif
