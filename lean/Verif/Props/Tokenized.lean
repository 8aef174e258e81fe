import Verif.Proofs.Tokenized
import Verif.Props.Token
import Verif.Props.Var
import Verif.Spec.Sample
import Verif.Spec.Tokenized

/-! Property theorems about tokenised entries (C47–C49, C69, C70). -/

namespace Verif
open Spec Ent
variable {V : Type} [LinearOrder V]

/-! ### C47 – versions -/

/-- C47, growth: for the same data, a later minimum OS never gives a smaller version; and appending
anything to the data of a tokenised entry never makes its version smaller. -/
theorem C47_version_monotone (env : Env V) :
    (∀ (os os' : V) (d : Bytes), os ≤ os' → tokenVersion env os d ≤ tokenVersion env os' d) ∧
    (∀ (e : Ent) (d more : Bytes), e.cls ≠ .asmProgram → e.cls ≠ .protAsmProgram → d ≠ [] →
      (tokenizedVersion env e (some d)).2 ≤ (tokenizedVersion env e (some (d ++ more))).2) := by
  refine ⟨?_, ?_⟩
  · intro os os' d h
    have := osVersionByte_mono env h
    unfold tokenVersion
    omega
  · intro e d more h1 h2 hd
    have hd' : d ++ more ≠ [] := by simp [hd]
    have e1 : d.isEmpty = false := by simpa using hd
    have e2 : (d ++ more).isEmpty = false := by simp [hd]
    simp only [tokenizedVersion, e1, e2, h1, h2, or_self, if_false, Bool.false_eq_true]
    have h3 := osVersionByte_mono env (decode_since_append env.initial env.table d more)
    unfold tokenVersion
    have h4 : clockTokens.any (hasSub · d) = true → clockTokens.any (hasSub · (d ++ more)) = true := by
      intro h
      rw [List.any_eq_true] at h ⊢
      obtain ⟨x, hx, hs⟩ := h
      exact ⟨x, hx, hasSub_append hs⟩
    by_cases hc : clockTokens.any (hasSub · d) = true
    · rw [if_pos hc, if_pos (h4 hc)]
      omega
    · rw [if_neg hc]
      omega

theorem osVersionByte_cases (env : Env V) (os : V) :
    osVersionByte env os ∈ [0x00, 0x01, 0x02, 0x03, 0x04, 0x05, 0x06, 0x0A, 0x0B, 0x0C] ∨
      osVersionByte env os = 0x07 ∧ os < env.ce53 ∧ os < env.ce52 ∧ os < env.cse40 ∧ env.p255 ≤ os := by
  unfold osVersionByte
  by_cases h1 : env.ce53 ≤ os
  · rw [if_pos h1]; left; decide
  rw [if_neg h1]
  by_cases h2 : env.ce52 ≤ os
  · rw [if_pos h2]; left; decide
  rw [if_neg h2]
  by_cases h3 : env.cse40 ≤ os
  · rw [if_pos h3]; left; decide
  rw [if_neg h3]
  by_cases h4 : env.p255 ≤ os
  · rw [if_pos h4]
    exact Or.inr ⟨rfl, not_le.1 h1, not_le.1 h2, not_le.1 h3, h4⟩
  rw [if_neg h4]
  left
  repeat' split
  all_goals decide

theorem tokenVersion_lt (env : Env V) (os : V) (d : Bytes) : tokenVersion env os d < 256 := by
  unfold tokenVersion
  have : osVersionByte env os ≤ 0x0C := by
    rcases osVersionByte_cases env os with h | h
    · simp only [List.mem_cons, List.not_mem_nil, or_false] at h
      omega
    · omega
  split <;> omega

/-- The type IDs of equations, strings, programs, protected programs and new equations. -/
def tokenizedTypes : List Nat := [0x03, 0x04, 0x05, 0x06, 0x0B]

theorem versions_of_type {c : Cls} {t : Nat} (hc : c.typeId = some t) (ht : t ∈ tokenizedTypes) :
    c.versions = Cls.versions .program := by
  have : ∀ c ∈ Cls.all, ∀ t ∈ tokenizedTypes, c.typeId = some t →
      c.versions = Cls.versions .program := by decide +kernel
  exact this c (by cases c <;> decide) t ht hc

/-- C47, recognition, the part that holds: a storable tokenised entry whose version byte is one the
library computes – for any minimum OS and data – loads without the warning that the version is
not recognised, unless the minimum OS lies between 2.55 MP and the colour models. -/
theorem C47_recognised_partial (env : Env V) (e : Ent) (hst : Storable e)
    (ht : fromLE e.typeId ∈ tokenizedTypes) (os : V) (d : Bytes)
    (hv : e.version = [UInt8.ofNat (tokenVersion env os d)])
    (hos : os < env.p255 ∨ env.cse40 ≤ os ∨ env.ce52 ≤ os ∨ env.ce53 ≤ os) :
    ∃ b e' ws, e.bytes = .ok b ∧ Ent.load env b (Ent.fresh env) = ⟨.ok (), e', ws⟩ ∧
      .versionUnrec ∉ ws := by
  obtain ⟨e', ws, ⟨b, hb, hl⟩, -, -, hws, hty, -⟩ := storable_loads env hst
  refine ⟨b, e', ws, hb, hl, ?_⟩
  rw [hws, loadWarnings, versions_of_type hty ht]
  have hlt := tokenVersion_lt env os d
  have hfv : fromLE e.version = tokenVersion env os d := by
    rw [hv]
    simp [fromLE]
    omega
  have hin : tokenVersion env os d ∈ Cls.versions .program := by
    rcases osVersionByte_cases env os with h | ⟨-, h1, h2, h3, h4⟩
    · unfold tokenVersion
      have all : ∀ n ∈ [0x00, 0x01, 0x02, 0x03, 0x04, 0x05, 0x06, 0x0A, 0x0B, 0x0C],
          n + 0x20 ∈ Cls.versions .program ∧ n + 0 ∈ Cls.versions .program := by decide
      split
      · exact (all _ h).1
      · exact (all _ h).2
    · rcases hos with h | h | h | h
      · exact absurd h4 (not_le.2 h)
      · exact absurd h3 (not_lt.2 h)
      · exact absurd h2 (not_lt.2 h)
      · exact absurd h1 (not_lt.2 h)
  rw [hfv]
  simp [hin]

/-- C47 is false: in that range the computed version is 07 or 27, which the library does not
recognise, so every such storable entry gives the warning when loaded. -/
theorem C47_recognised_false (env : Env V) (e : Ent) (hst : Storable e)
    (ht : fromLE e.typeId ∈ tokenizedTypes) (os : V) (d : Bytes)
    (hv : e.version = [UInt8.ofNat (tokenVersion env os d)])
    (h1 : env.p255 ≤ os) (h2 : os < env.cse40) (h3 : os < env.ce52) (h4 : os < env.ce53) :
    ∃ b e' ws, e.bytes = .ok b ∧ Ent.load env b (Ent.fresh env) = ⟨.ok (), e', ws⟩ ∧
      .versionUnrec ∈ ws := by
  obtain ⟨e', ws, ⟨b, hb, hl⟩, -, -, hws, hty, -⟩ := storable_loads env hst
  refine ⟨b, e', ws, hb, hl, ?_⟩
  rw [hws, loadWarnings, versions_of_type hty ht]
  have hlt := tokenVersion_lt env os d
  have hfv : fromLE e.version = tokenVersion env os d := by
    rw [hv]
    simp [fromLE]
    omega
  have h7 : osVersionByte env os = 7 := by
    unfold osVersionByte
    rw [if_neg (not_le.2 h4), if_neg (not_le.2 h3), if_neg (not_le.2 h2), if_pos h1]
  have hin : tokenVersion env os d ∉ Cls.versions .program := by
    unfold tokenVersion
    rw [h7]
    split <;> decide
  have hne : Cls.versions .program ≠ [0] := by decide
  rw [hfv]
  simp [hin, hne]

/-- A program in that range. -/
example : ∃ e : Ent, Storable e ∧ fromLE e.typeId ∈ tokenizedTypes ∧
    e.version = [UInt8.ofNat (tokenVersion sampleEnv 7 [0x41])] :=
  ⟨{ sampleProgram with version := [0x07] }, ⟨⟨⟨Or.inr rfl, rfl, rfl, rfl, rfl⟩, Or.inr rfl,
    by decide, by decide⟩, fun _ => by unfold FlashIsLength; decide, by unfold ContentOK; decide⟩,
    by decide, by decide⟩
example : tokenVersion sampleEnv 10 [0xEF, 0x00, 0x41] = 0x2C ∧
    (tokenizedVersion sampleEnv sampleProgram (some [0x41])).2 = 0 ∧
    (tokenizedVersion sampleEnv sampleProgram (some [0x41, 0xBB, 0xB0, 0xEF, 0x00])).2 = 0x24 := by
  decide +kernel

/-! ### C48 – lines -/

/-- C48, what holds: putting the lines of an entry together again with the newlines and the colons
outside strings gives its tokens in order without the stores and quotation marks; in
particular all of them if there are none of these. No line contains a newline. -/
theorem C48_lines_partial (env : Env V) (e : Ent) :
    (separators [] (e.tokens env).2).length + 1 = (e.lines env).length ∧
    rejoin (e.lines env) (separators [] (e.tokens env).2) =
      (e.tokens env).2.filter (fun t => t.bits != [0x04] && t.bits != [0x2A]) ∧
    ((∀ t ∈ (e.tokens env).2, t.bits ≠ [0x04] ∧ t.bits ≠ [0x2A]) →
      rejoin (e.lines env) (separators [] (e.tokens env).2) = (e.tokens env).2) ∧
    ∀ t ∈ (e.lines env).flatten, t.bits ≠ [0x3F] := by
  obtain ⟨l, ls, h1, h2, h3, h4⟩ := linesLoop_spec (e.tokens env).2 [] [] []
  have h1' : e.lines env = l :: ls := h1
  rw [h1']
  have h5 : rejoin (l :: ls) (separators [] (e.tokens env).2) =
      (e.tokens env).2.filter (fun t => t.bits != [0x04] && t.bits != [0x2A]) := h3
  refine ⟨by simp [h2], h5, ?_, ?_⟩
  · intro h
    rw [h5]
    apply List.filter_eq_self.2
    intro t ht
    simpa using h t ht
  · intro t ht
    rcases h4 t ht with h | h
    · simp at h
    · exact h.2.2.2

/-- C48 is false: if a store or a quotation mark is among the tokens, no choice of newlines and
colons between the lines gives the tokens back. -/
theorem C48_lines_false (env : Env V) (e : Ent) (t : Tok V) (ht : t ∈ (e.tokens env).2)
    (hb : t.bits = [0x04] ∨ t.bits = [0x2A]) (seps : List (Tok V))
    (hs : ∀ s ∈ seps, s.bits = [0x3E] ∨ s.bits = [0x3F]) :
    rejoin (e.lines env) seps ≠ (e.tokens env).2 := by
  intro h
  obtain ⟨l, ls, h1, -, -, h4⟩ := linesLoop_spec (e.tokens env).2 [] [] []
  have h1' : e.lines env = l :: ls := h1
  rw [← h] at ht
  rcases mem_rejoin _ _ ht with h5 | h5
  · rw [h1'] at h5
    rcases h4 t h5 with h6 | h6
    · simp at h6
    · rcases hb with hb | hb
      · exact h6.2.1 hb
      · exact h6.2.2.1 hb
  · rcases hs t h5 with h6 | h6 <;> rcases hb with hb | hb <;> rw [h6] at hb <;> simp at hb

/-- The program `"A→B` newline `A` loses its quotation mark and its store. -/
example : (Ent.lines sampleEnv { sampleProgram with body := ⟨true, [6, 0, 0x2A, 0x41, 0x04, 0x42, 0x3F, 0x41]⟩ }).map
    (fun l => l.map Tok.bits) = [[[0x41], [0x42]], [[0x41]]] := by decide +kernel

/-! ### C49 – protecting -/

/-- One call of `protect()` (`true`) or `unprotect()` (`false`). -/
def protectOp (env : Env V) (b : Bool) : PyM Ent Unit := if b then protect env else unprotect env

/-- A sequence of calls. -/
def protectRun (env : Env V) : List Bool → PyM Ent Unit
  | [] => pure ()
  | b :: bs => do
    protectOp env b
    protectRun env bs

theorem protect_run (env : Env V) (b : Bool) {e : Ent}
    (hc : e.cls = .program ∨ e.cls = .protProgram) :
    protectOp env b e =
      ⟨.ok (), { e with cls := programClass (if b then 6 else 5) (looksAsm env e.data) e.cls
                        typeId := [if b then 6 else 5] }, []⟩ := by
  have hd : Ent.data { e with typeId := [if b then 6 else 5] } = e.data := rfl
  have h1 : e.cls ≠ .asmProgram := by rcases hc with h | h <;> rw [h] <;> decide
  have h2 : e.cls ≠ .protAsmProgram := by rcases hc with h | h <;> rw [h] <;> decide
  have hco : ∀ x : Ent, x.cls = e.cls → coerce env x = coerceProgram env x := by
    intro x hx
    rcases hc with h | h <;>
      simp only [coerce, coerceTyped, PyM.bind_run, PyM.get_run, hx, h, List.nil_append]
  have hr : ∀ t : UInt8, coerceProgram env { e with typeId := [t] } =
      ⟨.ok (), { e with cls := programClass t.toNat (looksAsm env e.data) e.cls
                        typeId := [t] }, []⟩ :=
    fun t => coerceProgram_run env (e := { e with typeId := [t] }) (t := t) rfl h1 h2
  cases b
  · have hs : setTypeId 0x05 e = ⟨.ok (), { e with typeId := [5] }, []⟩ := setTypeId_run 5 e
    simp only [Bool.false_eq_true, if_false, unprotect, protectOp]
    rw [PyM.bind_ok hs, hco { e with typeId := [5] } rfl, hr 5]
    rfl
  · have hs : setTypeId 0x06 e = ⟨.ok (), { e with typeId := [6] }, []⟩ := setTypeId_run 6 e
    simp only [if_true, protect, protectOp]
    rw [PyM.bind_ok hs, hco { e with typeId := [6] } rfl, hr 6]
    rfl

/-- C49, the part that holds: whatever sequence of protect and unprotect calls is made on a program
whose content is not taken for assembly, no exception or warning occurs and only the type and
class change, to those of the last call; so that unprotecting an unprotected program after
protecting it restores it. -/
theorem C49_protect_partial (env : Env V) (e : Ent) (hc : e.cls = .program ∨ e.cls = .protProgram)
    (ha : looksAsm env e.data = false) (ops : List Bool) (last : Bool) :
    protectRun env (ops ++ [last]) e =
      ⟨.ok (), { e with cls := if last then .protProgram else .program
                        typeId := [if last then 6 else 5] }, []⟩ ∧
    (e.cls = .program → e.typeId = [5] → protectRun env (ops ++ [false]) e = ⟨.ok (), e, []⟩) := by
  have key : ∀ last, protectRun env (ops ++ [last]) e =
      ⟨.ok (), { e with cls := if last then .protProgram else .program
                        typeId := [if last then 6 else 5] }, []⟩ := by
    intro last
    have hp : ∀ b : Bool, programClass (if b then 6 else 5) false e.cls =
        if b then .protProgram else .program := by
      intro b; cases b <;> rfl
    induction ops generalizing e with
    | nil =>
      have := protect_run env last hc
      rw [ha, hp] at this
      simp only [List.nil_append, protectRun]
      rw [PyM.bind_ok this]
      rfl
    | cons b ops ih =>
      have := protect_run env b hc
      rw [ha, hp] at this
      simp only [List.cons_append, protectRun]
      rw [PyM.bind_ok this]
      have hdata : Ent.data { e with cls := if b then .protProgram else .program
                                     typeId := [if b then 6 else 5] } = e.data := by
        unfold Ent.data dataStart
        rcases hc with h | h <;> cases b <;> simp only [h] <;> rfl
      rw [ih { e with cls := if b then .protProgram else .program
                      typeId := [if b then 6 else 5] }
        (by cases b <;> simp) (by rw [hdata]; exact ha) (by intro b'; cases b' <;> rfl)]
      rfl
  refine ⟨key last, ?_⟩
  intro h1 h2
  rw [key false]
  simp [← h1, ← h2]

/-- C49, the data: protecting or unprotecting never changes the data, name or flash bytes of a
program of any kind, even when it raises. -/
theorem C49_data_untouched (env : Env V) (e : Ent)
    (hc : e.cls ∈ [Cls.program, .protProgram, .asmProgram, .protAsmProgram]) (b : Bool) :
    let e' := (protectOp env b e).st
    e'.body = e.body ∧ e'.name = e.name ∧ e'.version = e.version ∧ e'.archived = e.archived ∧
      e'.metaLen = e.metaLen := by
  intro e'
  by_cases h : e.cls = .program ∨ e.cls = .protProgram
  · have := protect_run env b h
    simp only [e', this]
    exact ⟨trivial, trivial, trivial, trivial, trivial⟩
  · have h2 : e.cls = .asmProgram ∨ e.cls = .protAsmProgram := by
      simp only [not_or] at h
      simpa [h.1, h.2] using hc
    cases b <;> rcases h2 with h2 | h2 <;>
      simp [e', protectOp, protect, unprotect, PyM.bind_run, setTypeId_run, coerce, coerceTyped, coerceProgram, h2]

/-- C49 is false for assembly programs: protecting or unprotecting one raises – the warning of
`string()`, turned into an error – after its type has been changed but not its class. -/
theorem C49_asm_false (env : Env V) (e : Ent) (hc : e.cls = .asmProgram ∨ e.cls = .protAsmProgram)
    (b : Bool) : protectOp env b e =
      ⟨.error .userWarningError, { e with typeId := [if b then 6 else 5] }, []⟩ := by
  cases b <;> rcases hc with h2 | h2 <;>
    simp [protectOp, protect, unprotect, PyM.bind_run, setTypeId_run, coerce, coerceTyped, coerceProgram, h2]

/-- C49 is false for programs whose content is taken for assembly: the first call changes the class
and every later call raises. -/
theorem C49_becomes_asm_false (env : Env V) (e : Ent)
    (hc : e.cls = .program ∨ e.cls = .protProgram) (ha : looksAsm env e.data = true) (b c : Bool) :
    (protectRun env [b] e).st.cls = (if b then .protAsmProgram else .asmProgram) ∧
    (protectRun env [b, c] e).res = .error .userWarningError := by
  have h1 := protect_run env b hc
  rw [ha] at h1
  have hp : programClass (if b then 6 else 5) true e.cls =
      if b then .protAsmProgram else .asmProgram := by cases b <;> rfl
  rw [hp] at h1
  refine ⟨?_, ?_⟩
  · simp only [protectRun]
    rw [PyM.bind_ok h1]
    rfl
  · simp only [protectRun]
    rw [PyM.bind_ok h1]
    have h2 := C49_asm_false env { e with cls := if b then .protAsmProgram else .asmProgram
                                          typeId := [if b then 6 else 5] } (by cases b <;> simp) c
    rw [PyM.bind_error h2]

example : (protectRun sampleEnv [true, false, true] sampleProgram).st =
    { sampleProgram with cls := .protProgram, typeId := [6] } := by decide +kernel
example : looksAsm sampleEnv (Ent.data { sampleProgram with body := ⟨true, [2, 0, 0xBB, 0x6D]⟩ }) = true := by
  decide +kernel

/-! ### C69, C70 – loading tokens and text -/

/-- The tokenised classes whose content is read as tokens. -/
def plainTokenized : List Cls := [.equation, .newEquation, .string, .program, .protProgram]

theorem plainTokenized_facts {c : Cls} (h : c ∈ plainTokenized) :
    c.isSized = true ∧ lengthStart c = 0 ∧ dataStart c = 2 ∧ c ≠ .asmProgram ∧ c ≠ .protAsmProgram := by
  have : ∀ c ∈ plainTokenized, c.isSized = true ∧ lengthStart c = 0 ∧ dataStart c = 2 ∧
    c ≠ .asmProgram ∧ c ≠ .protAsmProgram := by decide
  exact this c h

/-- A table of codes of one or two bytes none of which starts with another or with a null byte. -/
def CodeTable (tbl : TokTable V) : Prop :=
  ∀ t ∈ tbl, (t.bits.length = 1 ∨ t.bits.length = 2) ∧ t.bits.headD 0 ≠ 0 ∧
    ∀ u ∈ tbl, t.bits <+: u.bits → t = u

/-- Assigning the codes of a nonempty list of tokens. -/
theorem setData_tokens (env : Env V) (htbl : CodeTable env.table) (e : Ent)
    (hc : e.cls ∈ plainTokenized) (hm : e.body.mutable = true) (hl : 2 ≤ e.body.bytes.length)
    (ts : List (Tok V)) (hts : ∀ t ∈ ts, t ∈ env.table) (hne : ts ≠ [])
    (hn : (ts.flatMap Tok.bits).length < 65536) :
    ∃ os, IsMinOs env.initial ts os ∧
      setData (tokenGetVersion env) (ts.flatMap Tok.bits) e = ⟨.ok (),
        { e with version := [UInt8.ofNat (tokenVersion env os (ts.flatMap Tok.bits))]
                 body := ⟨true, toLE 2 (ts.flatMap Tok.bits).length ++ ts.flatMap Tok.bits⟩ },
        if e.metaLength = 11 then [.flashlessVersion] else []⟩ := by
  obtain ⟨hz, h1, h2, h3, h4⟩ := plainTokenized_facts hc
  obtain ⟨d1, d2⟩ := C39_decode_concat env.initial env.table htbl ts hts
  have d3 := C46_decode_since env.initial env.table (ts.flatMap Tok.bits)
  rw [d1] at d3
  refine ⟨_, d3, ?_⟩
  have hempty : (ts.flatMap Tok.bits).isEmpty = false := by
    cases ts with
    | nil => exact absurd rfl hne
    | cons t ts =>
      have hb := (htbl t (hts t (by simp))).1
      cases hbits : t.bits with
      | nil => rw [hbits] at hb; simp at hb
      | cons x xs => simp [hbits]
  have hb : e.body = ⟨true, e.body.bytes⟩ := by
    rw [← hm]
  have hg : tokenGetVersion env { e with
        body := ⟨true, toLE 2 (ts.flatMap Tok.bits).length ++ e.body.bytes.drop 2⟩ }
      (ts.flatMap Tok.bits) = ([], .ok (tokenVersion env
        (decode env.initial env.table (ts.flatMap Tok.bits)).since (ts.flatMap Tok.bits))) := by
    simp only [tokenGetVersion, tokenizedVersion, hempty, h3, h4, d2, or_self, if_false,
      Bool.false_eq_true]
  rw [setData_ok hz h1 h2 hb hl hn hg]
  simp

/-- The tokens of an entry whose data are the codes of tokens. -/
theorem tokens_of_body (env : Env V) (htbl : CodeTable env.table) (e : Ent)
    (hc : e.cls ∈ plainTokenized) (ts : List (Tok V)) (hts : ∀ t ∈ ts, t ∈ env.table) (n : Nat)
    (hb : e.body.bytes = toLE 2 n ++ ts.flatMap Tok.bits) : e.tokens env = ([], ts) := by
  obtain ⟨-, -, h2, -, -⟩ := plainTokenized_facts hc
  obtain ⟨d1, d2⟩ := C39_decode_concat env.initial env.table htbl ts hts
  have hd : e.data = ts.flatMap Tok.bits := by
    unfold Ent.data
    rw [h2, hb, List.drop_left' (length_toLE 2 n)]
  unfold Ent.tokens
  rw [hd, d1, d2]

/-- C69, the part that holds: loading a nonempty list of tokens of a prefix-free table into an
equation, string or program succeeds; reading the tokens gives the list back; the stored length is
the number of bytes of their codes; the version is the one for the least OS with all the tokens;
nothing else changes. -/
theorem C69_load_tokens_partial (env : Env V) (htbl : CodeTable env.table) (e : Ent)
    (hc : e.cls ∈ plainTokenized) (hm : e.body.mutable = true) (hl : 2 ≤ e.body.bytes.length)
    (ts : List (Tok V)) (hts : ∀ t ∈ ts, t ∈ env.table) (hne : ts ≠ [])
    (hn : (ts.flatMap Tok.bits).length < 65536) :
    ∃ e' ws os, loadTokens env ts e = ⟨.ok (), e', ws⟩ ∧ e'.tokens env = ([], ts) ∧
      fromLE (e'.body.bytes.take 2) = (ts.map fun t => t.bits.length).sum ∧
      IsMinOs env.initial ts os ∧
      fromLE e'.version = tokenVersion env os (ts.flatMap Tok.bits) ∧
      e' = { e with version := e'.version, body := e'.body } := by
  obtain ⟨os, hos, hs⟩ := setData_tokens env htbl e hc hm hl ts hts hne hn
  refine ⟨_, _, os, hs, tokens_of_body env htbl { e with
      version := [UInt8.ofNat (tokenVersion env os (ts.flatMap Tok.bits))]
      body := ⟨true, toLE 2 (ts.flatMap Tok.bits).length ++ ts.flatMap Tok.bits⟩ } hc ts hts _ rfl,
    ?_, hos, ?_, rfl⟩
  · simp only [List.take_left' (length_toLE 2 _)]
    rw [fromLE_toLE_of_lt (l := 2) (by omega)]
    simp [List.length_flatMap]
  · have := tokenVersion_lt env os (ts.flatMap Tok.bits)
    simp [fromLE]
    omega

/-- C69 is false for the empty list: the version is then computed from the data replaced, so two
entries loaded with no tokens can have different versions. -/
theorem C69_empty_false (env : Env V) (e : Ent)
    (hc : e.cls ∈ plainTokenized) (hm : e.body.mutable = true) (hl : 2 ≤ e.body.bytes.length) :
    ∃ ws, loadTokens env [] e = ⟨.ok (),
      { e with version := [UInt8.ofNat (tokenVersion env
                 (decode env.initial env.table (e.body.bytes.drop 2)).since (e.body.bytes.drop 2))]
               body := ⟨true, [0, 0]⟩ }, ws⟩ := by
  obtain ⟨hz, h1, h2, h3, h4⟩ := plainTokenized_facts hc
  have hb : e.body = ⟨true, e.body.bytes⟩ := by
    rw [← hm]
  have hg : tokenGetVersion env { e with
        body := ⟨true, toLE 2 ([] : Bytes).length ++ e.body.bytes.drop 2⟩ } [] =
      ((decode env.initial env.table (e.body.bytes.drop 2)).warns, .ok (tokenVersion env
        (decode env.initial env.table (e.body.bytes.drop 2)).since (e.body.bytes.drop 2))) := by
    have hd : Ent.data { e with
        body := ⟨true, toLE 2 ([] : Bytes).length ++ e.body.bytes.drop 2⟩ } =
        e.body.bytes.drop 2 := by
      unfold Ent.data
      simp only [h2]
      rw [List.drop_left' (length_toLE 2 _)]
    simp only [tokenGetVersion, tokenizedVersion, List.isEmpty_nil, h3, h4, or_self, if_false, if_true]
    rw [hd]
  exact ⟨_, setData_ok (value := []) hz h1 h2 hb hl (by simp) hg⟩

/-- Emptying a program that uses the clock leaves it with the version of clock programs. -/
example : (loadTokens sampleEnv [] { sampleProgram with body := ⟨true, [2, 0, 0xEF, 0x00]⟩ }).st.version
    = [0x24] ∧ (loadTokens sampleEnv [] sampleProgram).st.version = [0x00] := by decide +kernel

theorem pieces_text {τ : Type} {P : Str → Str → τ → Prop} {s rest : Str} {ps : List (Str × τ)}
    (h : Pieces P s ps rest) : s = ps.flatMap Prod.fst ++ rest := by
  induction h with
  | done => rfl
  | next _ _ ih => rw [ih]; simp

/-- The text `load_string` encodes: a `TIString` takes off the quotation marks at both ends. -/
def loadedText (c : Cls) (s : Str) : Str := if c = .string then stripChars ['"'] s else s

/-- What loading a text gives, in full. -/
theorem load_string_full (env : Env V) (htbl : CodeTable env.table) (e : Ent)
    (hc : e.cls ∈ plainTokenized) (hm : e.body.mutable = true) (hl : 2 ≤ e.body.bytes.length)
    (toks : List (Tok V × List Str)) (mode : EncMode) (s : Str) (acc : EncAcc V)
    (henc : encode env.initial (Trie.fromTokens toks) mode (loadedText e.cls s) = some (.ok acc))
    (hlit : ∀ a b, loadedText e.cls s = a ++ b → ¬ StartsLiteral b)
    (hin : ∀ p ∈ toks, p.1 ∈ env.table) (hne : loadedText e.cls s ≠ [])
    (hn : acc.data.length < 65536) :
    ∃ e' ws ps, loadString env (Trie.fromTokens toks) mode s e = ⟨.ok (), e', ws⟩ ∧
      Pieces (IsPiece (illegalTok env.initial) (namePairs toks)) (loadedText e.cls s) ps [] ∧
      (∀ t ∈ ps.map Prod.snd, t ∈ env.table) ∧
      (∃ os, e' = { e with
        version := [UInt8.ofNat (tokenVersion env os acc.data)]
        body := ⟨true, toLE 2 acc.data.length ++ (ps.map Prod.snd).flatMap Tok.bits⟩ }) ∧
      acc.data = (ps.map Prod.snd).flatMap Tok.bits ∧
      e'.tokens env = ([], ps.map Prod.snd) ∧
      ((∀ p ∈ ps, p.2.display = p.1) → e'.string env =
        if e.cls = .string then '"' :: loadedText e.cls s ++ ['"'] else s) := by
  obtain ⟨ps, hps, hd⟩ := C40_encode_pieces env.initial toks mode _ acc henc
  have htext := pieces_text hps
  have hmem : ∀ t ∈ ps.map Prod.snd, t ∈ env.table := by
    have aux : ∀ {x : Str} {qs : List (Str × Tok V)} {rest : Str},
        Pieces (IsPiece (illegalTok env.initial) (namePairs toks)) x qs rest →
        (∃ a, loadedText e.cls s = a ++ x) → ∀ t ∈ qs.map Prod.snd, t ∈ env.table := by
      intro x qs rest h
      induction h with
      | done => intro _ t ht; simp at ht
      | @next x text t qs rest hp _ ih =>
        rintro ⟨a, ha⟩ u hu
        simp only [List.map_cons, List.mem_cons] at hu
        rcases hu with rfl | hu
        · rcases hp with ⟨bits, hla, -⟩ | ⟨-, -, hname⟩
          · exfalso
            apply hlit a _ ha
            rcases hla.1 with ⟨r, hr, -⟩ | ⟨r, hr, -⟩
            · exact Or.inl ⟨r, hr⟩
            · exact Or.inr ⟨r, hr⟩
          · unfold named at hname
            rw [Option.map_eq_some_iff] at hname
            obtain ⟨⟨n, t'⟩, hf, rfl⟩ := hname
            have := List.mem_of_find?_eq_some hf
            simp only [namePairs, List.mem_reverse, List.mem_flatMap, List.mem_map] at this
            obtain ⟨q, hq, m, -, hqm⟩ := this
            have : t' = q.1 := by
              have := congrArg Prod.snd hqm
              exact this.symm
            rw [this]
            exact hin q hq
        · exact ih ⟨a ++ text, by rw [ha]; simp⟩ u hu
    exact aux hps ⟨[], rfl⟩
  have hpne : ps.map Prod.snd ≠ [] := by
    intro h
    have : ps = [] := by simpa using h
    rw [this] at htext
    exact hne (by simpa using htext)
  have hdata : acc.data = (ps.map Prod.snd).flatMap Tok.bits := by
    rw [hd, List.flatMap_map]
  obtain ⟨os, -, hs⟩ := setData_tokens env htbl e hc hm hl _ hmem hpne (by rw [← hdata]; exact hn)
  obtain ⟨-, -, -, h3, h4⟩ := plainTokenized_facts hc
  have hrun : loadString env (Trie.fromTokens toks) mode s e =
      setData (tokenGetVersion env) acc.data e := by
    have henc' : encode env.initial (Trie.fromTokens toks) mode
        (if e.cls = .string then stripChars ['"'] s else s) = some (.ok acc) := henc
    simp [loadString, PyM.bind_run, h3, h4, henc']
  rw [hdata, hs] at hrun
  have htok := tokens_of_body env htbl { e with
      version := [UInt8.ofNat (tokenVersion env os ((ps.map Prod.snd).flatMap Tok.bits))]
      body := ⟨true, toLE 2 ((ps.map Prod.snd).flatMap Tok.bits).length ++
        (ps.map Prod.snd).flatMap Tok.bits⟩ } hc _ hmem _ rfl
  refine ⟨_, _, ps, hrun, hps, hmem, ⟨os, by rw [hdata]⟩, hdata, htok, ?_⟩
  intro hdisp
  have hflat : (ps.map Prod.snd).flatMap Tok.display = loadedText e.cls s := by
    rw [htext, List.append_nil, List.flatMap_map]
    clear hrun hs hdata htok hmem hps hd htext hpne
    induction ps with
    | nil => rfl
    | cons p ps ih =>
      simp only [List.flatMap_cons]
      rw [hdisp p (by simp), ih (fun q hq => hdisp q (by simp [hq]))]
  unfold Ent.string
  rw [htok]
  simp only [hflat]
  by_cases hcs : e.cls = .string
  · simp [hcs]
  · simp [hcs, loadedText]

/-- C70, the part that holds: loading nonempty text that can be encoded with tokens of the decoding
table succeeds, and `tokens()` are exactly the tokens the text was split into. If each piece
of the text is the display name of its token, `string()` gives the text back – for a string
entry, between quotation marks. -/
theorem C70_load_string_partial (env : Env V) (htbl : CodeTable env.table) (e : Ent)
    (hc : e.cls ∈ plainTokenized) (hm : e.body.mutable = true) (hl : 2 ≤ e.body.bytes.length)
    (toks : List (Tok V × List Str)) (mode : EncMode) (s : Str) (acc : EncAcc V)
    (henc : encode env.initial (Trie.fromTokens toks) mode (loadedText e.cls s) = some (.ok acc))
    (hlit : ∀ a b, loadedText e.cls s = a ++ b → ¬ StartsLiteral b)
    (hin : ∀ p ∈ toks, p.1 ∈ env.table) (hne : loadedText e.cls s ≠ [])
    (hn : acc.data.length < 65536) :
    ∃ e' ws ps, loadString env (Trie.fromTokens toks) mode s e = ⟨.ok (), e', ws⟩ ∧
      Pieces (IsPiece (illegalTok env.initial) (namePairs toks)) (loadedText e.cls s) ps [] ∧
      e'.tokens env = ([], ps.map Prod.snd) ∧
      ((∀ p ∈ ps, p.2.display = p.1) → e'.string env =
        if e.cls = .string then '"' :: loadedText e.cls s ++ ['"'] else s) := by
  obtain ⟨e', ws, ps, h1, h2, -, -, -, h3, h4⟩ := load_string_full env htbl e hc hm hl toks mode s acc henc hlit hin hne hn
  exact ⟨e', ws, ps, h1, h2, h3, h4⟩

/-- C70, failure: text that cannot be encoded raises `ValueError` and the entry is as before. -/
theorem C70_load_string_error (env : Env V) (e : Ent) (hc : e.cls ∈ plainTokenized)
    (trie : Trie (Tok V)) (mode : EncMode) (s : Str) (err : EncErr)
    (henc : encode env.initial trie mode (loadedText e.cls s) = some (.error err)) :
    loadString env trie mode s e = ⟨.error .valueError, e, []⟩ := by
  obtain ⟨-, -, -, h3, h4⟩ := plainTokenized_facts hc
  have henc' : encode env.initial trie mode
      (if e.cls = .string then stripChars ['"'] s else s) = some (.error err) := henc
  simp [loadString, PyM.bind_run, h3, h4, henc']

/-- C70, all texts that can be encoded, with byte literals or without, the empty one included: the data are the codes of
the pieces one after the other, the length field counts them, and nothing else but the version changes. -/
theorem C70_codes (env : Env V) (e : Ent) (hc : e.cls ∈ plainTokenized) (hm : e.body.mutable = true)
    (hl : 2 ≤ e.body.bytes.length) (toks : List (Tok V × List Str)) (mode : EncMode) (s : Str) (acc : EncAcc V)
    (henc : encode env.initial (Trie.fromTokens toks) mode (loadedText e.cls s) = some (.ok acc))
    (hn : acc.data.length < 65536) :
    ∃ e' ws ps, loadString env (Trie.fromTokens toks) mode s e = ⟨.ok (), e', ws⟩ ∧
      Pieces (IsPiece (illegalTok env.initial) (namePairs toks)) (loadedText e.cls s) ps [] ∧
      e'.body.bytes = toLE 2 (ps.map fun p => p.2.bits.length).sum ++ ps.flatMap (fun p => p.2.bits) ∧
      e'.version.length = 1 ∧ e' = { e with version := e'.version, body := ⟨true, e'.body.bytes⟩ } := by
  obtain ⟨ps, hps, hd⟩ := C40_encode_pieces env.initial toks mode _ acc henc
  obtain ⟨hz, h1, h2, h3, h4⟩ := plainTokenized_facts hc
  have hb : e.body = ⟨true, e.body.bytes⟩ := by rw [← hm]
  have hs := setData_ok (gv := tokenGetVersion env) (value := acc.data) hz h1 h2 hb hl hn rfl
  have hrun : loadString env (Trie.fromTokens toks) mode s e = setData (tokenGetVersion env) acc.data e := by
    have henc' : encode env.initial (Trie.fromTokens toks) mode
        (if e.cls = .string then stripChars ['"'] s else s) = some (.ok acc) := henc
    simp [loadString, PyM.bind_run, h3, h4, henc']
  rw [hs] at hrun
  refine ⟨_, _, ps, hrun, hps, ?_, rfl, rfl⟩
  have : acc.data.length = (ps.map fun p => p.2.bits.length).sum := by rw [hd, List.length_flatMap]
  rw [← this, ← hd]

/-- C70 is false of byte literals: those of the two halves of a code are read back as the one token, and that of the
code of a token as this token, so that the text is another. -/
theorem C70_literal_false : ∃ (e : Ent) (toks : List (Tok Nat × List Str)) (s t : Str) (ps : List (Str × Tok Nat)),
    e.cls ∈ plainTokenized ∧ (∀ p ∈ toks, p.1 ∈ sampleEnv.table) ∧
    Pieces (IsPiece (illegalTok sampleEnv.initial) (namePairs toks)) s ps [] ∧ (∀ p ∈ ps, p.2.display = p.1) ∧
    loadedText e.cls s = s ∧ (loadString sampleEnv (Trie.fromTokens toks) .max s e).res = .ok () ∧
    ((loadString sampleEnv (Trie.fromTokens toks) .max s e).st.tokens sampleEnv).2 ≠ ps.map Prod.snd ∧
    (loadString sampleEnv (Trie.fromTokens toks) .max s e).st.string sampleEnv = t ∧ t ≠ s := by
  have h1 : LiteralAt "\\xef\\x00".toList "\\xef".toList [0xEF] :=
    ⟨Or.inl ⟨_, rfl, by decide⟩, HexText.byte (c := 'e') (d := 'f') (x := 14) (y := 15) (by decide +kernel) (by decide +kernel) .nil⟩
  have h2 : LiteralAt "\\x00".toList "\\x00".toList [0x00] :=
    ⟨Or.inl ⟨_, rfl, by decide⟩, HexText.byte (c := '0') (d := '0') (x := 0) (y := 0) (by decide +kernel) (by decide +kernel) .nil⟩
  refine ⟨sampleProgram, sampleTable.map fun t => (t, t.names), "\\xef\\x00".toList, "setDate(".toList,
    [("\\xef".toList, illegalTok 0 [0xEF]), ("\\x00".toList, illegalTok 0 [0x00])],
    by decide, by decide +kernel, ?_, by decide +kernel, by decide +kernel, by decide +kernel, by decide +kernel,
    by decide +kernel, by decide +kernel⟩
  exact .next (s := "\\x00".toList) (text := "\\xef".toList) (Or.inl ⟨[0xEF], h1, rfl⟩)
    (.next (s := []) (text := "\\x00".toList) (Or.inl ⟨[0x00], h2, rfl⟩) .done)

/-- C70 is false for string entries that contain quotation marks at an end: they are stripped. -/
theorem C70_quotes_false : ∃ (e : Ent) (toks : List (Tok Nat × List Str)) (s : Str),
    e.cls = .string ∧ (∀ p ∈ toks, p.1 ∈ sampleEnv.table) ∧
    (loadString sampleEnv (Trie.fromTokens toks) .max s e).res = .ok () ∧
    (loadString sampleEnv (Trie.fromTokens toks) .max s e).st.string sampleEnv ≠ '"' :: s ++ ['"'] :=
  ⟨{ sampleProgram with cls := .string, typeId := [4] }, sampleTable.map fun t => (t, t.names),
    "\"A".toList, rfl, by decide +kernel, by decide +kernel, by decide +kernel⟩

example : (loadString sampleEnv (Trie.fromTokens (sampleTable.map fun t => (t, t.names))) .smart
    "prgmAB\n\"a→A".toList sampleProgram).st.string sampleEnv = "prgmAB\n\"a→A".toList := by
  decide +kernel

end Verif
