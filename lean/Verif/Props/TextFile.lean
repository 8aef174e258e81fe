import Verif.Proofs.OpenAny
import Verif.Props.Program

/-! C141: text loaded into an entry, saved in a file and opened again. -/

namespace Verif
open Spec Ent
variable {V : Type} [LinearOrder V]

/-- Tokens and text do not depend on which class of programs a program is of. -/
theorem text_class (env : Env V) (e : Ent) {c : Cls} (h : dataStart c = dataStart e.cls) (hs : c = .string ↔ e.cls = .string) :
    tokens env { e with cls := c } = tokens env e ∧ string env { e with cls := c } = string env e := by
  have h1 : tokens env { e with cls := c } = tokens env e := by
    unfold tokens data
    simp only [h]
  refine ⟨h1, ?_⟩
  unfold string
  rw [h1]
  simp only [hs]

/-- What loading does to the class of an entry of tokens. -/
theorem coerce_tokenized (env : Env V) (e : Ent) (hc : e.cls ∈ plainTokenized) (ht : e.cls.typeId = some (fromLE e.typeId))
    (hl : e.typeId.length = 1) :
    ∃ c, coerce env e = ⟨.ok (), { e with cls := c }, []⟩ ∧ dataStart c = dataStart e.cls ∧ (c = .string ↔ e.cls = .string) ∧
      (c = e.cls ∨ (e.cls = .program ∧ c = .asmProgram) ∨ (e.cls = .protProgram ∧ c = .protAsmProgram)) := by
  obtain ⟨t, htt⟩ := length_one hl
  have hplain : Plain e.cls = true → ∃ c, coerce env e = ⟨.ok (), { e with cls := c }, []⟩ ∧ dataStart c = dataStart e.cls ∧
      (c = .string ↔ e.cls = .string) ∧ (c = e.cls ∨ (e.cls = .program ∧ c = .asmProgram) ∨ (e.cls = .protProgram ∧ c = .protAsmProgram)) :=
    fun h => ⟨e.cls, coerce_plain env h, rfl, Iff.rfl, Or.inl rfl⟩
  simp only [plainTokenized, List.mem_cons, List.not_mem_nil, or_false] at hc
  have htn : fromLE e.typeId = t.toNat := by rw [htt]; simp [fromLE]
  rw [htn] at ht
  rcases hc with h | h | h | h | h
  · exact hplain (by rw [h]; rfl)
  · exact hplain (by rw [h]; rfl)
  · exact hplain (by rw [h]; rfl)
  · have hrun : coerce env e = coerceProgram env e := by simp [coerce, coerceTyped, PyM.bind_run, h]
    refine ⟨_, hrun.trans (coerceProgram_run env htt (by rw [h]; decide) (by rw [h]; decide)), ?_⟩
    rw [h] at ht ⊢
    injection ht with ht
    rw [← ht]
    cases looksAsm env e.data <;> decide
  · have hrun : coerce env e = coerceProgram env e := by simp [coerce, coerceTyped, PyM.bind_run, h]
    refine ⟨_, hrun.trans (coerceProgram_run env htt (by rw [h]; decide) (by rw [h]; decide)), ?_⟩
    rw [h] at ht ⊢
    injection ht with ht
    rw [← ht]
    cases looksAsm env e.data <;> decide

theorem tokenVersion_le (env : Env V) (os : V) (d : Bytes) : tokenVersion env os d ≤ 0x2C := by
  unfold tokenVersion
  have : osVersionByte env os ≤ 0x0C := by
    rcases osVersionByte_cases env os with h | h
    · simp only [List.mem_cons, List.not_mem_nil, or_false] at h
      omega
    · omega
  split <;> omega

/-- **C141, what holds**: a text that can be encoded with tokens of the sheet, saved and opened, has the same tokens, and the same
text if each piece of the text is the name by which its token is shown – provided that version and flag are not
mistaken for the length. Only the class of a program can be another one: that of assembly programs. -/
theorem C141_text_partial (env : OsEnv V) (htbl : CodeTable env.table) (ord : Model → Nat) (e : Ent)
    (hc : e.cls ∈ plainTokenized) (hw : WF e) (hf : e.metaLen = [0x0D, 0x00]) (ht : e.cls.typeId = some (fromLE e.typeId))
    (hm : e.body.mutable = true) (hl : 2 ≤ e.body.bytes.length)
    (toks : List (Tok V × List Str)) (mode : EncMode) (s : Str) (acc : EncAcc V)
    (henc : encode env.initial (Trie.fromTokens toks) mode (loadedText e.cls s) = some (.ok acc))
    (hlit : ∀ a b, loadedText e.cls s = a ++ b → ¬ StartsLiteral b)
    (hin : ∀ p ∈ toks, p.1 ∈ env.table) (hne : loadedText e.cls s ≠ [])
    (hn : acc.data.length + 19 < 65536) (name filename : Str) (hdot : '.' ∉ filename) (nm : Bytes) (fs : Files) :
    ∃ e' ws ps, loadString env.toEnv (Trie.fromTokens toks) mode s e = ⟨.ok (), e', ws⟩ ∧
      Pieces (IsPiece (illegalTok env.initial) (namePairs toks)) (loadedText e.cls s) ps [] ∧
      e'.version.length = 1 ∧ fromLE e'.version ≤ 0x2C ∧ e'.archived = e.archived ∧
      (fromLE (e'.version ++ e'.archived) ≠ acc.data.length + 2 →
        ∃ fs' ws', e'.save env ord name filename none none fs = ⟨.ok (), fs', ws'⟩ ∧
          (∀ n, n ≠ pathOf name filename e.cls.extensions.1 → fs' n = fs n) ∧
          ∃ o ws'', openAs env.toEnv e.cls nm (pathOf name filename e.cls.extensions.1) fs' = ⟨.ok o, fs', ws''⟩ ∧
            (∀ w ∈ ws'', w ∉ corruption) ∧ o.name = e.name ∧ o.archived = e.archived ∧
            (o.cls = e.cls ∨ (e.cls = .program ∧ o.cls = .asmProgram) ∨ (e.cls = .protProgram ∧ o.cls = .protAsmProgram)) ∧
            o.tokens env.toEnv = ([], ps.map Prod.snd) ∧
            ((∀ p ∈ ps, p.2.display = p.1) →
              o.string env.toEnv = if e.cls = .string then '"' :: loadedText e.cls s ++ ['"'] else s)) := by
  obtain ⟨e', ws, ps, hrun, hps, hmem, ⟨os, he'⟩, hdata, htok, hstr⟩ :=
    load_string_full env.toEnv htbl e hc hm hl toks mode s acc henc hlit hin hne (by omega)
  have hver := tokenVersion_le env.toEnv os acc.data
  have hvb : fromLE e'.version ≤ 0x2C := by
    rw [he']
    simp [fromLE]
    omega
  refine ⟨e', ws, ps, hrun, hps, by rw [he']; rfl, hvb, by rw [he'], fun hlen => ?_⟩
  have hcls : e'.cls = e.cls := by rw [he']
  have hbody : e'.body = ⟨true, toLE 2 acc.data.length ++ (ps.map Prod.snd).flatMap Tok.bits⟩ := by rw [he']
  have hbl : e'.body.bytes.length = acc.data.length + 2 := by
    rw [hbody, ← hdata]
    simp [length_toLE]
    omega
  have hw' : WF e' := by
    have hmeta : e'.metaLen = [0x0D, 0x00] := by rw [he']; exact hf
    refine ⟨⟨Or.inr hmeta, by rw [he']; exact hw.typeId, by rw [he']; exact hw.name, by rw [he']; rfl, by rw [he']; exact hw.archived⟩,
      by rw [he']; exact hw.flag, fun h => ?_, by omega⟩
    rw [hmeta] at h
    exact absurd h (by decide)
  have hno : e'.metaLen = [0x0D, 0x00] → ¬FlashIsLength e' := by
    intro _ h
    unfold FlashIsLength at h
    omega
  have hsame : ({ e' with body := ⟨true, e'.body.bytes⟩ } : Ent) = e' := by rw [he']
  obtain ⟨c, hco, hd, hst, hcc⟩ := coerce_tokenized env.toEnv e' (by rw [hcls]; exact hc) (by rw [he']; exact ht) (by rw [he']; exact hw.typeId)
  have hlen' : e'.len < 65536 := by
    unfold Ent.len Ent.metaLength Ent.calcLength
    have hmeta : e'.metaLen = [0x0D, 0x00] := by rw [he']; exact hf
    rw [hmeta, hbl]
    simp [fromLE]
    omega
  obtain ⟨fs', ws', hsave, hoth, ws'', hopen, hws, -⟩ := save_open_coerced env ord name filename nm fs hw' hno (by rw [he']; exact ht)
    (by rw [hcls]; rintro h; rw [h] at hc; exact absurd hc (by decide)) (e' := { e' with cls := c }) (wc := []) (by rw [hsame]; exact hco) rfl rfl (by simp)
    (by intro h; rw [h] at hbl; simp at hbl) hlen' hdot
  rw [hcls] at hoth hopen hcc
  obtain ⟨t1, t2⟩ := text_class env.toEnv e' hd hst
  refine ⟨fs', ws', hsave, hoth, _, ws'', hopen, hws, by rw [he'], by rw [he'], hcc, t1.trans htok, fun h => t2.trans (hstr h)⟩

/-- **C141, long texts**: the codes of 43 bytes or more of an entry that is not archived are never mistaken for something else. -/
theorem C141_long (env : OsEnv V) (htbl : CodeTable env.table) (ord : Model → Nat) (e : Ent)
    (hc : e.cls ∈ plainTokenized) (hw : WF e) (hf : e.metaLen = [0x0D, 0x00]) (ht : e.cls.typeId = some (fromLE e.typeId))
    (hm : e.body.mutable = true) (hl : 2 ≤ e.body.bytes.length) (ha : e.archived = [0x00])
    (toks : List (Tok V × List Str)) (mode : EncMode) (s : Str) (acc : EncAcc V)
    (henc : encode env.initial (Trie.fromTokens toks) mode (loadedText e.cls s) = some (.ok acc))
    (hlit : ∀ a b, loadedText e.cls s = a ++ b → ¬ StartsLiteral b)
    (hin : ∀ p ∈ toks, p.1 ∈ env.table) (hne : loadedText e.cls s ≠ [])
    (hn : acc.data.length + 19 < 65536) (hmin : 43 ≤ acc.data.length)
    (name filename : Str) (hdot : '.' ∉ filename) (nm : Bytes) (fs : Files) :
    ∃ e' ws ps, loadString env.toEnv (Trie.fromTokens toks) mode s e = ⟨.ok (), e', ws⟩ ∧
      Pieces (IsPiece (illegalTok env.initial) (namePairs toks)) (loadedText e.cls s) ps [] ∧
      ((∀ p ∈ ps, p.2.display = p.1) →
        ∃ fs' ws' o ws'', e'.save env ord name filename none none fs = ⟨.ok (), fs', ws'⟩ ∧
          openAs env.toEnv e.cls nm (pathOf name filename e.cls.extensions.1) fs' = ⟨.ok o, fs', ws''⟩ ∧
          (∀ w ∈ ws'', w ∉ corruption) ∧
          o.string env.toEnv = if e.cls = .string then '"' :: loadedText e.cls s ++ ['"'] else s) := by
  obtain ⟨e', ws, ps, h1, h2, hv1, hv, har, h3⟩ :=
    C141_text_partial env htbl ord e hc hw hf ht hm hl toks mode s acc henc hlit hin hne hn name filename hdot nm fs
  refine ⟨e', ws, ps, h1, h2, fun hdisp => ?_⟩
  obtain ⟨fs', ws', hs, -, o, ws'', ho, hws, -, -, -, -, hstr⟩ := h3 (by
    rw [har, ha]
    obtain ⟨v, hv'⟩ := length_one hv1
    rw [hv'] at hv ⊢
    simp [fromLE] at hv ⊢
    omega)
  exact ⟨fs', ws', o, ws'', hs, ho, hws, hstr hdisp⟩

/-- **C141 is false**: a program of ten bytes that uses `eval(` has the version 12, which is mistaken for the length. Loaded, it has the
text given to it; saved and opened, it has another one. -/
theorem C141_flash_false : ∃ (e e' o : Ent) (toks : List (Tok Nat × List Str)) (s path : Str) (fs : Files),
    e.cls = .program ∧ WF e ∧ (∀ p ∈ toks, p.1 ∈ exOs.table) ∧
    (loadString exOs.toEnv (Trie.fromTokens toks) .max s e).res = .ok () ∧
    (loadString exOs.toEnv (Trie.fromTokens toks) .max s e).st = e' ∧ e'.string exOs.toEnv = s ∧
    (e'.save exOs (fun _ => 0) "A".toList [] none none (fun _ => none)).res = .ok () ∧
    (e'.save exOs (fun _ => 0) "A".toList [] none none (fun _ => none)).st = fs ∧ path = "A.8xp".toList ∧
    (openAs exOs.toEnv .program sampleEnv.unnamed path fs).res = .ok o ∧ o.string exOs.toEnv ≠ s := by
  refine ⟨{ sampleProgram with archived := [0x00] },
    ⟨.program, [0x0D, 0x00], [0x05], [0x41, 0, 0, 0, 0, 0, 0, 0], [0x0C], [0x00],
      ⟨true, [0x0A, 0x00, 0x41, 0x04, 0x42, 0x3F, 0xEF, 0x98, 0xEF, 0x98, 0xEF, 0x98]⟩⟩,
    ⟨.program, [0x0B, 0x00], [0x05], [0x41, 0, 0, 0, 0, 0, 0, 0], [0x00], [0x00],
      ⟨true, [0x0C, 0x00, 0x0A, 0x00, 0x41, 0x04, 0x42, 0x3F, 0xEF, 0x98, 0xEF, 0x98]⟩⟩,
    sampleTable.map fun t => (t, t.names), "A→B\neval(eval(eval(".toList, "A.8xp".toList, _, rfl,
    ⟨⟨Or.inr rfl, rfl, rfl, rfl, rfl⟩, Or.inl rfl, by decide, by decide⟩, by decide +kernel, by decide +kernel, by decide +kernel, by decide +kernel,
    by decide +kernel, rfl, rfl, ?_, by decide +kernel⟩
  decide +kernel

/-- The same program with one more token comes back as it was. -/
example :
    (match loadString exOs.toEnv (Trie.fromTokens (sampleTable.map fun t => (t, t.names))) .max "A→B\neval(eval(eval(A".toList
        { sampleProgram with archived := [0x00] } with
    | ⟨.ok (), e', _⟩ =>
      match e'.save exOs (fun _ => 0) "A".toList [] none none (fun _ => none) with
      | ⟨.ok (), fs, _⟩ =>
        match openAs exOs.toEnv .program sampleEnv.unnamed "A.8xp".toList fs with
        | ⟨.ok o, _, ws⟩ => o.string exOs.toEnv == "A→B\neval(eval(eval(A".toList && ws.all (· ∉ corruption)
        | _ => false
      | _ => false
    | _ => false) = true ∧ CodeTable exOs.table := by
  refine ⟨by decide +kernel, by unfold CodeTable; decide +kernel⟩

end Verif
