import Verif.Proofs.TokenFormat
import Verif.Spec.Sample

/-! C108: tokenized entries as text. -/

namespace Verif
open Spec Ent
variable {V : Type} [LinearOrder V]

/-- C108: a tokenized entry formats as the names of its tokens put together: display names for no letter or `d`, accessible
names for `a` and `t`, in the language given after a dot, English if none is given. Only the decoder warns. -/
theorem C108_tokens (env : Env V) (names : Names V) (fmt : Str → Nat → Except PyErr Str) (own : Str) (e : Ent)
    (t : TokenText) (ht : t.Well) (hn : t.numbers = none) (f : Tok V → Str × Str)
    (hf : ∀ x ∈ (decode env.initial env.table e.data).out, names x t.language = some (f x)) :
    formatTokens env names fmt own e t.text () =
      ⟨.ok ((decode env.initial env.table e.data).out.flatMap fun x => if t.accessible then (f x).2 else (f x).1), (),
        (decode env.initial env.table e.data).warns⟩ := by
  have hl : ((t.lang.map ('.' :: ·)).getD ".en".toList).tail = t.language := by
    unfold TokenText.language
    cases t.lang <;> rfl
  unfold formatTokens
  rw [matchToken_text ht]
  simp only [(kind_ok ht.2.1).2, hl]
  unfold Ent.tokens
  rw [nameAll_ok hf, hn]
  simp [Except.bind, withLines, TokenText.accessible, PyM.bind_run, PyM.warnAll_run, PyM.ofExcept_run]

/-- C108: with a format and a separator in front every line is preceded by its number, counted from zero, and the
separator. -/
theorem C108_lines (env : Env V) (names : Names V) (fmt : Str → Nat → Except PyErr Str) (own : Str) (e : Ent)
    (t : TokenText) (ht : t.Well) (l sep : Str) (hn : t.numbers = some (l, sep)) (f : Tok V → Str × Str)
    (hf : ∀ x ∈ (decode env.initial env.table e.data).out, names x t.language = some (f x))
    (ls : List Str) (hls : ls ≠ []) (hnl : ∀ x ∈ ls, '\n' ∉ x)
    (hj : joinWith '\n' ls =
      (decode env.initial env.table e.data).out.flatMap fun x => if t.accessible then (f x).2 else (f x).1)
    (num : Nat → Str) (hfmt : ∀ k, k < ls.length → fmt l k = .ok (num k)) :
    formatTokens env names fmt own e t.text () =
      ⟨.ok (joinWith '\n' (numbered num sep ls)), (), (decode env.initial env.table e.data).warns⟩ := by
  have hl : ((t.lang.map ('.' :: ·)).getD ".en".toList).tail = t.language := by
    unfold TokenText.language
    cases t.lang <;> rfl
  unfold formatTokens
  rw [matchToken_text ht]
  simp only [(kind_ok ht.2.1).2, hl]
  unfold Ent.tokens
  have hb : (nameAll names t.language (decide (t.kind = ['a'] ∨ t.kind = ['t'])) (decode env.initial env.table e.data).out) =
      .ok (joinWith '\n' ls) := by
    rw [nameAll_ok hf, hj]
    rfl
  rw [hb, hn]
  have hw : withLines fmt (some (l, sep)) (joinWith '\n' ls) = .ok (joinWith '\n' (numbered num sep ls)) := by
    unfold withLines
    rw [← joinStr_joinWith, splitChar_join hls hnl]
    simp only
    rw [numberLines_ok (num := num) ls 0 (by simpa using hfmt)]
    simp only [Except.map, Nat.zero_add]
    rw [joinStr_joinWith]
    rfl
  simp only [Except.bind, hw, PyM.bind_run, PyM.warnAll_run, PyM.ofExcept_run]
  simp

/-- C108: if a token has no name in the language the format is refused with a `TypeError`. -/
theorem C108_language (env : Env V) (names : Names V) (fmt : Str → Nat → Except PyErr Str) (own : Str) (e : Ent)
    (t : TokenText) (ht : t.Well) (w : Str) (hw : t.lang = some w) (x : Tok V)
    (hx : x ∈ (decode env.initial env.table e.data).out) (hm : names x w = none) :
    formatTokens env names fmt own e t.text () =
      ⟨.error .typeError, (), (decode env.initial env.table e.data).warns⟩ := by
  have hhex : formatHex own e.body.bytes t.text = .error .typeError := by
    refine formatHex_lang own t.text ((match t.numbers with
        | none => []
        | some (l, sep) => l ++ sep) ++ t.kind) w e.body.bytes (ht.2.2 w hw).1 ?_
    unfold TokenText.text
    rw [hw]
    cases t.numbers <;> rfl
  unfold formatTokens
  rw [matchToken_text ht]
  simp only [(kind_ok ht.2.1).2, hw]
  unfold Ent.tokens
  have : ((Option.map (fun x => '.' :: x) (some w)).getD ".en".toList).tail = w := rfl
  rw [this, nameAll_missing hx hm]
  simp only [Except.bind, formatCaught, if_true, hhex, PyM.bind_run, PyM.warnAll_run, PyM.ofExcept_run]
  simp

/-- C108: a format of numbers Python does not know is refused like any other text that is not a specification. -/
theorem C108_number_refused (env : Env V) (names : Names V) (fmt : Str → Nat → Except PyErr Str) (own : Str) (e : Ent)
    (t : TokenText) (ht : t.Well) (l sep : Str) (hn : t.numbers = some (l, sep)) (f : Tok V → Str × Str)
    (hf : ∀ x ∈ (decode env.initial env.table e.data).out, names x t.language = some (f x))
    (hfmt : fmt l 0 = .error .valueError) :
    formatTokens env names fmt own e t.text () =
      ⟨formatHex own e.body.bytes t.text, (), (decode env.initial env.table e.data).warns⟩ := by
  have hl : ((t.lang.map ('.' :: ·)).getD ".en".toList).tail = t.language := by
    unfold TokenText.language
    cases t.lang <;> rfl
  unfold formatTokens
  rw [matchToken_text ht]
  simp only [(kind_ok ht.2.1).2, hl]
  unfold Ent.tokens
  rw [nameAll_ok hf, hn]
  have hw : ∀ s, withLines fmt (some (l, sep)) s = .error .valueError := by
    intro s
    unfold withLines
    simp only
    rw [numberLines_error (num := fun _ => []) _ 0 0 (List.length_pos_iff.2 (splitChar_ne_nil _ s)) (by omega) hfmt]
    rfl
  simp only [Except.bind, hw, formatCaught, if_true, PyM.bind_run, PyM.warnAll_run, PyM.ofExcept_run]
  simp

/-- C108: the specifications for hexadecimal text of C107 work for tokenized entries if the letter is `X` or the separator,
if any, is a letter or an underscore. -/
theorem C108_hex_partial (env : Env V) (names : Names V) (fmt : Str → Nat → Except PyErr Str) (own : Str) (e : Ent)
    (wt st : Str) (u : Bool) (hw : wt = [] ∨ ∃ n, WidthText wt n)
    (hs : st = [] ∨ ∃ c, st = [c] ∧ (u = true ∨ isWord c = true)) :
    formatTokens env names fmt own e (wt ++ hexLetter u :: st) () =
      ⟨formatHex own e.body.bytes (wt ++ hexLetter u :: st), (), []⟩ := by
  unfold formatTokens
  rcases matchToken_hex hw hs with h | ⟨m, h1, h2⟩
  · rw [h]
    simp [PyM.ofExcept_run]
  · rw [h1]
    simp only [h2, PyM.ofExcept_run]

/-- Names for the examples: English for all, French for the tokens of the table. -/
def exNames : Names Nat := fun t lang =>
  if lang = "en".toList then some (t.display, '~' :: t.display)
  else if lang = "fr".toList ∧ t ∈ sampleTable then some ('f' :: t.display, t.display)
  else none

/-- Numbers for the examples: decimal for `02d`, hexadecimal digits for the others. -/
def exFmt : Str → Nat → Except PyErr Str := fun spec k =>
  if spec = "02d".toList then .ok ['0', digChar k] else if spec = "a".toList then .error .valueError else .ok [hexDigit k]

/-- Two lines; their accessible names; in French; and with numbers. -/
example :
    (formatTokens sampleEnv exNames exFmt [] sampleProgram [] ()).res = .ok "A\nB".toList ∧
    (formatTokens sampleEnv exNames exFmt [] sampleProgram "a".toList ()).res = .ok "~A~\n~B".toList ∧
    (formatTokens sampleEnv exNames exFmt [] sampleProgram ".fr".toList ()).res = .ok "fAf\nfB".toList ∧
    (formatTokens sampleEnv exNames exFmt [] sampleProgram "02d: ".toList ()).res = .ok "00: A\n01: B".toList ∧
    (formatTokens sampleEnv exNames exFmt [] sampleProgram "02d: a.en".toList ()).res = .ok "00: ~A~\n01: ~B".toList ∧
    (formatTokens sampleEnv exNames exFmt [] sampleProgram "d.de".toList ()).res = .error .typeError ∧
    (formatTokens sampleEnv exNames exFmt [] sampleProgram "a:".toList ()).res = .error .typeError ∧
    (formatTokens sampleEnv exNames exFmt [] sampleProgram "-2X:".toList ()).res = .ok "0300:413F:42".toList := by
  refine ⟨?_, ?_, ?_, ?_, ?_, ?_, ?_, ?_⟩ <;> decide +kernel

/-- C108 fails for hexadecimal text: "all entries support hex formatting of their data". With a small `x` and a separator the
specification is taken as one for line numbers, so that the names of the tokens come out, and not the bytes. -/
theorem C108_hex_false : ¬ ∀ (env : Env Nat) (names : Names Nat) (fmt : Str → Nat → Except PyErr Str) (own : Str) (e : Ent)
    (wt : Str) (sep : Char) (n : Int), WidthText wt n → sep.toNat < 128 → isDig sep = false →
    (formatTokens env names fmt own e (wt ++ ['x', sep]) ()).res = formatHex own e.body.bytes (wt ++ ['x', sep]) := by
  intro h
  have := h sampleEnv exNames exFmt [] sampleProgram "2".toList ':' _ (.plain _ (by decide) (by decide)) (by decide)
    (by decide)
  revert this
  decide +kernel

/-- What comes out instead, and what should. -/
example : (formatTokens sampleEnv exNames exFmt [] sampleProgram "2x:".toList ()).res = .ok "0:A\n1:B".toList ∧
    formatHex [] sampleProgram.body.bytes "2x:".toList = .ok "03:0041:3f42".toList := by
  refine ⟨?_, ?_⟩ <;> decide +kernel

/-- C108 fails for languages other than English: an entry with a byte that is not a token cannot be formatted in them, though
all tokens have names in the language; the byte itself only has a name in English. -/
theorem C108_language_false : ¬ ∀ (env : Env Nat) (names : Names Nat) (fmt : Str → Nat → Except PyErr Str) (own : Str)
    (e : Ent) (lang : Str), 2 ≤ lang.length → (∀ x ∈ lang, isWord x = true) →
    (∀ t ∈ env.table, ∃ p, names t lang = some p) →
    (∀ bits, names (illegalTok env.initial bits) "en".toList = some (escapeOf bits, '~' :: escapeOf bits)) →
    ∃ s, (formatTokens env names fmt own e ('.' :: lang) ()).res = .ok s := by
  intro h
  obtain ⟨s, hs⟩ := h sampleEnv exNames exFmt [] { sampleProgram with body := ⟨true, [3, 0, 0x41, 0xC0, 0xC0]⟩ } "fr".toList
    (by decide) (by decide)
    (by
      intro t ht
      refine ⟨('f' :: t.display, t.display), ?_⟩
      unfold exNames
      rw [if_neg (by decide), if_pos ⟨rfl, ht⟩])
    (by
      intro bits
      unfold exNames
      rw [if_pos rfl]
      rfl)
  have hd : (formatTokens sampleEnv exNames exFmt [] { sampleProgram with body := ⟨true, [3, 0, 0x41, 0xC0, 0xC0]⟩ }
      ('.' :: "fr".toList) ()).res = .error .typeError := by decide +kernel
  rw [hd] at hs
  cases hs

end Verif
