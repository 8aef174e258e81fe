import Mathlib.Data.Nat.Basic
import Verif.Proofs.Unique

/-
Properties of the tokenizer: C37-C46 and C67.
-/

namespace Verif
variable {V : Type} [LinearOrder V]

/-- A token with one name. -/
def exTok (bits : Bytes) (name : String) (since : Nat) : Tok Nat :=
  ⟨bits, name.toList, [name.toList], since⟩

/-- A small token table used in the examples. -/
def exToks : List (Tok Nat × List Str) :=
  let mk (bits : Bytes) (name : String) (since : Nat) : Tok Nat × List Str :=
    (exTok bits name since, [name.toList])
  [mk [0x41] "A" 0, mk [0x42] "B" 0, mk [0x2A] "\"" 0, mk [0x04] "->" 0, mk [0x3F] "\n" 0,
   mk [0x5F] "prgm" 1, mk [0xEB] "|L" 1, mk [0xE7] "Send(" 5, mk [0xBB, 0xB0] "ab" 2,
   mk [0xBB, 0xB1] "a" 3, mk [0xBB, 0xB2] "b" 4, mk [0x62, 0x01] "|" 2]

/-- The table as decoding sees it. -/
def exTable : TokTable Nat := exToks.map Prod.fst

/-! ### C37 -/

/-- C37. Looking up a string in the trie of any table gives one match for every length at which the
text so far is a name of the table, from the longest to the shortest, each with the rest of the
string; of several tokens with the same name the last inserted is returned. -/
theorem C37_trie_match {τ : Type} (toks : List (τ × List Str)) (s : Str) :
    (Trie.fromTokens toks).match s =
      (List.range (s.length + 1)).reverse.filterMap fun n =>
        (((namePairs toks).reverse.find? fun p => p.1 == s.take n).map Prod.snd).map
          fun t => (t, s.drop n) :=
  Trie.match_fromTokens toks s

example : ((Trie.fromTokens exToks).match "abA".toList).map (fun p => (p.1.bits, p.2)) =
    [([0xBB, 0xB0], "A".toList), ([0xBB, 0xB1], "bA".toList)] := by decide +kernel

example : (Trie.fromTokens [(1, ["x".toList]), (2, ["x".toList, "xy".toList])]).match "xyz".toList =
    [(2, "z".toList), (2, "yz".toList)] := by decide +kernel

/-! ### C38 -/

/-- C38. Decoding loses no bytes except a tail of null bytes or of one byte that is not a token. -/
theorem C38_decode_bytes (initial : V) (tbl : TokTable V) (data : Bytes) :
    ∃ tail, (decode initial tbl data).out.flatMap Tok.bits ++ tail = data ∧
      ((∃ n, tail = List.replicate n 0) ∨ (∃ b, b ≠ 0 ∧ tail = [b] ∧ ∀ t ∈ tbl, t.bits ≠ [b])) := by
  obtain ⟨tail, ht, he⟩ :=
    decodeLoop_bytes initial tbl data [] ⟨[], initial, []⟩ (Or.inl ⟨0, rfl⟩)
  refine ⟨tail, he, ?_⟩
  rcases ht with h | ⟨b, hb, rfl, hf⟩
  · exact Or.inl h
  · refine Or.inr ⟨b, hb, rfl, ?_⟩
    intro t ht hbits
    unfold TokTable.find at hf
    rw [List.find?_eq_none] at hf
    exact hf t ht (by simp [hbits])

example : (decode 0 exTable [0x41, 0x00, 0x00, 0xBB, 0xB0, 0xBB, 0x01, 0xBB]).out.map Tok.bits =
    [[0x41], [0x00], [0x00], [0xBB, 0xB0], [0xBB, 0x01]] := by decide +kernel

/-! ### C39 -/

/-- C39. Decoding the codes of any sequence of tokens of a prefix-free table gives the sequence
back, without warnings. -/
theorem C39_decode_concat (initial : V) (tbl : TokTable V)
    (htbl : ∀ t ∈ tbl, (t.bits.length = 1 ∨ t.bits.length = 2) ∧ t.bits.headD 0 ≠ 0 ∧
      ∀ u ∈ tbl, t.bits <+: u.bits → t = u)
    (ts : List (Tok V)) (hts : ∀ t ∈ ts, t ∈ tbl) :
    (decode initial tbl (ts.flatMap Tok.bits)).out = ts ∧
    (decode initial tbl (ts.flatMap Tok.bits)).warns = [] := by
  have := decodeLoop_tokens initial htbl ts hts ⟨[], initial, []⟩
  unfold decode
  unfold tokBytes at this
  rw [this]
  exact ⟨by simp, rfl⟩

example : (decode 0 exTable [0xBB, 0xB0, 0x41, 0xBB, 0xB2]).out.map Tok.display =
    ["ab".toList, "A".toList, "b".toList] ∧
    (decode 0 exTable [0xBB, 0xB0, 0x41, 0xBB, 0xB2]).warns = [] := by decide +kernel

/-! ### C40 -/

/-- C40, success. If encoding succeeds, the string is a concatenation of pieces each of which is the
name of a token or a byte literal, and the output is the concatenation of their codes. -/
theorem C40_encode_pieces (initial : V) (toks : List (Tok V × List Str)) (mode : EncMode) (s : Str)
    (acc : EncAcc V) (h : encode initial (Trie.fromTokens toks) mode s = some (.ok acc)) :
    ∃ ps, Pieces (IsPiece (illegalTok initial) (namePairs toks)) s ps [] ∧
      acc.data = ps.flatMap fun p => p.2.bits := by
  obtain ⟨ps, hr, hd, _⟩ := encodeLoop_outcome initial toks _ _ _ _ h
  refine ⟨ps, hr.pieces, ?_⟩
  rw [hd]
  simp [tokBytes, List.flatMap_map]

/-- C40, failure. If encoding fails, it read pieces up to a position where the rest of the string
starts with no name and no valid byte literal, and it reports that position. -/
theorem C40_encode_error (initial : V) (toks : List (Tok V × List Str)) (mode : EncMode) (s : Str)
    (e : EncErr) (h : encode initial (Trie.fromTokens toks) mode s = some (.error e)) :
    ∃ ps rest, Pieces (IsPiece (illegalTok initial) (namePairs toks)) s ps rest ∧ rest ≠ [] ∧
      e = .noToken (s.length - rest.length) ∧
      ∀ text tok, ¬ IsPiece (illegalTok initial) (namePairs toks) rest text tok := by
  have := encodeLoop_outcome initial toks _ _ _ _ h
  match e, this with
  | .noToken i, ⟨ps, base, top, rest, hr, hne, hi, hp⟩ =>
    refine ⟨ps, rest, hr.pieces, hne, ?_, hp⟩
    simp only at hi
    congr 1
    omega
  | .stackConsumed i, ⟨ps, rest, hr⟩ =>
    exfalso
    cases mode with
    | max =>
      obtain ⟨⟨n, hn⟩, _⟩ := hr.plain (k := .maxMode) (Or.inl rfl) ⟨0, rfl⟩
      simp at hn
    | string | min =>
      obtain ⟨⟨n, hn⟩, _⟩ := hr.plain (k := .minMode) (Or.inr rfl) ⟨0, rfl⟩
      simp at hn
    | smart =>
      obtain ⟨c, hc, _⟩ := hr.smart (c := .outside) ⟨0, rfl⟩
      exact smartStack_nonempty hc rfl

example : encode 0 (Trie.fromTokens exToks) .max "ab\\x41\\uBBB1Zb".toList =
    some (.error (.noToken 12)) := by decide +kernel

example : (encode 0 (Trie.fromTokens exToks) .max "ab\\x41\\uBBB1b".toList).map
    (fun r => r.toOption.map EncAcc.data) =
    some (some [0xBB, 0xB0, 0x41, 0xBB, 0xB1, 0xBB, 0xB2]) := by decide +kernel

/-! ### C41 -/

/-- C41. With no empty name in the table, encoding any string in any mode ends after at most as
many steps as the string has characters (the loop is given exactly that many). -/
theorem C41_encode_terminates (initial : V) (toks : List (Tok V × List Str))
    (hnames : ∀ p ∈ toks, [] ∉ p.2) (mode : EncMode) (s : Str) :
    encode initial (Trie.fromTokens toks) mode s ≠ none :=
  encodeLoop_terminates initial toks hnames _ _ _ (Nat.le_refl _)

/-- The condition is needed: a table with an empty name makes the loop run forever in minimal
mode, whatever number of steps is allowed. -/
theorem C41_empty_name_loops (fuel : Nat) (acc : EncAcc Nat) (k : Nat)
    (hs : acc.stack = [⟨.minMode, k⟩]) :
    encodeLoop 0 (Trie.fromTokens [((⟨[1], [], [[]], 0⟩ : Tok Nat), [[]])]) fuel ['A'] acc =
      none := by
  induction fuel generalizing acc k with
  | zero => rfl
  | succ fuel ih =>
    have hm : St.munch 0 (Trie.fromTokens [((⟨[1], [], [[]], 0⟩ : Tok Nat), [[]])])
        ⟨.minMode, k⟩ ['A'] = some (⟨[1], [], [[]], 0⟩, ['A'], [⟨.minMode, k + 1⟩]) := rfl
    rw [encodeLoop, hs]
    simp only [List.getLast?_singleton]
    rw [hm]
    exact ih _ (k + 1) rfl

/-! ### C42 -/

/-- C42. The encoder never finds its stack of states empty. -/
theorem C42_stack_never_empty (initial : V) (toks : List (Tok V × List Str)) (mode : EncMode)
    (s : Str) (i : Nat) :
    encode initial (Trie.fromTokens toks) mode s ≠ some (.error (.stackConsumed i)) := by
  intro h
  obtain ⟨_, _, _, _, he, _⟩ := C40_encode_error initial toks mode s _ h
  simp at he

/-- C42, shape. After a complete encoding the stack is the single state of the mode; in smart mode
it is the smart state with at most one other state on top of it. -/
theorem C42_stack_shape (initial : V) (toks : List (Tok V × List Str)) (mode : EncMode)
    (s : Str) (acc : EncAcc V)
    (h : encode initial (Trie.fromTokens toks) mode s = some (.ok acc)) :
    match mode with
    | .max => ∃ n, acc.stack = [⟨.maxMode, n⟩]
    | .min | .string => ∃ n, acc.stack = [⟨.minMode, n⟩]
    | .smart => ∃ n, acc.stack = [⟨.smart, n⟩] ∨
        ∃ top, top.kind ≠ .smart ∧ acc.stack = [⟨.smart, n⟩, top] := by
  obtain ⟨ps, hr, _⟩ := encodeLoop_outcome initial toks _ _ _ _ h
  cases mode with
  | max => exact (hr.plain (k := .maxMode) (Or.inl rfl) ⟨0, rfl⟩).1
  | string | min => exact (hr.plain (k := .minMode) (Or.inr rfl) ⟨0, rfl⟩).1
  | smart =>
    obtain ⟨c, ⟨k, hc⟩, _⟩ := hr.smart (c := .outside) ⟨0, rfl⟩
    refine ⟨k, ?_⟩
    cases c with
    | outside => exact Or.inl hc
    | str | sendStart | sendStr =>
      obtain ⟨n, hc⟩ := hc
      exact Or.inr ⟨_, by simp, hc⟩
    | prog n | list n => exact Or.inr ⟨_, by simp, hc⟩

example : (encode 0 (Trie.fromTokens exToks) .smart "A\"B".toList).map
    (fun r => r.toOption.map EncAcc.stack) = some (some [⟨.smart, 1⟩, ⟨.string, 1⟩]) := by
  decide +kernel

/-! ### C43 -/

/-- C43, maximal mode. Every piece that is not a byte literal is the longest name matching at its
position. -/
theorem C43_max_munch (initial : V) (toks : List (Tok V × List Str)) (s : Str) (acc : EncAcc V)
    (h : encode initial (Trie.fromTokens toks) .max s = some (.ok acc)) :
    ∃ ps, Pieces (fun s text t => IsPiece (illegalTok initial) (namePairs toks) s text t ∧
        (¬ StartsLiteral s → IsLongest (namePairs toks) s text)) s ps [] ∧
      acc.data = ps.flatMap fun p => p.2.bits := by
  obtain ⟨ps, hr, hd, _⟩ := encodeLoop_outcome initial toks _ _ _ _ h
  have := (hr.plain (k := .maxMode) (Or.inl rfl) ⟨0, rfl⟩).2
  refine ⟨ps, this, ?_⟩
  rw [hd]
  simp [tokBytes, List.flatMap_map]

/-- C43, minimal mode. Every piece that is not a byte literal is the shortest name matching at its
position, or the second shortest if the text there starts with punctuation and several match. -/
theorem C43_min_munch (initial : V) (toks : List (Tok V × List Str)) (mode : EncMode)
    (hm : mode = .min ∨ mode = .string) (s : Str) (acc : EncAcc V)
    (h : encode initial (Trie.fromTokens toks) mode s = some (.ok acc)) :
    ∃ ps, Pieces (fun s text t => IsPiece (illegalTok initial) (namePairs toks) s text t ∧
        (¬ StartsLiteral s → IsShortest (namePairs toks) s text)) s ps [] ∧
      acc.data = ps.flatMap fun p => p.2.bits := by
  obtain ⟨ps, hr, hd, _⟩ := encodeLoop_outcome initial toks _ _ _ _ h
  have := (hr.plain (k := .minMode) (Or.inr rfl) (by rcases hm with rfl | rfl <;> exact ⟨0, rfl⟩)).2
  refine ⟨ps, this, ?_⟩
  rw [hd]
  simp [tokBytes, List.flatMap_map]

/-- C43, uniqueness. When no name is empty, a string has at most one reading by maximal munch and at
most one by minimal munch, so the two theorems above determine the output. -/
theorem C43_munch_unique {τ : Type} (lit : Bytes → τ) (tbl : List (Str × τ))
    (he : ∀ p ∈ tbl, p.1 ≠ []) (minimal : Bool) (s : Str) (ps qs : List (Str × τ))
    (hp : Pieces (IsMunch lit tbl minimal) s ps []) (hq : Pieces (IsMunch lit tbl minimal) s qs []) :
    ps = qs :=
  Pieces.unique (named_nil he) hp rfl hq

example : (encode 0 (Trie.fromTokens exToks) .min "ab|LA".toList).map
    (fun r => r.toOption.map EncAcc.data) =
    some (some [0xBB, 0xB1, 0xBB, 0xB2, 0xEB, 0x41]) := by decide +kernel

/-! ### C44 -/

/-- C44. In smart mode every piece is read minimally or maximally as the context of the tokens
before it demands (`Ctx`): minimally in string literals, program names and list names, maximally
elsewhere (also in strings sent by `Send(`); a string ends at a quote, a store arrow or a newline,
a name at the first token that cannot be part of it or after nine (list: six) tokens. -/
theorem C44_smart_mode (initial : V) (toks : List (Tok V × List Str)) (s : Str) (acc : EncAcc V)
    (h : encode initial (Trie.fromTokens toks) .smart s = some (.ok acc)) :
    ∃ ps c, SmartPieces 9 6 (illegalTok initial) Tok.bits (namePairs toks) .outside s ps c [] ∧
      acc.data = ps.flatMap fun p => p.2.bits := by
  obtain ⟨ps, hr, hd, _⟩ := encodeLoop_outcome initial toks _ _ _ _ h
  obtain ⟨c, _, hp⟩ := hr.smart (c := .outside) ⟨0, rfl⟩
  refine ⟨ps, c, hp, ?_⟩
  rw [hd]
  simp [tokBytes, List.flatMap_map]

/-- C44, uniqueness. When no name is empty a string has at most one reading of this kind, so the
theorem above determines the output. -/
theorem C44_smart_unique {τ : Type} (progMost listMost : Nat) (lit : Bytes → τ) (bitsOf : τ → Bytes)
    (tbl : List (Str × τ)) (he : ∀ p ∈ tbl, p.1 ≠ []) (s : Str) (c₁ c₂ : Ctx)
    (ps qs : List (Str × τ))
    (hp : SmartPieces progMost listMost lit bitsOf tbl .outside s ps c₁ [])
    (hq : SmartPieces progMost listMost lit bitsOf tbl .outside s qs c₂ []) : ps = qs :=
  SmartPieces.unique (named_nil he) hp rfl hq

example : (encode 0 (Trie.fromTokens exToks) .smart "ab\"ab\"ab->\"ab\nab".toList).map
    (fun r => r.toOption.map EncAcc.data) =
    some (some [0xBB, 0xB0, 0x2A, 0xBB, 0xB1, 0xBB, 0xB2, 0x2A, 0xBB, 0xB0, 0x04,
      0x2A, 0xBB, 0xB1, 0xBB, 0xB2, 0x3F, 0xBB, 0xB0]) := by decide +kernel

/-! ### C45 -/

omit [LinearOrder V] in
/-- C45, anywhere. In every encoder state the escape of a one- or two-byte code, whatever follows
it, is read as exactly that code, and what follows is left. -/
theorem C45_escape_anywhere (initial : V) (trie : Trie (Tok V)) (top : St) (bits : Bytes)
    (hb : bits.length = 1 ∨ bits.length = 2) (rest : Str) :
    (top.munch initial trie (escapeOf bits ++ rest)).map (fun r => (r.1.bits, r.2.1)) =
      some (bits, rest) := by
  rw [munch_escape initial trie top bits hb rest]
  rfl

/-- C45, whole texts. A text made of escapes encodes, in every mode and with every table, to the
codes it was made from. -/
theorem C45_escape_text (initial : V) (toks : List (Tok V × List Str)) (mode : EncMode)
    (codes : List Bytes) (hb : ∀ b ∈ codes, b.length = 1 ∨ b.length = 2) :
    (encode initial (Trie.fromTokens toks) mode (codes.flatMap escapeOf)).map
      (fun r => r.toOption.map EncAcc.data) = some (some codes.flatten) := by
  have aux : ∀ (codes : List Bytes) (fuel : Nat) (acc : EncAcc V) (ps : List (Str × Tok V)),
      (∀ b ∈ codes, b.length = 1 ∨ b.length = 2) →
      (codes.flatMap escapeOf).length ≤ fuel →
      (∃ s0, Run initial toks [mode.start] s0 ps acc.stack (codes.flatMap escapeOf)) →
      ∃ acc', encodeLoop initial (Trie.fromTokens toks) fuel (codes.flatMap escapeOf) acc =
        some (.ok acc') ∧ acc'.data = acc.data ++ codes.flatten := by
    intro codes
    induction codes with
    | nil =>
      intro fuel acc ps _ _ _
      cases fuel <;> exact ⟨acc, rfl, by simp⟩
    | cons b codes ih =>
      intro fuel acc ps hb hl ⟨s0, hrun⟩
      have hb1 := hb b (by simp)
      have hm : ∀ top : St, top.munch initial (Trie.fromTokens toks)
          (escapeOf b ++ codes.flatMap escapeOf) = some (illegalTok initial b,
            codes.flatMap escapeOf, top.next b) :=
        fun top => munch_escape initial _ top b hb1 _
      have hcons : (b :: codes).flatMap escapeOf = escapeOf b ++ codes.flatMap escapeOf := rfl
      rw [hcons] at hl hrun ⊢
      obtain ⟨c, cs, hc⟩ : ∃ c cs, escapeOf b ++ codes.flatMap escapeOf = c :: cs :=
        ⟨_, _, rfl⟩
      have hlen : (escapeOf b).length ≥ 1 := by simp [escapeOf]
      rw [List.length_append] at hl
      obtain ⟨f, rfl⟩ : ∃ f, fuel = f + 1 := ⟨fuel - 1, by omega⟩
      have hne : acc.stack ≠ [] := by
        cases mode with
        | max =>
          obtain ⟨⟨n, hn⟩, _⟩ := hrun.plain (k := .maxMode) (Or.inl rfl) ⟨0, rfl⟩
          simp [hn]
        | string | min =>
          obtain ⟨⟨n, hn⟩, _⟩ := hrun.plain (k := .minMode) (Or.inr rfl) ⟨0, rfl⟩
          simp [hn]
        | smart =>
          obtain ⟨c, hc, _⟩ := hrun.smart (c := .outside) ⟨0, rfl⟩
          exact smartStack_nonempty hc
      obtain ⟨top, htop⟩ : ∃ top, acc.stack.getLast? = some top :=
        ⟨_, List.getLast?_eq_some_getLast hne⟩
      obtain ⟨base, hbase⟩ := List.getLast?_eq_some_iff.1 htop
      obtain ⟨text, literal, hsplit, hmunch, hlit, hctx, _⟩ :=
        munch_some initial toks top _ _ _ _ (hm top)
      have hnext : ∃ s0 ps', Run initial toks [mode.start] s0 ps'
          (acc.stack.dropLast ++ top.next b) (codes.flatMap escapeOf) := by
        have hstep : Run initial toks (base ++ [top]) (escapeOf b ++ codes.flatMap escapeOf)
            [(text, illegalTok initial b)] (base ++ top.next b) (codes.flatMap escapeOf) := by
          rw [hsplit] at hmunch hlit ⊢
          refine .next (by rw [← hsplit, hc]; simp) hmunch hlit ?_
          rw [hctx]; exact .done
        rw [hbase, List.dropLast_concat]
        rw [hbase] at hrun
        exact ⟨s0, _, hrun.trans hstep⟩
      obtain ⟨s1, ps', hrun'⟩ := hnext
      rw [hc, encodeLoop, htop]
      simp only
      rw [← hc, hm top]
      simp only
      obtain ⟨acc', h1, h2⟩ := ih f ⟨acc.data ++ (illegalTok initial b).bits,
        max (illegalTok initial b).since acc.since,
        acc.index + ((escapeOf b ++ codes.flatMap escapeOf).length -
          (codes.flatMap escapeOf).length), acc.stack.dropLast ++ top.next b⟩ ps'
        (fun x hx => hb x (by simp [hx])) (by omega) ⟨s1, hrun'⟩
      refine ⟨acc', h1, ?_⟩
      rw [h2]
      simp [illegalTok]
  obtain ⟨acc', h1, h2⟩ := aux codes _ ⟨[], initial, 0, [mode.start]⟩ [] hb (Nat.le_refl _)
    ⟨_, .done⟩
  unfold encode
  rw [h1]
  simp [Except.toOption, h2]

example : escapeOf [0xEF, 0x0A] = "\\uef0a".toList ∧
    (encode 0 (Trie.fromTokens exToks) .smart "A\\uef0aB".toList).map
      (fun r => r.toOption.map EncAcc.data) = some (some [0x41, 0xEF, 0x0A, 0x42]) := by
  decide +kernel

/-! ### C46 -/

/-- C46, decoding. The reported version is the greatest of the initial one and those of the tokens. -/
theorem C46_decode_since (initial : V) (tbl : TokTable V) (data : Bytes) :
    initial ≤ (decode initial tbl data).since ∧
    (∀ t ∈ (decode initial tbl data).out, t.since ≤ (decode initial tbl data).since) ∧
    ((decode initial tbl data).since = initial ∨
      ∃ t ∈ (decode initial tbl data).out, (decode initial tbl data).since = t.since) :=
  decodeLoop_since initial tbl data [] ⟨[], initial, []⟩ ⟨le_refl _, by simp, Or.inl rfl⟩

/-- C46, encoding. The reported version is the greatest of the initial one and those of the tokens
read. -/
theorem C46_encode_since (initial : V) (toks : List (Tok V × List Str)) (mode : EncMode) (s : Str)
    (acc : EncAcc V) (h : encode initial (Trie.fromTokens toks) mode s = some (.ok acc)) :
    ∃ ps, Pieces (IsPiece (illegalTok initial) (namePairs toks)) s ps [] ∧
      acc.data = (ps.flatMap fun p => p.2.bits) ∧
      initial ≤ acc.since ∧ (∀ p ∈ ps, p.2.since ≤ acc.since) ∧
      (acc.since = initial ∨ ∃ p ∈ ps, acc.since = p.2.since) := by
  obtain ⟨ps, hr, hd, hs⟩ := encodeLoop_outcome initial toks _ _ _ _ h
  have aux : ∀ (ts us : List (Tok V)) (v : V), SinceOk initial us v →
      SinceOk initial (us ++ ts) (ts.foldl (fun v t => max t.since v) v) := by
    intro ts
    induction ts with
    | nil => intro us v h; simpa using h
    | cons t ts ih =>
      intro us v h
      have := ih (us ++ [t]) _ (h.push t)
      simpa using this
  have hok := aux (ps.map Prod.snd) [] initial ⟨le_refl _, by simp, Or.inl rfl⟩
  rw [← hs] at hok
  obtain ⟨h1, h2, h3⟩ := hok
  refine ⟨ps, hr.pieces, ?_, h1, ?_, ?_⟩
  · rw [hd]
    simp [tokBytes, List.flatMap_map]
  · intro p hp
    exact h2 p.2 (by simpa using ⟨p.1, hp⟩)
  · rcases h3 with h3 | ⟨t, ht, h3⟩
    · exact Or.inl h3
    · simp only [List.nil_append, List.mem_map] at ht
      obtain ⟨p, hp, rfl⟩ := ht
      exact Or.inr ⟨p, hp, h3⟩

example : (decode 0 exTable [0xBB, 0xB0, 0x5F, 0x41]).since = 2 := by decide +kernel

/-! ### C67 -/

/-- C67 is false of the code: names are read minimally for one token more than the documented eight
(list: five). With the table of the examples, the sixth token of `|LAAAAAab` is read as `a` and not
as `ab`, so the output is not a reading with the documented limits. -/
theorem C67_name_limit_false :
    ∃ acc : EncAcc Nat,
      encode 0 (Trie.fromTokens exToks) .smart "|LAAAAAab".toList = some (.ok acc) ∧
      acc.data = [0xEB, 0x41, 0x41, 0x41, 0x41, 0x41, 0xBB, 0xB1, 0xBB, 0xB2] ∧
      ∀ ps c, SmartPieces 8 5 (illegalTok 0) Tok.bits (namePairs exToks) .outside
          "|LAAAAAab".toList ps c [] →
        (ps.flatMap fun p => p.2.bits) ≠ acc.data := by
  refine ⟨⟨[0xEB, 0x41, 0x41, 0x41, 0x41, 0x41, 0xBB, 0xB1, 0xBB, 0xB2], 4, 9, [⟨.smart, 1⟩]⟩,
    by decide +kernel, rfl, ?_⟩
  intro ps c h₀
  obtain ⟨t₁, ps₁, rfl, h₁⟩ := h₀.step 0 exToks (rem := "AAAAAab".toList) (tok := exTok [0xEB] "|L" 1)
    (ctx := [⟨.smart, 0⟩, ⟨.listName, 0⟩]) ⟨.smart, 0⟩ (by decide) rfl (by decide +kernel) (by decide +kernel)
  obtain ⟨t₂, ps₂, rfl, h₂⟩ := h₁.step 0 exToks (rem := "AAAAab".toList) (tok := exTok [0x41] "A" 0)
    (ctx := [⟨.listName, 1⟩]) ⟨.listName, 0⟩ (by decide) rfl (by decide +kernel) (by decide +kernel)
  obtain ⟨t₃, ps₃, rfl, h₃⟩ := h₂.step 0 exToks (rem := "AAAab".toList) (tok := exTok [0x41] "A" 0)
    (ctx := [⟨.listName, 1⟩]) ⟨.listName, 0⟩ (by decide) rfl (by decide +kernel) (by decide +kernel)
  obtain ⟨t₄, ps₄, rfl, h₄⟩ := h₃.step 0 exToks (rem := "AAab".toList) (tok := exTok [0x41] "A" 0)
    (ctx := [⟨.listName, 1⟩]) ⟨.listName, 0⟩ (by decide) rfl (by decide +kernel) (by decide +kernel)
  obtain ⟨t₅, ps₅, rfl, h₅⟩ := h₄.step 0 exToks (rem := "Aab".toList) (tok := exTok [0x41] "A" 0)
    (ctx := [⟨.listName, 1⟩]) ⟨.listName, 0⟩ (by decide) rfl (by decide +kernel) (by decide +kernel)
  obtain ⟨t₆, ps₆, rfl, h₆⟩ := h₅.step 0 exToks (rem := "ab".toList) (tok := exTok [0x41] "A" 0)
    (ctx := [⟨.listName, 1⟩]) ⟨.listName, 0⟩ (by decide) rfl (by decide +kernel) (by decide +kernel)
  obtain ⟨t₇, ps₇, rfl, h₇⟩ := h₆.step 0 exToks (rem := "".toList) (tok := exTok [0xBB, 0xB0] "ab" 2)
    (ctx := [⟨.smart, 1⟩]) ⟨.smart, 0⟩ (by decide) rfl (by decide +kernel) (by decide +kernel)
  simp [exTok]

/-- C67, partial: when every program name ends before its eighth token and every list name before
its fifth, smart mode reads the string exactly with the documented limits. Missing: longer
names. -/
theorem C67_name_limit_partial (initial : V) (toks : List (Tok V × List Str)) (s : Str)
    (acc : EncAcc V) (h : encode initial (Trie.fromTokens toks) .smart s = some (.ok acc)) :
    ∃ ps c, SmartPieces 9 6 (illegalTok initial) Tok.bits (namePairs toks) .outside s ps c [] ∧
      (acc.data = ps.flatMap fun p => p.2.bits) ∧
      (NamesFit 8 5 (ps.map fun p => p.2.bits) →
        SmartPieces 8 5 (illegalTok initial) Tok.bits (namePairs toks) .outside s ps c []) := by
  obtain ⟨ps, c, hp, hd⟩ := C44_smart_mode initial toks s acc h
  exact ⟨ps, c, hp, hd, fun hf => smartPieces_fit hp (by omega) (by omega) hf trivial⟩

end Verif
