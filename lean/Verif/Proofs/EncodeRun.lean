import Verif.Proofs.Encode

/- Helper lemmas about whole runs of the encoder. -/

namespace Verif
variable {V : Type} [LinearOrder V]

/-- A sequence of iterations of the encoding loop: from a stack and a string, through the pieces
read, to a stack and the string that is left. -/
inductive Run (initial : V) (toks : List (Tok V × List Str)) :
    List St → Str → List (Str × Tok V) → List St → Str → Prop
  | done {stk s} : Run initial toks stk s [] stk s
  | next {base top s tok text literal ps stk' s'} :
      text ++ s ≠ [] →
      IsMunch (illegalTok initial) (namePairs toks) top.kind.minimal (text ++ s) text tok →
      (literal = true ↔ StartsLiteral (text ++ s)) →
      Run initial toks (base ++ munchCtx top literal tok.bits) s ps stk' s' →
      Run initial toks (base ++ [top]) (text ++ s) ((text, tok) :: ps) stk' s'

omit [LinearOrder V] in
theorem Run.trans {initial : V} {toks : List (Tok V × List Str)} {k₁ k₂ k₃ : List St}
    {s₁ s₂ s₃ : Str} {ps qs : List (Str × Tok V)} (h : Run initial toks k₁ s₁ ps k₂ s₂)
    (h' : Run initial toks k₂ s₂ qs k₃ s₃) : Run initial toks k₁ s₁ (ps ++ qs) k₃ s₃ := by
  induction h with
  | done => exact h'
  | next h1 h2 h3 _ ih => exact .next h1 h2 h3 (ih h')

/-- What a finished encoding loop amounts to. -/
def LoopOutcome (initial : V) (toks : List (Tok V × List Str)) (s : Str) (acc : EncAcc V) :
    Except EncErr (EncAcc V) → Prop
  | .ok acc' => ∃ ps, Run initial toks acc.stack s ps acc'.stack [] ∧
      acc'.data = acc.data ++ tokBytes (ps.map Prod.snd) ∧
      acc'.since = (ps.map Prod.snd).foldl (fun v t => max t.since v) acc.since
  | .error (.noToken i) => ∃ ps base top rest,
      Run initial toks acc.stack s ps (base ++ [top]) rest ∧ rest ≠ [] ∧
      i + rest.length = acc.index + s.length ∧
      ∀ text tok, ¬ IsPiece (illegalTok initial) (namePairs toks) rest text tok
  | .error (.stackConsumed _) => ∃ ps rest, Run initial toks acc.stack s ps [] rest
  | .error .badMode => False

theorem encodeLoop_outcome (initial : V) (toks : List (Tok V × List Str)) (fuel : Nat) (s : Str)
    (acc : EncAcc V) (r : Except EncErr (EncAcc V))
    (h : encodeLoop initial (Trie.fromTokens toks) fuel s acc = some r) :
    LoopOutcome initial toks s acc r := by
  induction fuel generalizing s acc with
  | zero =>
    cases s with
    | nil =>
      simp only [encodeLoop, Option.some.injEq] at h
      subst h
      exact ⟨[], .done, by simp, rfl⟩
    | cons c cs => simp [encodeLoop] at h
  | succ fuel ih =>
    cases s with
    | nil =>
      simp only [encodeLoop, Option.some.injEq] at h
      subst h
      exact ⟨[], .done, by simp, rfl⟩
    | cons c cs =>
      rw [encodeLoop] at h
      split at h
      · rename_i hs
        simp only [Option.some.injEq] at h
        subst h
        rw [List.getLast?_eq_none_iff] at hs
        refine ⟨[], c :: cs, ?_⟩
        rw [hs]; exact .done
      · rename_i top hs
        obtain ⟨base, hbase⟩ := List.getLast?_eq_some_iff.1 hs
        split at h
        · rename_i hm
          simp only [Option.some.injEq] at h
          subst h
          refine ⟨[], base, top, c :: cs, ?_, by simp, rfl, munch_none initial toks top _ hm⟩
          rw [hbase]; exact .done
        · rename_i token rem ctx hm
          obtain ⟨text, literal, hsplit, hmunch, hlit, hctx, hsince⟩ :=
            munch_some initial toks top _ _ _ _ hm
          have := ih _ _ h
          rw [hbase, List.dropLast_concat, hctx] at this
          have hne : text ++ rem ≠ [] := by rw [← hsplit]; simp
          have hlen : (c :: cs).length = text.length + rem.length := by
            rw [hsplit, List.length_append]
          match r, this with
          | .ok acc', ⟨ps, hrun, hd, hsi⟩ =>
            refine ⟨(text, token) :: ps, ?_, ?_, ?_⟩
            · rw [hbase, hsplit]
              rw [hsplit] at hmunch hlit
              exact .next hne hmunch hlit hrun
            · rw [hd]
              show acc.data ++ token.bits ++ _ = acc.data ++ (token.bits ++ _)
              rw [List.append_assoc]; rfl
            · rw [hsi]; rfl
          | .error (.noToken i), ⟨ps, base', top', rest, hrun, hr, hi, hp⟩ =>
            refine ⟨(text, token) :: ps, base', top', rest, ?_, hr, ?_, hp⟩
            · rw [hbase, hsplit]
              rw [hsplit] at hmunch hlit
              exact .next hne hmunch hlit hrun
            · simp only at hi
              rw [hlen] at hi ⊢
              omega
          | .error (.stackConsumed _), ⟨ps, rest, hrun⟩ =>
            refine ⟨(text, token) :: ps, rest, ?_⟩
            rw [hbase, hsplit]
            rw [hsplit] at hmunch hlit
            exact .next hne hmunch hlit hrun

omit [LinearOrder V] in
/-- The remainder is never longer, and shorter if no name is empty. -/
theorem munch_progress (initial : V) (toks : List (Tok V × List Str)) (top : St) (s : Str)
    (hnames : ∀ p ∈ toks, [] ∉ p.2) (tok : Tok V) (rem : Str) (ctx : List St)
    (h : top.munch initial (Trie.fromTokens toks) s = some (tok, rem, ctx)) :
    rem.length < s.length := by
  obtain ⟨text, literal, hsplit, ⟨hpiece, _⟩, hlit, _, hs⟩ := munch_some initial toks top _ _ _ _ h
  have ht : text ≠ [] := by
    rcases hpiece with ⟨_, ⟨hl, _⟩, _⟩ | ⟨_, _, hnm⟩
    · rcases hl with ⟨r, hs', rfl⟩ | ⟨r, hs', rfl⟩ <;> simp [hs']
    · rintro rfl
      unfold named at hnm
      cases hf : (namePairs toks).reverse.find? (fun p => p.1 == []) with
      | none => rw [hf] at hnm; simp at hnm
      | some q =>
        have hq : q.1 = [] := by simpa using List.find?_some hf
        have hqm : q ∈ namePairs toks := by simpa using List.mem_of_find?_eq_some hf
        simp only [namePairs, List.mem_flatMap, List.mem_map] at hqm
        obtain ⟨p, hp, n, hn, rfl⟩ := hqm
        simp only at hq
        subst hq
        exact hnames p hp hn
  have : 0 < text.length := List.length_pos_iff.2 ht
  rw [hsplit, List.length_append]
  omega

theorem encodeLoop_terminates (initial : V) (toks : List (Tok V × List Str))
    (hnames : ∀ p ∈ toks, [] ∉ p.2) (fuel : Nat) (s : Str) (acc : EncAcc V)
    (h : s.length ≤ fuel) : encodeLoop initial (Trie.fromTokens toks) fuel s acc ≠ none := by
  induction fuel generalizing s acc with
  | zero =>
    cases s with
    | nil => simp [encodeLoop]
    | cons c cs => simp at h
  | succ fuel ih =>
    cases s with
    | nil => simp [encodeLoop]
    | cons c cs =>
      rw [encodeLoop]
      split
      · simp
      · split
        · simp
        · rename_i token rem ctx hm
          have := munch_progress initial toks _ _ hnames _ _ _ hm
          apply ih
          simp at this h
          omega

/-! ### Invariants of runs -/

omit [LinearOrder V] in
theorem Run.pieces {initial : V} {toks : List (Tok V × List Str)} {stk s ps stk' s'}
    (h : Run initial toks stk s ps stk' s') :
    Pieces (IsPiece (illegalTok initial) (namePairs toks)) s ps s' := by
  induction h with
  | done => exact .done
  | next _ hm _ _ ih => exact .next hm.1 ih

/-- In the plain modes the stack is always a single state of the same class. -/
def PlainStack (k : StKind) (stk : List St) : Prop := ∃ n, stk = [⟨k, n⟩]

omit [LinearOrder V] in
theorem Run.plain {initial : V} {toks : List (Tok V × List Str)} {stk s ps stk' s'} {k : StKind}
    (hk : k = .maxMode ∨ k = .minMode)
    (h : Run initial toks stk s ps stk' s') (hs : PlainStack k stk) :
    PlainStack k stk' ∧ Pieces (IsMunch (illegalTok initial) (namePairs toks) k.minimal) s ps s' := by
  induction h with
  | done => exact ⟨hs, .done⟩
  | @next base top s tok text literal ps stk' s' hne hm hl _ ih =>
    obtain ⟨n, hn⟩ := hs
    have hb : base = [] := by
      have := congrArg List.length hn
      simp at this
      exact this
    subst hb
    simp only [List.nil_append, List.cons.injEq, and_true] at hn
    subst hn
    have hctx : munchCtx ⟨k, n⟩ literal tok.bits = [⟨k, n + 1⟩] := by
      rcases hk with rfl | rfl <;> simp [munchCtx, StKind.maxLength, St.next, St.again]
    rw [hctx] at ih
    obtain ⟨h1, h2⟩ := ih ⟨n + 1, rfl⟩
    exact ⟨h1, .next hm h2⟩

/-- The stack of smart mode in each context. -/
def SmartStack (c : Ctx) (stk : List St) : Prop :=
  ∃ k, match c with
    | .outside => stk = [⟨.smart, k⟩]
    | .str => ∃ n, stk = [⟨.smart, k⟩, ⟨.string, n⟩]
    | .sendStart => ∃ n, stk = [⟨.smart, k⟩, ⟨.interpStart, n⟩]
    | .sendStr => ∃ n, stk = [⟨.smart, k⟩, ⟨.interpolated, n⟩]
    | .prog n => stk = [⟨.smart, k⟩, ⟨.programName, n⟩]
    | .list n => stk = [⟨.smart, k⟩, ⟨.listName, n⟩]

theorem smartStack_top {c : Ctx} {base : List St} {top : St} (h : SmartStack c (base ++ [top])) :
    top.kind.minimal = c.minimal := by
  obtain ⟨k, h⟩ := h
  cases c with
  | outside =>
    have hb : base = [] := by
      have := congrArg List.length h
      simpa using this
    subst hb
    simp only [List.nil_append, List.cons.injEq, and_true] at h
    subst h; rfl
  | str | sendStart | sendStr =>
    obtain ⟨n, h⟩ := h
    have := congrArg List.getLast? h
    simp at this
    subst this; rfl
  | prog n | list n =>
    have := congrArg List.getLast? h
    simp at this
    subst this; rfl

theorem bytesLe_cons_single (a : UInt8) (bits : Bytes) :
    bytesLe [a] bits = match bits with
      | [] => false
      | b :: _ => decide (a ≤ b) := by
  cases bits with
  | nil => rfl
  | cons b bs =>
    simp only [bytesLe]
    by_cases h1 : a < b
    · simp [h1, UInt8.le_of_lt h1]
    · by_cases h2 : b < a
      · have : ¬ a ≤ b := by rw [UInt8.not_le]; exact h2
        simp [h1, h2, this]
      · have : a ≤ b := by rw [← UInt8.not_lt]; exact h2
        simp [h1, h2, this]

theorem bytesLe_single (a : UInt8) (bits : Bytes) :
    bytesLe bits [a] = match bits with
      | [] => true
      | [b] => decide (b ≤ a)
      | b :: _ => decide (b < a) := by
  match bits with
  | [] => rfl
  | [b] =>
    simp only [bytesLe]
    by_cases h1 : b < a
    · simp [h1, UInt8.le_of_lt h1]
    · by_cases h2 : a < b
      · have : ¬ b ≤ a := by rw [UInt8.not_le]; exact h2
        simp [h1, h2, this]
      · have : b ≤ a := by rw [← UInt8.not_lt]; exact h2
        simp [h1, h2, this]
  | b :: c :: bs =>
    simp only [bytesLe]
    by_cases h1 : b < a
    · simp [h1]
    · by_cases h2 : a < b <;> simp [h1, h2]

theorem isNameCode_eq (bits : Bytes) :
    ((bytesLe [0x30] bits && bytesLe bits [0x39]) ||
       (bytesLe [0x41] bits && bytesLe bits [0x5B])) = isNameCode bits := by
  rw [bytesLe_cons_single, bytesLe_single, bytesLe_cons_single, bytesLe_single]
  match bits with
  | [] => rfl
  | [b] => simp only [isNameCode, UInt8.le_iff_toNat_le]; rfl
  | b :: c :: bs =>
    simp only [isNameCode, UInt8.le_iff_toNat_le, UInt8.lt_iff_toNat_lt]
    have h1 : (b.toNat < (0x39 : UInt8).toNat) = (b.toNat ≤ 0x38) := by
      apply propext; show b.toNat < 57 ↔ _; omega
    have h2 : (b.toNat < (0x5B : UInt8).toNat) = (b.toNat ≤ 0x5A) := by
      apply propext; show b.toNat < 91 ↔ _; omega
    simp only [h1, h2]; rfl

theorem lineNext_name {s : St} {bits : Bytes} (h : isNameCode bits = true) :
    s.lineNext bits = s.again := by
  unfold St.lineNext
  rw [if_neg]
  rintro (rfl | rfl) <;> simp [isNameCode] at h

theorem smartStack_step {c : Ctx} {base : List St} {top : St} (literal : Bool) (bits : Bytes)
    (h : SmartStack c (base ++ [top])) :
    SmartStack (c.step 9 6 literal bits) (base ++ munchCtx top literal bits) := by
  obtain ⟨k, h⟩ := h
  cases c with
  | outside =>
    have hb : base = [] := by
      have := congrArg List.length h
      simpa using this
    subst hb
    simp only [List.nil_append, List.cons.injEq, and_true] at h
    subst h
    simp only [List.nil_append, munchCtx, StKind.maxLength, reduceCtorEq, and_false, if_false,
      St.next, Ctx.step]
    split
    · exact ⟨k, 0, rfl⟩
    · split
      · exact ⟨k, rfl⟩
      · split
        · exact ⟨k, 0, rfl⟩
        · split
          · exact ⟨k, rfl⟩
          · exact ⟨k + 1, rfl⟩
  | str =>
    obtain ⟨n, h⟩ := h
    have hb : base ++ [top] = [⟨.smart, k⟩] ++ [⟨.string, n⟩] := h
    obtain ⟨rfl, ht⟩ := List.append_inj' hb rfl
    simp only [List.cons.injEq, and_true] at ht
    subst ht
    simp only [munchCtx, StKind.maxLength, reduceCtorEq, and_false, if_false, St.next, Ctx.step,
      St.lineNext, St.again]
    by_cases h1 : bits = [0x2A]
    · rw [if_pos h1, if_pos (Or.inl h1)]; exact ⟨k, rfl⟩
    · rw [if_neg h1]
      by_cases h2 : bits = [0x04] ∨ bits = [0x3F]
      · rw [if_pos h2, if_pos (Or.inr h2)]; exact ⟨k, rfl⟩
      · rw [if_neg h2, if_neg (by rintro (h | h); exacts [h1 h, h2 h])]; exact ⟨k, n + 1, rfl⟩
  | sendStart =>
    obtain ⟨n, h⟩ := h
    have hb : base ++ [top] = [⟨.smart, k⟩] ++ [⟨.interpStart, n⟩] := h
    obtain ⟨rfl, ht⟩ := List.append_inj' hb rfl
    simp only [List.cons.injEq, and_true] at ht
    subst ht
    simp only [munchCtx, StKind.maxLength, reduceCtorEq, and_false, if_false, St.next, Ctx.step]
    split
    · exact ⟨k, 0, rfl⟩
    · exact ⟨k, rfl⟩
  | sendStr =>
    obtain ⟨n, h⟩ := h
    have hb : base ++ [top] = [⟨.smart, k⟩] ++ [⟨.interpolated, n⟩] := h
    obtain ⟨rfl, ht⟩ := List.append_inj' hb rfl
    simp only [List.cons.injEq, and_true] at ht
    subst ht
    simp only [munchCtx, StKind.maxLength, reduceCtorEq, and_false, if_false, St.next, Ctx.step,
      St.lineNext, St.again]
    by_cases h1 : bits = [0x2A]
    · rw [if_pos h1, if_pos (Or.inl h1)]; exact ⟨k, rfl⟩
    · rw [if_neg h1]
      by_cases h2 : bits = [0x04] ∨ bits = [0x3F]
      · rw [if_pos h2, if_pos (Or.inr h2)]; exact ⟨k, rfl⟩
      · rw [if_neg h2, if_neg (by rintro (h | h); exacts [h1 h, h2 h])]; exact ⟨k, n + 1, rfl⟩
  | prog n =>
    have hb : base ++ [top] = [⟨.smart, k⟩] ++ [⟨.programName, n⟩] := h
    obtain ⟨rfl, ht⟩ := List.append_inj' hb rfl
    simp only [List.cons.injEq, and_true] at ht
    subst ht
    simp only [munchCtx, StKind.maxLength, St.next, Ctx.step, nameStep, Option.some.injEq,
      isNameCode_eq, Nat.reduceEqDiff]
    split
    · exact ⟨k, rfl⟩
    · split
      · rename_i hn
        rw [lineNext_name hn]; exact ⟨k, rfl⟩
      · exact ⟨k, rfl⟩
  | list n =>
    have hb : base ++ [top] = [⟨.smart, k⟩] ++ [⟨.listName, n⟩] := h
    obtain ⟨rfl, ht⟩ := List.append_inj' hb rfl
    simp only [List.cons.injEq, and_true] at ht
    subst ht
    simp only [munchCtx, StKind.maxLength, St.next, Ctx.step, nameStep, Option.some.injEq,
      isNameCode_eq, Nat.reduceEqDiff]
    split
    · exact ⟨k, rfl⟩
    · split
      · rename_i hn
        rw [lineNext_name hn]; exact ⟨k, rfl⟩
      · exact ⟨k, rfl⟩

omit [LinearOrder V] in
theorem Run.smart {initial : V} {toks : List (Tok V × List Str)} {stk s ps stk' s'} {c : Ctx}
    (h : Run initial toks stk s ps stk' s') (hs : SmartStack c stk) :
    ∃ c', SmartStack c' stk' ∧ SmartPieces 9 6 (illegalTok initial) Tok.bits (namePairs toks) c s ps c' s' := by
  induction h generalizing c with
  | done => exact ⟨c, hs, .done⟩
  | @next base top s tok text literal ps stk' s' hne hm hl _ ih =>
    obtain ⟨c', h1, h2⟩ := ih (smartStack_step literal tok.bits hs)
    refine ⟨c', h1, .next ?_ hl h2⟩
    rw [← smartStack_top hs]; exact hm

theorem smartStack_nonempty {c : Ctx} {stk : List St} (h : SmartStack c stk) : stk ≠ [] := by
  obtain ⟨k, h⟩ := h
  cases c with
  | outside | prog n | list n => simp [h]
  | str | sendStart | sendStr => obtain ⟨n, h⟩ := h; simp [h]

end Verif
