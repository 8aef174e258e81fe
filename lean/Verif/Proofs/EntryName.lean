import Verif.Model.EntryName
import Verif.Spec.EntryName
import Verif.Proofs.Unique
import Verif.Proofs.EncodeRun
import Verif.Proofs.Tokenized

/-! Helper lemmas about names of entries. -/

namespace Verif
open Spec Ent
variable {V : Type} [LinearOrder V]

/-- Where reading pieces stopped, the rest can be read as the whole could. -/
theorem Pieces.rest {τ : Type} {lit : Bytes → τ} {tbl : List (Str × τ)} {m : Bool} (he : named tbl [] = none) {s : Str}
    {ps qs : List (Str × τ)} {rest : Str} (h₁ : Pieces (IsMunch lit tbl m) s ps rest)
    (h₂ : Pieces (IsMunch lit tbl m) s qs []) : ∃ rs, Pieces (IsMunch lit tbl m) rest rs [] := by
  induction h₁ generalizing qs with
  | done => exact ⟨qs, h₂⟩
  | @next s text t ps rest hm hp ih =>
    generalize hs : text ++ s = z at h₂
    cases h₂ with
    | done => exact absurd (List.append_eq_nil_iff.1 hs).1 (hm.nonempty he)
    | @next s' text' t' qs _ hm' hp' =>
      rw [← hs] at hm'
      obtain ⟨rfl, rfl⟩ := hm.unique hm'
      have hss := append_inj_left hs rfl
      subst hss
      exact ih hp'

/-- The mode of names. -/
def entryNameMode (shortest : Bool) : EncMode := if shortest then .string else .max

omit [LinearOrder V] in
theorem names_nil {toks : List (Tok V × List Str)} (h : ∀ p ∈ toks, [] ∉ p.2) : named (namePairs toks) [] = none := by
  apply named_nil
  intro p hp
  simp only [namePairs, List.mem_flatMap, List.mem_map] at hp
  obtain ⟨q, hq, n, hn, rfl⟩ := hp
  intro h0
  simp only at h0
  exact h q hq (h0 ▸ hn)

/-- A text that can be read as tokens is encoded as these. -/
theorem encode_reads {initial : V} {toks : List (Tok V × List Str)} (hn : ∀ p ∈ toks, [] ∉ p.2) {shortest : Bool} {text : Str}
    {ts : List (Tok V)} (h : ReadAs initial toks shortest text ts) :
    ∃ acc, encode initial (Trie.fromTokens toks) (entryNameMode shortest) text = some (.ok acc) ∧ acc.data = codes ts := by
  obtain ⟨ps, hp, rfl⟩ := h
  have he := names_nil hn
  rcases hr : encode initial (Trie.fromTokens toks) (entryNameMode shortest) text with _ | r
  · exact absurd hr (encodeLoop_terminates initial toks hn _ _ _ (Nat.le_refl _))
  have hout := encodeLoop_outcome initial toks _ _ _ _ hr
  have hk : (entryNameMode shortest).start.kind = .maxMode ∨ (entryNameMode shortest).start.kind = .minMode := by
    cases shortest
    · exact Or.inl rfl
    · exact Or.inr rfl
  have hmin : (entryNameMode shortest).start.kind.minimal = shortest := by cases shortest <;> rfl
  have hst : PlainStack (entryNameMode shortest).start.kind [(entryNameMode shortest).start] := by
    cases shortest <;> exact ⟨0, rfl⟩
  match r, hout with
  | .ok acc, ⟨qs, hrun, hd, _⟩ =>
    have := (hrun.plain hk hst).2
    rw [hmin] at this
    have := Pieces.unique he this rfl hp
    subst this
    refine ⟨acc, rfl, ?_⟩
    rw [hd]
    simp [codes, tokBytes]
  | .error (.noToken i), ⟨qs, base, top, rest, hrun, hne, _, hno⟩ =>
    have := (hrun.plain hk hst).2
    rw [hmin] at this
    obtain ⟨rs, hrs⟩ := this.rest he hp
    generalize hz : ([] : Str) = z at hrs
    cases hrs with
    | done => exact absurd hz.symm hne
    | next hm _ => exact absurd hm.1 (hno _ _)
  | .error (.stackConsumed _), ⟨qs, rest, hrun⟩ =>
    obtain ⟨n, hn⟩ := (hrun.plain hk hst).1
    simp at hn

/-- A text that cannot be read as tokens is not encoded. -/
theorem encode_unread {initial : V} {toks : List (Tok V × List Str)} {shortest : Bool} {text : Str}
    (h : ∀ ts, ¬ ReadAs initial toks shortest text ts) (acc : EncAcc V) :
    encode initial (Trie.fromTokens toks) (entryNameMode shortest) text ≠ some (.ok acc) := by
  intro hr
  obtain ⟨ps, hrun, -⟩ := encodeLoop_outcome initial toks _ _ _ _ hr
  have := (hrun.plain (k := (entryNameMode shortest).start.kind) (by cases shortest <;> simp [entryNameMode, EncMode.start])
    (by cases shortest <;> exact ⟨0, rfl⟩)).2
  refine h _ ⟨ps, ?_, rfl⟩
  have hmin : (entryNameMode shortest).start.kind.minimal = shortest := by cases shortest <;> rfl
  rw [hmin] at this
  exact this

/-! ### Zeros at the end -/

theorem rstrip_zeros (d : Bytes) : ∃ n, d = rstripNul d ++ List.replicate n 0 ∧ (∀ x, (rstripNul d).getLast? = some x → x ≠ 0) := by
  have h : ∀ l : Bytes, ∃ n, l = List.replicate n 0 ++ l.dropWhile (· == 0) ∧
      (∀ x, (l.dropWhile (· == 0)).head? = some x → x ≠ 0) := by
    intro l
    induction l with
    | nil => exact ⟨0, rfl, by simp⟩
    | cons a l ih =>
      by_cases ha : a = 0
      · obtain ⟨n, hn, hx⟩ := ih
        refine ⟨n + 1, ?_, ?_⟩
        · subst ha
          simp only [List.replicate_succ, List.cons_append, List.cons.injEq, true_and]
          simpa using hn
        · simpa [ha] using hx
      · refine ⟨0, by simp [ha], by simp [ha]⟩
  obtain ⟨n, hn, hx⟩ := h d.reverse
  refine ⟨n, ?_, ?_⟩
  · have := congrArg List.reverse hn
    simpa [rstripNul] using this
  · intro x hxl
    apply hx x
    simpa [rstripNul] using hxl

theorem ljust_eight (d : Bytes) (h : d.length ≤ 8) : ljust 8 d = eight d := by
  unfold ljust eight
  rw [List.take_of_length_le h]

/-- What is left after stripping zeros is padded to the same eight bytes, unless something is cut. -/
theorem fit_name (d : Bytes) :
    fitWidth (some 8) (rstripNul d) () =
      ⟨.ok (eight d), (), if ∃ x ∈ d.drop 8, x ≠ 0 then [.tooWide] else []⟩ := by
  obtain ⟨n, hd, hl⟩ := rstrip_zeros d
  generalize rstripNul d = r at hd hl
  subst hd
  unfold fitWidth
  by_cases h : r.length > 8
  · simp only [if_pos h]
    have hx : ∃ x ∈ (r ++ List.replicate n 0).drop 8, x ≠ 0 := by
      rcases hg : r.getLast? with _ | x
      · rw [List.getLast?_eq_none_iff] at hg
        subst hg
        simp at h
      · refine ⟨x, ?_, hl x hg⟩
        rw [List.drop_append_of_le_length (by omega)]
        apply List.mem_append_left
        have h2 : (r.drop 8).getLast? = some x := by
          rw [List.getLast?_drop, if_neg (by omega)]
          exact hg
        exact List.mem_of_getLast? h2
    rw [if_pos hx]
    simp only [PyM.bind_run, PyM.warn_run, PyM.pure_run]
    congr 1
    unfold ljust eight
    rw [List.take_append_of_le_length (by omega)]
    simp only [List.length_take, List.length_append, List.length_replicate]
    rw [show 8 - min 8 r.length = 0 by omega, show 8 - (r.length + n) = 0 by omega]
  · simp only [if_neg h]
    have hx : ¬ ∃ x ∈ (r ++ List.replicate n 0).drop 8, x ≠ 0 := by
      rintro ⟨x, hx, h0⟩
      rw [List.drop_append, List.drop_eq_nil_of_le (by omega : r.length ≤ 8)] at hx
      simp only [List.nil_append, List.drop_replicate, List.mem_replicate] at hx
      exact h0 hx.2
    rw [if_neg hx, PyM.pure_run]
    congr 2
    unfold ljust eight
    rw [List.take_append, List.take_of_length_le (by omega : r.length ≤ 8), List.take_replicate, List.append_assoc,
      List.replicate_append_replicate]
    congr 2
    simp only [List.length_append, List.length_replicate]
    omega

theorem prefix_strip (b : UInt8) (hb : b ≠ 0) (d : Bytes) : [b].isPrefixOf (rstripNul d) = decide (d.head? = some b) := by
  obtain ⟨n, hd, -⟩ := rstrip_zeros d
  generalize rstripNul d = r at hd
  subst hd
  rcases r with _ | ⟨x, r⟩
  · rcases n with _ | n
    · rfl
    · simp [List.replicate_succ, List.isPrefixOf, Ne.symm hb]
  · simp only [List.isPrefixOf, List.cons_append, List.head?_cons, Option.some.injEq, Bool.and_true]
    by_cases h : b = x
    · simp [h]
    · simp [h, Ne.symm h]

/-! ### Reading -/

theorem decode_zeros (initial : V) (tbl : TokTable V) (n : Nat) (curr : Bytes) (hc : ∀ x ∈ curr, x = 0) (acc : DecAcc V) :
    decodeLoop initial tbl (List.replicate n 0) curr acc = acc := by
  induction n generalizing curr with
  | zero => rfl
  | succ n ih =>
    rw [List.replicate_succ, decodeLoop]
    have h0 : (curr ++ [(0 : UInt8)]).headD 0 = 0 := by
      rcases curr with _ | ⟨x, r⟩
      · rfl
      · simpa using hc x (by simp)
    rw [if_neg (by simpa using h0), if_neg (by simp)]
    apply ih
    intro x hx
    rcases List.mem_append.1 hx with h | h
    · exact hc x h
    · simpa using h

theorem decode_tokens_then (initial : V) {tbl : TokTable V} (h : PrefixFree tbl) (rest : Bytes) (ts : List (Tok V))
    (hts : ∀ t ∈ ts, t ∈ tbl) (acc : DecAcc V) : ∃ since,
    decodeLoop initial tbl (codes ts ++ rest) [] acc = decodeLoop initial tbl rest [] ⟨acc.out ++ ts, since, acc.warns⟩ := by
  induction ts generalizing acc with
  | nil => exact ⟨acc.since, by simp [codes]⟩
  | cons t ts ih =>
    have ht : t ∈ tbl := hts t (by simp)
    obtain ⟨hl, h0, hp⟩ := h t ht
    have hf := h.find ht
    obtain ⟨since, ih'⟩ := ih (fun u hu => hts u (by simp [hu])) ⟨acc.out ++ [t], max t.since acc.since, acc.warns⟩
    refine ⟨since, ?_⟩
    have hb : codes (t :: ts) ++ rest = t.bits ++ (codes ts ++ rest) := by simp [codes]
    rw [hb]
    rcases hl with hl | hl
    · obtain ⟨b, hbits⟩ := List.length_eq_one_iff.1 hl
      rw [hbits] at h0 hf
      rw [hbits, List.singleton_append, decodeLoop]
      rw [if_pos (by simpa using h0)]
      simp only [List.nil_append, decodeStep, hf]
      rw [ih']; simp
    · obtain ⟨b, b', hbits⟩ : ∃ b b', t.bits = [b, b'] := by
        match t.bits, hl with
        | [b, b'], _ => exact ⟨b, b', rfl⟩
      rw [hbits] at h0 hf hp
      have hn : tbl.find [b] = none := by
        rcases hq : tbl.find [b] with _ | u
        · rfl
        · exfalso
          obtain ⟨hub, hum⟩ := find_bits hq
          have := (h u hum).2.2 t ht (by rw [hub, hbits]; exact ⟨[b'], rfl⟩)
          rw [this, hbits] at hub
          simp at hub
      rw [hbits]
      simp only [List.cons_append, List.nil_append]
      rw [decodeLoop, if_pos (by simpa using h0)]
      simp only [List.nil_append, decodeStep, hn]
      rw [if_neg (by simp), decodeLoop, if_pos (by simpa using h0)]
      simp only [List.cons_append, List.nil_append, decodeStep, hf]
      rw [ih']; simp

theorem decode_name (env : Env V) (htbl : PrefixFree env.table) {ts : List (Tok V)} (hts : ∀ t ∈ ts, t ∈ env.table) (n : Nat) :
    (decode env.initial env.table (codes ts ++ List.replicate n 0)).out = ts ∧
    (decode env.initial env.table (codes ts ++ List.replicate n 0)).warns = [] := by
  obtain ⟨since, h⟩ := decode_tokens_then env.initial htbl (List.replicate n 0) ts hts ⟨[], env.initial, []⟩
  unfold decode
  rw [h, decode_zeros _ _ _ _ (by simp)]
  exact ⟨by simp, rfl⟩

theorem tokenText_codes (env : Env V) (htbl : PrefixFree env.table) {ts : List (Tok V)} (hts : ∀ t ∈ ts, t ∈ env.table)
    (hl : (codes ts).length ≤ 8) : tokenText env (eight (codes ts)) = ([], ts.flatMap Tok.display) := by
  unfold tokenText
  have h8 : ljust 8 (eight (codes ts)) = codes ts ++ List.replicate (8 - (codes ts).length) 0 := by
    unfold ljust eight
    rw [List.take_of_length_le hl]
    simp only [List.length_append, List.length_replicate]
    rw [show 8 - ((codes ts).length + (8 - (codes ts).length)) = 0 by omega]
    simp
  obtain ⟨h1, h2⟩ := decode_name env htbl hts (8 - (codes ts).length)
  simp only [h8, h1, h2]

/-! ### Spellings -/

theorem theta_sub (s : Str) : thetaSub s = smallTheta s := by
  unfold thetaSub smallTheta
  apply List.map_congr_left
  intro c _
  have h (d : Char) : (c.toNat = d.toNat) = (c = d) := by
    apply propext
    constructor
    · intro h
      rw [← Char.ofNat_toNat c, h, Char.ofNat_toNat]
    · rintro rfl
      rfl
  have h1 := h 'Θ'
  have h2 := h 'ϴ'
  have h3 := h 'ᶿ'
  simp only [show 'Θ'.toNat = 0x398 by rfl] at h1
  simp only [show 'ϴ'.toNat = 0x3F4 by rfl] at h2
  simp only [show 'ᶿ'.toNat = 0x1DBF by rfl] at h3
  simp only [h1, h2, h3]

theorem upper_ascii {c : Char} (h : c.toNat < 128) : upperChar c = c.toUpper := by
  obtain ⟨n, hn, rfl⟩ : ∃ n, n < 128 ∧ c = Char.ofNat n := ⟨c.toNat, h, (Char.ofNat_toNat c).symm⟩
  revert n
  decide +kernel

theorem lower_ascii {c : Char} (h : c.toNat < 128) : lowerChar c = c.toLower := by
  obtain ⟨n, hn, rfl⟩ : ∃ n, n < 128 ∧ c = Char.ofNat n := ⟨c.toNat, h, (Char.ofNat_toNat c).symm⟩
  revert n
  decide +kernel

theorem capitalize_ascii {v : Str} (h : ∀ x ∈ v, x.toNat < 128) : capitalize v = capital v := by
  cases v with
  | nil => rfl
  | cons x xs =>
    simp only [capitalize, capital, upper_ascii (h x (by simp)), List.cons.injEq, true_and]
    exact List.map_congr_left fun y hy => lower_ascii (h y (by simp [hy]))

theorem digit_iff (d : Char) : isDig d = true ↔ '0' ≤ d ∧ d ≤ '9' := by
  simp [isDig]

theorem equationMatch_some {v n : Str} (h : equationMatch v = some n) : CurveName n ∧ v ∈ braced n := by
  have key : ∀ s m : Str, equationGroup s = some m → CurveName m ∧ (s = m ∨ s = m ++ ['}']) := by
    intro s m h
    unfold equationGroup at h
    split at h
    · rename_i a d rest
      split at h
      · rename_i hh
        have hd := (digit_iff d).1 hh.2
        split at h <;> simp only [Option.some.injEq, reduceCtorEq] at h
        all_goals subst h
        · exact ⟨⟨a, d, hh.1, hd.1, hd.2, Or.inl rfl⟩, Or.inl rfl⟩
        · exact ⟨⟨a, d, hh.1, hd.1, hd.2, Or.inl rfl⟩, Or.inr rfl⟩
        · exact ⟨⟨a, d, hh.1, hd.1, hd.2, Or.inr rfl⟩, Or.inl rfl⟩
        · exact ⟨⟨a, d, hh.1, hd.1, hd.2, Or.inr rfl⟩, Or.inr rfl⟩
      · cases h
    · cases h
  unfold equationMatch at h
  split at h
  · rename_i r
    obtain ⟨h1, h2⟩ := key r n h
    refine ⟨h1, ?_⟩
    rcases h2 with rfl | rfl <;> simp [braced]
  · obtain ⟨h1, h2⟩ := key v n h
    refine ⟨h1, ?_⟩
    rcases h2 with rfl | rfl <;> simp [braced]

theorem equationMatch_braced {v n : Str} (hn : CurveName n) (hv : v ∈ braced n) : equationMatch v = some n := by
  obtain ⟨a, d, ha, h0, h9, hn⟩ := hn
  have hd := (digit_iff d).2 ⟨h0, h9⟩
  simp only [braced, List.mem_cons, List.not_mem_nil, or_false] at hv
  have hab : a ≠ '{' := by rcases ha with rfl | rfl | rfl <;> decide
  rcases hn with rfl | rfl <;> rcases hv with rfl | rfl | rfl | rfl <;> rcases ha with rfl | rfl | rfl <;>
    simp [equationMatch, equationGroup, hd]

theorem equationSpelling_iff {c : Cls} (hc : c ∈ equationClasses) {v text : Str} (h : Spelled c v text) : equationSpelling v = text := by
  unfold Spelled at h
  rw [if_pos hc] at h
  unfold equationSpelling
  rcases h with ⟨h1, rfl⟩ | ⟨n, hn, hv, rfl⟩ | ⟨h1, h2, rfl⟩
  · rw [if_pos (by simpa using h1)]
  · have hne : ¬ (v = ['u'] ∨ v = ['v'] ∨ v = ['w']) := by
      rintro (rfl | rfl | rfl) <;> exact absurd (equationMatch_braced hn hv) (by simp [equationMatch, equationGroup])
    rw [if_neg hne, equationMatch_braced hn hv]
  · rw [if_neg (by simpa using h1)]
    rcases hm : equationMatch text with _ | n
    · rfl
    · exact absurd (equationMatch_some hm).2 (h2 n (equationMatch_some hm).1)

/-! ### Assigning -/

theorem leading_byte {c : Cls} (hc : c ∈ tokenNamed) : c.leadingName = (nameByte c).toList := by
  revert hc
  cases c <;> simp [tokenNamed, nameByte, Cls.leadingName]

theorem nameByte_ne {c : Cls} {b : UInt8} (h : nameByte c = some b) : b ≠ 0 := by
  cases c <;> simp only [nameByte, Option.some.injEq, reduceCtorEq] at h <;> subst h <;> decide

theorem nameSet_reads (env : Env V) {toks : List (Tok V × List Str)} (hn : ∀ p ∈ toks, [] ∉ p.2) {c : Cls} (hc : c ∈ tokenNamed)
    {text : Str} {ts : List (Tok V)} (h : ReadAs env.initial toks (nameByte c).isNone (smallTheta text) ts) :
    nameSet env (Trie.fromTokens toks) (some c) text () =
      ⟨.ok (rstripNul (codes ts)), (), if leads c (codes ts) then [] else [.badName]⟩ := by
  obtain ⟨acc, henc, hd⟩ := encode_reads hn h
  have hm : (if c.leadingName.isEmpty then EncMode.string else .max) = entryNameMode (nameByte c).isNone := by
    rw [leading_byte hc]
    cases nameByte c <;> rfl
  unfold nameSet
  simp only [Option.map_some, Option.getD_some, hm, theta_sub, henc, hd]
  have hw : (c.leadingName.isPrefixOf (rstripNul (codes ts)) = true) = leads c (codes ts) := by
    rw [leading_byte hc]
    unfold leads
    rcases hb : nameByte c with _ | b
    · simp
    · simp only [Option.toList_some, prefix_strip b (nameByte_ne hb), decide_eq_true_eq, Option.some.injEq, forall_eq']
  by_cases hl : leads c (codes ts)
  · rw [if_pos hl, if_pos (by rw [hw]; exact hl)]
    simp [PyM.bind_run]
  · rw [if_neg hl, if_neg (by rw [hw]; exact hl)]
    simp [PyM.bind_run]

theorem nameSet_unread (env : Env V) {toks : List (Tok V × List Str)} {c : Cls} (hc : c ∈ tokenNamed)
    {text : Str} (h : ∀ ts, ¬ ReadAs env.initial toks (nameByte c).isNone (smallTheta text) ts) :
    nameSet env (Trie.fromTokens toks) (some c) text () = ⟨.error .valueError, (), []⟩ := by
  have hm : (if c.leadingName.isEmpty then EncMode.string else .max) = entryNameMode (nameByte c).isNone := by
    rw [leading_byte hc]
    cases nameByte c <;> rfl
  unfold nameSet
  simp only [Option.map_some, Option.getD_some, hm, theta_sub]
  split
  · rename_i acc henc
    exact absurd henc (encode_unread h acc)
  · rfl

theorem tokenNamed_facts {c : Cls} (hc : c ∈ tokenNamed) :
    c.isSub .listE = false ∧ c ≠ .image ∧ c ∉ [Cls.window, .recallWindow, .tableSettings] ∧
    (c.isSub .equation = true ↔ c ∈ equationClasses) := by
  revert hc
  cases c <;> decide

theorem nameConv_spelled (env : Env V) (trie : Trie (Tok V)) {c : Cls} (hc : c ∈ tokenNamed) {v text : Str}
    (hs : Spelled c v text) : nameConv env trie c v = nameSet env trie (some c) text := by
  obtain ⟨h1, h2, h3, h4⟩ := tokenNamed_facts hc
  unfold nameConv
  rw [if_neg (by rw [h1]; decide), if_neg h2, if_neg h3]
  by_cases he : c ∈ equationClasses
  · rw [if_pos (h4.2 he), equationSpelling_iff he hs]
  · rw [if_neg (fun h => he (h4.1 h))]
    unfold Spelled at hs
    rw [if_neg he] at hs
    by_cases hstr : c = .string
    · rw [if_pos hstr] at hs ⊢
      rw [capitalize_ascii hs.1, hs.2]
    · rw [if_neg hstr] at hs ⊢
      rw [hs]

theorem nameAssign_run (env : Env V) (trie : Trie (Tok V)) (e : Ent) (v : Str) {d : Bytes} {w : List Warn}
    (h : nameConv env trie e.cls v () = ⟨.ok (rstripNul d), (), w⟩) :
    nameAssign env trie v e = ⟨.ok (), { e with name := eight d },
      w ++ if ∃ x ∈ d.drop 8, x ≠ 0 then [.tooWide] else []⟩ := by
  unfold nameAssign
  simp only [PyM.bind_run, PyM.get_run, PyM.lift_run, h, fit_name, PyM.set_run]
  simp

theorem nameAssign_error (env : Env V) (trie : Trie (Tok V)) (e : Ent) (v : Str) {x : PyErr} {w : List Warn}
    (h : nameConv env trie e.cls v () = ⟨.error x, (), w⟩) : nameAssign env trie v e = ⟨.error x, e, w⟩ := by
  unfold nameAssign
  simp [PyM.bind_run, h]

/-! ### Lists -/

/-- Thetas in capitals. -/
def bigTheta (s : Str) : Str := s.map fun c => if c = 'θ' then 'Θ' else c

theorem upper_replace {v : Str} (h : ∀ x ∈ v, x.toNat < 128 ∨ x = 'θ') :
    replaceChar ']' "|L".toList (v.map upperChar) = bigTheta (listSpelling v) := by
  induction v with
  | nil => rfl
  | cons c v ih =>
    have ih := ih fun x hx => h x (by simp [hx])
    have key : replaceChar ']' "|L".toList [upperChar c] = bigTheta (listSpelling [c]) := by
      rcases h c (by simp) with hc | rfl
      · rw [upper_ascii hc]
        obtain ⟨n, hn, rfl⟩ : ∃ n, n < 128 ∧ c = Char.ofNat n := ⟨c.toNat, hc, (Char.ofNat_toNat c).symm⟩
        clear h hc ih
        revert n
        decide +kernel
      · decide +kernel
    have h1 : replaceChar ']' "|L".toList ((c :: v).map upperChar) =
        replaceChar ']' "|L".toList [upperChar c] ++ replaceChar ']' "|L".toList (v.map upperChar) := by
      simp [replaceChar]
    have h2 : bigTheta (listSpelling (c :: v)) = bigTheta (listSpelling [c]) ++ bigTheta (listSpelling v) := by
      simp [listSpelling, bigTheta]
    rw [h1, h2, key, ih]

theorem hasText_mem {sub s : Str} (h : hasText sub s = true) : ∀ c ∈ sub, c ∈ s := by
  induction s with
  | nil =>
    intro c hc
    simp only [hasText, List.isEmpty_iff] at h
    subst h
    exact hc
  | cons x s ih =>
    intro c hc
    simp only [hasText, Bool.or_eq_true] at h
    rcases h with h | h
    · rw [List.isPrefixOf_iff_prefix] at h
      exact h.subset hc
    · exact List.mem_cons_of_mem _ (ih h c hc)

theorem no_small_i {v : Str} (h : ∀ x ∈ v, x.toNat < 128 ∨ x = 'θ') : 'i' ∉ bigTheta (listSpelling v) := by
  intro hi
  simp only [bigTheta, listSpelling, List.mem_map, List.mem_flatMap] at hi
  obtain ⟨y, ⟨x, ⟨c, hc, rfl⟩, hy⟩, hyi⟩ := hi
  have hyi : y = 'i' := by
    split at hyi
    · exact absurd hyi (by decide)
    · exact hyi
  subst hyi
  rcases h c hc with hc | rfl
  · obtain ⟨n, hn, rfl⟩ : ∃ n, n < 128 ∧ c = Char.ofNat n := ⟨c.toNat, hc, (Char.ofNat_toNat c).symm⟩
    have key : ∀ n < 128, 'i' ∉ (if (Char.ofNat n).toUpper = ']' then ['|', 'L'] else [(Char.ofNat n).toUpper]) := by decide +kernel
    exact key n hn hy
  · exact absurd hy (by decide)

theorem small_big (s : Str) : smallTheta (bigTheta s) = smallTheta s := by
  unfold smallTheta bigTheta
  rw [List.map_map]
  apply List.map_congr_left
  intro c _
  by_cases h : c = 'θ'
  · subst h
    decide
  · simp [h]

theorem big_prefix (s : Str) : "|L".toList.isPrefixOf (bigTheta s) = decide (s.take 2 = ['|', 'L']) := by
  have h1 : ∀ c : Char, ((if c = 'θ' then 'Θ' else c) = '|') ↔ c = '|' := by
    intro c
    by_cases h : c = 'θ'
    · subst h
      decide
    · simp [h]
  have h2 : ∀ c : Char, ((if c = 'θ' then 'Θ' else c) = 'L') ↔ c = 'L' := by
    intro c
    by_cases h : c = 'θ'
    · subst h
      decide
    · simp [h]
  rw [Bool.eq_iff_iff, List.isPrefixOf_iff_prefix, decide_eq_true_eq, List.prefix_iff_eq_take]
  unfold bigTheta
  rw [← List.map_take]
  match s with
  | [] => simp
  | [a] => simp
  | a :: b :: r =>
    simp only [show "|L".toList = ['|', 'L'] by rfl, List.length_cons, List.length_nil, Nat.zero_add, Nat.reduceAdd, List.take_succ_cons,
      List.take_zero, List.map_cons, List.map_nil, List.cons.injEq, and_true]
    rw [eq_comm, h1 a, eq_comm (a := 'L'), h2 b]

theorem listNameSet_reads (env : Env V) {toks : List (Tok V × List Str)} (hn : ∀ p ∈ toks, [] ∉ p.2) {v : Str}
    (hv : ∀ x ∈ v, x.toNat < 128 ∨ x = 'θ') {ts : List (Tok V)}
    (h : ReadAs env.initial toks true (smallTheta (listSpelling v)) ts) :
    listNameSet env (Trie.fromTokens toks) v () = ⟨.ok (rstripNul (codes ts)), (),
      if (listSpelling v).length > listLimit (listSpelling v) then [.listName] else []⟩ := by
  obtain ⟨acc, henc, hd⟩ := encode_reads hn h
  have hset : nameSet env (Trie.fromTokens toks) none (bigTheta (listSpelling v)) () = ⟨.ok (rstripNul (codes ts)), (), []⟩ := by
    unfold nameSet
    have henc' : encode env.initial (Trie.fromTokens toks) .string (smallTheta (listSpelling v)) = some (.ok acc) := henc
    simp [theta_sub, small_big, henc', hd, PyM.bind_run]
  have hno : hasText "IDList".toList (bigTheta (listSpelling v)) = false := by
    rw [← Bool.not_eq_true]
    intro h
    exact no_small_i hv (hasText_mem h 'i' (by decide))
  unfold listNameSet
  simp only [upper_replace hv, hno, big_prefix]
  have hlen : (bigTheta (listSpelling v)).length = (listSpelling v).length := by simp [bigTheta]
  have hlim : (if decide (List.take 2 (listSpelling v) = ['|', 'L']) = true then 7 else 5) = listLimit (listSpelling v) := by
    simp [listLimit]
  rw [hlen, hlim]
  simp [PyM.bind_run, hset]

theorem list_facts {c : Cls} (hc : c ∈ listClasses) : c.isSub .listE = true := by
  revert hc
  cases c <;> decide

omit [LinearOrder V] in
/-- Texts of capitals and digits are read one by one. -/
theorem ascii_reads {initial : V} {table : TokTable V} {toks : List (Tok V × List Str)} (hn : ∀ p ∈ toks, [] ∉ p.2)
    (ha : AsciiTokens table toks) {text : Str} (ht : ∀ c ∈ text, Alnum c) :
    ∃ ts, ReadAs initial toks true text ts ∧ (∀ t ∈ ts, t ∈ table) ∧ codes ts = text.map (fun c => UInt8.ofNat c.toNat) ∧
      ts.flatMap Tok.display = text := by
  induction text with
  | nil => exact ⟨[], ⟨[], .done, rfl⟩, by simp, rfl, rfl⟩
  | cons c text ih =>
    obtain ⟨ts, ⟨ps, hp, rfl⟩, h2, h3, h4⟩ := ih fun x hx => ht x (by simp [hx])
    obtain ⟨t, htab, hnm, hb, hd⟩ := ha c (ht c (by simp))
    have hc := ht c (by simp)
    have hpunct : asciiPunct c = false := by
      rw [← isPunct_eq]
      rcases char_cases c with ⟨n, hn, rfl⟩ | h
      · clear hd hb hnm ht
        revert n
        decide +kernel
      · rcases hc with ⟨-, h9⟩ | ⟨-, h9⟩
        · have : c.toNat ≤ 90 := h9
          omega
        · have : c.toNat ≤ 57 := h9
          omega
    have hbs : c ≠ '\\' := by
      rintro rfl
      exact absurd hc (by decide)
    have hlit : ¬ StartsLiteral (c :: text) := by
      rintro (⟨r, hr⟩ | ⟨r, hr⟩) <;> exact hbs (List.cons.inj hr).1
    refine ⟨t :: ps.map Prod.snd, ⟨([c], t) :: ps, ?_, rfl⟩, ?_, ?_, ?_⟩
    · refine Pieces.next (text := [c]) (s := text) ⟨Or.inr ⟨hlit, ⟨text, rfl⟩, hnm⟩, fun _ => ?_⟩ hp
      simp only [if_true]
      refine Or.inl ⟨?_, ?_⟩
      · intro n hn'
        have : n = 0 := by simpa using hn'
        subst this
        exact names_nil hn
      · rintro ⟨hh, -⟩
        simp [hpunct] at hh
    · intro u hu
      rcases List.mem_cons.1 hu with rfl | hu
      · exact htab
      · exact h2 u hu
    · simp only [codes, List.flatMap_cons, hb, List.map_cons]
      unfold codes at h3
      rw [h3]
      rfl
    · simp only [List.flatMap_cons, hd, h4]
      rfl

theorem alnum_ascii {c : Char} (h : Alnum c) : c.toNat < 128 := by
  rcases h with ⟨-, h⟩ | ⟨-, h⟩
  · have : c.toNat ≤ 90 := h
    omega
  · have : c.toNat ≤ 57 := h
    omega

theorem alnum_spelling {text : Str} (h : ∀ c ∈ text, Alnum c) : smallTheta (listSpelling text) = text := by
  induction text with
  | nil => rfl
  | cons c text ih =>
    have ih := ih fun x hx => h x (by simp [hx])
    have hc := h c (by simp)
    have key : smallTheta (listSpelling [c]) = [c] := by
      obtain ⟨n, hn, rfl⟩ : ∃ n, n < 128 ∧ c = Char.ofNat n := ⟨c.toNat, alnum_ascii hc, (Char.ofNat_toNat c).symm⟩
      clear h ih
      revert n
      decide +kernel
    have h2 : smallTheta (listSpelling (c :: text)) = smallTheta (listSpelling [c]) ++ smallTheta (listSpelling text) := by
      simp [listSpelling, smallTheta]
    rw [h2, key, ih]
    rfl

end Verif
