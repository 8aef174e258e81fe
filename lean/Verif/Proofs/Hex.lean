import Verif.Spec.Hex
import Verif.Proofs.Escape

/-! Lemmas about entries as hexadecimal text. -/

namespace Verif
open Spec

/-- Either case of a text. -/
def cased (upper : Bool) (s : Str) : Str := s.map (casedChar upper)

theorem cased_eq (upper : Bool) (s : Str) : (if upper then upperAscii s else lowerAscii s) = cased upper s := by
  cases upper <;> rfl

theorem cased_append (u : Bool) (s t : Str) : cased u (s ++ t) = cased u s ++ cased u t := by simp [cased]

theorem cased_hexDigit (u : Bool) : ∀ k : Fin 16, casedChar u (hexDigit k) =
    ((if u then "0123456789ABCDEF" else "0123456789abcdef").toList.getD k '?') := by
  cases u <;> decide +kernel

theorem cased_hexOf (u : Bool) (d : Bytes) : cased u (hexOf d) = hexText u d := by
  induction d with
  | nil => rfl
  | cons b d ih =>
    have hb : b.toNat < 256 := b.toNat_lt
    have h1 := cased_hexDigit u ⟨b.toNat / 16, by omega⟩
    have h2 := cased_hexDigit u ⟨b.toNat % 16, by omega⟩
    simp only at h1 h2
    have : cased u (hexOf (b :: d)) = casedChar u (hexDigit (b.toNat / 16)) :: casedChar u (hexDigit (b.toNat % 16)) ::
        cased u (hexOf d) := rfl
    rw [this, h1, h2, ih]
    rfl

theorem joinWith_cons {sep : Char} {s : Str} {l : List Str} (h : l ≠ []) :
    joinWith sep (s :: l) = s ++ sep :: joinWith sep l := by
  cases l with
  | nil => exact absurd rfl h
  | cons a l => rfl

theorem joinWith_concat {sep : Char} {s : Str} {l : List Str} (h : l ≠ []) :
    joinWith sep (l ++ [s]) = joinWith sep l ++ sep :: s := by
  induction l with
  | nil => exact absurd rfl h
  | cons a l ih =>
    cases l with
    | nil => rfl
    | cons b l =>
      have h1 : joinWith sep (a :: (b :: l ++ [s])) = a ++ sep :: joinWith sep (b :: l ++ [s]) := rfl
      have h2 : joinWith sep (a :: b :: l) = a ++ sep :: joinWith sep (b :: l) := rfl
      rw [List.cons_append, h1, ih (by simp), h2]
      simp

theorem hexLeft_groups (sep : Char) (w : Nat) (hw : w ≠ 0) (d : Bytes) : ∃ g rest, (rest ++ [g]).flatten = d ∧
    (d ≠ [] → g ≠ []) ∧ g.length ≤ w ∧ (∀ x ∈ rest, x.length = w) ∧
    hexLeft sep w d = joinWith sep ((rest ++ [g]).map hexOf) := by
  induction hn : d.length using Nat.strongRecOn generalizing d with
  | ind n ih =>
    rw [hexLeft]
    by_cases h : d.length ≤ w
    · rw [dif_pos (Or.inl h)]
      exact ⟨d, [], by simp, fun h => h, h, by simp, rfl⟩
    · rw [dif_neg (by omega)]
      obtain ⟨g, rest, h1, h2, h3, h4, h5⟩ := ih (d.drop w).length (by rw [List.length_drop]; omega) (d.drop w) rfl
      refine ⟨g, d.take w :: rest, ?_, ?_, h3, ?_, ?_⟩
      · rw [List.cons_append, List.flatten_cons, h1, List.take_append_drop]
      · intro _
        apply h2
        intro h0
        have := congrArg List.length h0
        rw [List.length_drop, List.length_nil] at this
        omega
      · intro x hx
        rcases List.mem_cons.1 hx with rfl | hx
        · rw [List.length_take]; omega
        · exact h4 x hx
      · rw [h5, List.cons_append, List.map_cons, joinWith_cons (by simp)]

theorem hexRight_groups (sep : Char) (w : Nat) (hw : w ≠ 0) (d : Bytes) : ∃ g rest, (g :: rest).flatten = d ∧
    (d ≠ [] → g ≠ []) ∧ g.length ≤ w ∧ (∀ x ∈ rest, x.length = w) ∧
    hexRight sep w d = joinWith sep ((g :: rest).map hexOf) := by
  induction hn : d.length using Nat.strongRecOn generalizing d with
  | ind n ih =>
    rw [hexRight]
    by_cases h : d.length ≤ w
    · rw [dif_pos (Or.inl h)]
      exact ⟨d, [], by simp, fun h => h, h, by simp, rfl⟩
    · rw [dif_neg (by omega)]
      obtain ⟨g, rest, h1, h2, h3, h4, h5⟩ := ih (d.take (d.length - w)).length
        (by rw [List.length_take]; omega) (d.take (d.length - w)) rfl
      refine ⟨g, rest ++ [d.drop (d.length - w)], ?_, ?_, h3, ?_, ?_⟩
      · rw [← List.cons_append, List.flatten_append, h1]
        simp
      · intro _
        apply h2
        intro h0
        have := congrArg List.length h0
        rw [List.length_take, List.length_nil] at this
        omega
      · intro x hx
        rcases List.mem_append.1 hx with hx | hx
        · exact h4 x hx
        · rw [List.mem_singleton.1 hx, List.length_drop]; omega
      · rw [h5, ← List.cons_append, List.map_append]
        exact (joinWith_concat (by simp)).symm

theorem cased_join (u : Bool) (sep : Char) (gs : List Bytes) :
    cased u (joinWith sep (gs.map hexOf)) = joinWith (casedChar u sep) (gs.map (hexText u)) := by
  induction gs with
  | nil => rfl
  | cons g gs ih =>
    cases gs with
    | nil => exact cased_hexOf u g
    | cons g' gs =>
      have h1 : joinWith sep ((g :: g' :: gs).map hexOf) = hexOf g ++ sep :: joinWith sep ((g' :: gs).map hexOf) := rfl
      have h2 : joinWith (casedChar u sep) ((g :: g' :: gs).map (hexText u)) =
        hexText u g ++ casedChar u sep :: joinWith (casedChar u sep) ((g' :: gs).map (hexText u)) := rfl
      rw [h1, h2, ← ih, cased_append, cased_hexOf]
      rfl

theorem bytesHex_groups {d : Bytes} {sep : Char} {n : Int} (hn : -2147483648 ≤ n ∧ n ≤ 2147483647) (hs : sep.toNat ≤ 127) :
    ∃ gs, Grouped n d gs ∧ bytesHex d sep n = .ok (joinWith sep (gs.map hexOf)) := by
  unfold bytesHex
  rw [if_neg (by omega), if_neg (by omega)]
  by_cases h0 : n = 0
  · subst h0
    refine ⟨[d], ⟨by simp, by simp⟩, ?_⟩
    rw [if_neg (by omega), hexRight]
    simp [joinWith]
  · by_cases hneg : n < 0
    · obtain ⟨g, rest, h1, h2, h3, h4, h5⟩ := hexLeft_groups sep n.natAbs (by omega) d
      refine ⟨rest ++ [g], ⟨h1, ?_⟩, by rw [if_pos hneg, h5]⟩
      rw [if_neg h0, if_neg (by omega)]
      exact ⟨g, rest, rfl, h2, h3, h4⟩
    · obtain ⟨g, rest, h1, h2, h3, h4, h5⟩ := hexRight_groups sep n.natAbs (by omega) d
      refine ⟨g :: rest, ⟨h1, ?_⟩, by rw [if_neg hneg, h5]⟩
      rw [if_neg h0, if_pos (by omega)]
      exact ⟨g, rest, rfl, h2, h3, h4⟩

theorem bytesHex_overflow {d : Bytes} {sep : Char} {n : Int} (hn : ¬(-2147483648 ≤ n ∧ n ≤ 2147483647)) :
    bytesHex d sep n = .error .overflowError := by
  unfold bytesHex
  rw [if_pos (by omega)]

theorem bytesHex_value {d : Bytes} {sep : Char} {n : Int} (hn : -2147483648 ≤ n ∧ n ≤ 2147483647) (hs : 127 < sep.toNat) :
    bytesHex d sep n = .error .valueError := by
  unfold bytesHex
  rw [if_neg (by omega), if_pos hs]

theorem widthInt_ok {wt : Str} {n : Int} (h : parseInt wt = .ok n) (hl : wt.countP isDig ≤ 4300) : widthInt wt = .ok n := by
  unfold widthInt
  rw [if_neg (by omega), h]

theorem widthInt_long {wt : Str} (hl : 4300 < wt.countP isDig) : widthInt wt = .error .valueError := by
  unfold widthInt
  rw [if_pos hl]

/-! ### The regular expression -/

theorem letter_not_dig (u : Bool) : isDig (hexLetter u) = false := by cases u <;> decide

theorem hexTail_ok (w : Option Str) (u : Bool) {st : Str} {sep : Option Char}
    (h : st = [] ∧ sep = none ∨ ∃ c, st = [c] ∧ sep = some c ∧ isDig c = false) :
    hexTail w (hexLetter u :: st) = some ⟨w, u, sep⟩ := by
  rcases h with ⟨rfl, rfl⟩ | ⟨c, rfl, rfl, hc⟩
  · cases u <;> simp [hexTail, hexLetter]
  · cases u <;> simp [hexTail, hexLetter, hc]

theorem takeWhile_width {s : Str} (hd : ∀ c ∈ s, isDig c = true) {c : Char} (hc : isDig c = false) (t : Str) :
    (s ++ c :: t).takeWhile isDig = s ∧ (s ++ c :: t).dropWhile isDig = c :: t := by
  constructor
  · rw [List.takeWhile_append_of_pos hd]; simp [hc]
  · rw [List.dropWhile_append_of_pos hd]; simp [hc]

theorem matchHex_plain (u : Bool) {st : Str} {sep : Option Char}
    (h : st = [] ∧ sep = none ∨ ∃ c, st = [c] ∧ sep = some c ∧ isDig c = false) :
    matchHex (hexLetter u :: st) = some ⟨none, u, sep⟩ := by
  have ht := hexTail_ok none u h
  unfold matchHex
  have h1 : ¬(hexLetter u = '+' ∨ hexLetter u = '-') := by cases u <;> decide
  simp only [h1, if_false, List.takeWhile_cons, letter_not_dig, Bool.false_eq_true, if_true, ht]

theorem matchHex_width {wt : Str} {n : Int} (hw : WidthText wt n) (u : Bool) {st : Str} {sep : Option Char}
    (h : st = [] ∧ sep = none ∨ ∃ c, st = [c] ∧ sep = some c ∧ isDig c = false) :
    matchHex (wt ++ hexLetter u :: st) = some ⟨some wt, u, sep⟩ ∧ parseInt wt = .ok n := by
  have hnum : ∀ s : Str, s ≠ [] → (∀ c ∈ s, isDig c = true) → parseNat s = .ok (natVal s) := by
    intro s h hd
    unfold parseNat
    rw [if_neg]
    rintro (h' | h')
    · exact h h'
    · rw [List.all_eq_true.2 hd] at h'; cases h'
  cases hw with
  | plain _ hne hd =>
    cases wt with
    | nil => exact absurd rfl hne
    | cons a s =>
      have ha := hd a (List.mem_cons_self ..)
      have h1 : ¬(a = '+' ∨ a = '-') := by
        rintro (rfl | rfl) <;> revert ha <;> decide
      obtain ⟨t1, t2⟩ := takeWhile_width hd (letter_not_dig u) st
      refine ⟨?_, ?_⟩
      · unfold matchHex
        simp only [List.cons_append, h1, if_false]
        rw [← List.cons_append, t1, t2, if_neg (by simp), List.nil_append]
        exact hexTail_ok _ u h
      · unfold parseInt
        split
        · rename_i heq; simp only [List.cons.injEq] at heq; exact absurd (Or.inr heq.1) h1
        · rename_i heq; simp only [List.cons.injEq] at heq; exact absurd (Or.inl heq.1) h1
        · rw [hnum _ hne hd]; rfl
  | plus s hne hd =>
    obtain ⟨t1, t2⟩ := takeWhile_width hd (letter_not_dig u) st
    refine ⟨?_, ?_⟩
    · unfold matchHex
      simp only [List.cons_append, true_or, if_true]
      rw [t1, t2, if_neg hne]
      exact hexTail_ok _ u h
    · show (parseNat s).map _ = _
      rw [hnum s hne hd]; rfl
  | minus s hne hd =>
    obtain ⟨t1, t2⟩ := takeWhile_width hd (letter_not_dig u) st
    refine ⟨?_, ?_⟩
    · unfold matchHex
      simp only [List.cons_append, or_true, if_true]
      rw [t1, t2, if_neg hne]
      exact hexTail_ok _ u h
    · show (parseNat s).map _ = _
      rw [hnum s hne hd]; rfl

theorem hexTail_some {w : Option Str} {s : Str} {m : HexSpec} (h : hexTail w s = some m) :
    ∃ u st, s = hexLetter u :: st ∧ (st = [] ∨ ∃ c, st = [c] ∧ isDig c = false) := by
  unfold hexTail at h
  split at h
  · split at h
    · rename_i c hc
      rcases hc with rfl | rfl
      · exact ⟨false, [], rfl, .inl rfl⟩
      · exact ⟨true, [], rfl, .inl rfl⟩
    · cases h
  · split at h
    · rename_i c s hc
      rcases hc with ⟨rfl | rfl, hs⟩
      · exact ⟨false, [s], rfl, .inr ⟨s, rfl, hs⟩⟩
      · exact ⟨true, [s], rfl, .inr ⟨s, rfl, hs⟩⟩
    · cases h
  · cases h

/-- What the regular expression matches. -/
theorem matchHex_some {spec : Str} {m : HexSpec} (h : matchHex spec = some m) :
    ∃ wt u st, spec = wt ++ hexLetter u :: st ∧ (wt = [] ∨ ∃ n, WidthText wt n) ∧
      (st = [] ∨ ∃ c, st = [c] ∧ isDig c = false) := by
  unfold matchHex at h
  have key : ∀ sign r : Str, spec = sign ++ r → (sign = [] ∨ sign = ['+'] ∨ sign = ['-']) →
      (if r.takeWhile isDig = [] then (if sign = [] then hexTail none spec else none)
        else hexTail (some (sign ++ r.takeWhile isDig)) (r.dropWhile isDig)) = some m →
      ∃ wt u st, spec = wt ++ hexLetter u :: st ∧ (wt = [] ∨ ∃ n, WidthText wt n) ∧
        (st = [] ∨ ∃ c, st = [c] ∧ isDig c = false) := by
    intro sign r hr hsign h
    by_cases hd : r.takeWhile isDig = []
    · rw [if_pos hd] at h
      split at h
      · obtain ⟨u, st, h1, h2⟩ := hexTail_some h
        exact ⟨[], u, st, h1, .inl rfl, h2⟩
      · cases h
    · rw [if_neg hd] at h
      obtain ⟨u, st, h1, h2⟩ := hexTail_some h
      refine ⟨sign ++ r.takeWhile isDig, u, st, ?_, .inr ?_, h2⟩
      · rw [hr, List.append_assoc, ← h1, List.takeWhile_append_dropWhile]
      · have hall : ∀ c ∈ r.takeWhile isDig, isDig c = true := fun c hc =>
          List.all_eq_true.1 (List.all_takeWhile (p := isDig) (l := r)) c hc
        rcases hsign with rfl | rfl | rfl
        · exact ⟨_, .plain _ hd hall⟩
        · exact ⟨_, .plus _ hd hall⟩
        · exact ⟨_, .minus _ hd hall⟩
  cases spec with
  | nil => exact key [] [] rfl (.inl rfl) h
  | cons c r =>
    by_cases hc : c = '+' ∨ c = '-'
    · simp only [hc, if_true] at h
      refine key [c] r rfl ?_ h
      rcases hc with rfl | rfl
      · exact .inr (.inl rfl)
      · exact .inr (.inr rfl)
    · simp only [hc, if_false] at h
      exact key [] (c :: r) rfl (.inl rfl) h

/-! ### Back to bytes -/

theorem hexVal_pair (u : Bool) : ∀ k : Fin 16,
    hexVal ((if u then "0123456789ABCDEF" else "0123456789abcdef").toList.getD k '?') = some k.val ∧
    isHexDigit ((if u then "0123456789ABCDEF" else "0123456789abcdef").toList.getD k '?') = true ∧
    isAsciiSpace ((if u then "0123456789ABCDEF" else "0123456789abcdef").toList.getD k '?') = false := by
  cases u <;> decide +kernel

theorem hexPair_cases (u : Bool) (b : UInt8) : ∃ x y, hexPair u b = [x, y] ∧ hexVal x = some (b.toNat / 16) ∧
    hexVal y = some (b.toNat % 16) ∧ isHexDigit x = true ∧ isHexDigit y = true ∧ isAsciiSpace x = false ∧
    UInt8.ofNat (16 * (b.toNat / 16) + b.toNat % 16) = b := by
  have hb : b.toNat < 256 := b.toNat_lt
  have h1 := hexVal_pair u ⟨b.toNat / 16, by omega⟩
  have h2 := hexVal_pair u ⟨b.toNat % 16, by omega⟩
  refine ⟨_, _, rfl, h1.1, h2.1, h1.2.1, h2.2.1, h1.2.2, ?_⟩
  rw [show 16 * (b.toNat / 16) + b.toNat % 16 = b.toNat by omega]
  simp

theorem unhex_hexText (u : Bool) (d : Bytes) : unhex (hexText u d) = some d := by
  induction d with
  | nil => rfl
  | cons b d ih =>
    obtain ⟨x, y, h1, h2, h3, -, -, -, h4⟩ := hexPair_cases u b
    have : hexText u (b :: d) = x :: y :: hexText u d := by simp [hexText, h1]
    rw [this, unhex, h2, h3, ih]
    simp only [h4]

theorem hexText_digits (u : Bool) (d : Bytes) : ∀ c ∈ hexText u d, isHexDigit c = true := by
  intro c hc
  obtain ⟨b, -, hb⟩ := List.mem_flatMap.1 hc
  obtain ⟨x, y, h1, -, -, h2, h3, -⟩ := hexPair_cases u b
  rw [h1] at hb
  simp only [List.mem_cons, List.not_mem_nil, or_false] at hb
  rcases hb with rfl | rfl <;> assumption

theorem filter_join {sep : Char} (hs : isHexDigit sep = false) (u : Bool) (gs : List Bytes) :
    (joinWith sep (gs.map (hexText u))).filter (· ≠ sep) = hexText u gs.flatten := by
  have hf : ∀ d, (hexText u d).filter (· ≠ sep) = hexText u d := by
    intro d
    rw [List.filter_eq_self]
    intro c hc
    simp only [ne_eq, decide_eq_true_eq]
    rintro rfl
    rw [hexText_digits u d _ hc] at hs
    cases hs
  induction gs with
  | nil => rfl
  | cons g gs ih =>
    cases gs with
    | nil =>
      simp only [List.map_cons, List.map_nil, List.flatten_cons, List.flatten_nil, List.append_nil, joinWith]
      exact hf g
    | cons g' gs =>
      rw [List.map_cons, joinWith_cons (by simp), List.filter_append, hf, List.filter_cons_of_neg (by simp), ih]
      simp [hexText]

theorem fromHex_pair (u : Bool) (b : UInt8) (rest : Str) :
    fromHex (hexPair u b ++ rest) = (fromHex rest).map (b :: ·) := by
  obtain ⟨x, y, h1, h2, h3, -, -, h5, h4⟩ := hexPair_cases u b
  rw [h1, List.cons_append, List.cons_append, List.nil_append, fromHex, if_neg (by rw [h5]; simp), h2, h3]
  cases fromHex rest with
  | none => rfl
  | some bs => simp [h4]

theorem fromHex_hexText (u : Bool) (d : Bytes) (rest : Str) :
    fromHex (hexText u d ++ rest) = (fromHex rest).map (d ++ ·) := by
  induction d with
  | nil => simp [hexText]
  | cons b d ih =>
    have : hexText u (b :: d) = hexPair u b ++ hexText u d := by simp [hexText]
    rw [this, List.append_assoc, fromHex_pair, ih]
    cases fromHex rest <;> rfl

theorem fromHex_space {sep : Char} (hs : isAsciiSpace sep = true) (s : Str) : fromHex (sep :: s) = fromHex s := by
  cases s with
  | nil => simp [fromHex, hs]
  | cons a s => rw [fromHex, if_pos hs]

theorem fromHex_join {sep : Char} (hs : isAsciiSpace sep = true) (u : Bool) (gs : List Bytes) :
    fromHex (joinWith sep (gs.map (hexText u))) = some gs.flatten := by
  induction gs with
  | nil => rfl
  | cons g gs ih =>
    cases gs with
    | nil =>
      have := fromHex_hexText u g []
      simpa [joinWith, fromHex] using this
    | cons g' gs =>
      rw [List.map_cons, joinWith_cons (by simp), fromHex_hexText, fromHex_space hs, ih]
      simp

end Verif
