import Verif.Model.Token
import Verif.Spec.Token

/- Helper lemmas about decoding. -/

namespace Verif
variable {V : Type} [LinearOrder V]

/-- The bytes of a list of tokens. -/
def tokBytes (ts : List (Tok V)) : Bytes := ts.flatMap (·.bits)

omit [LinearOrder V] in
@[simp] theorem tokBytes_append (a b : List (Tok V)) :
    tokBytes (a ++ b) = tokBytes a ++ tokBytes b := by simp [tokBytes]

omit [LinearOrder V] in
@[simp] theorem tokBytes_nil : tokBytes ([] : List (Tok V)) = [] := rfl

omit [LinearOrder V] in
@[simp] theorem tokBytes_single (t : Tok V) : tokBytes [t] = t.bits := by simp [tokBytes]

omit [LinearOrder V] in
theorem tokBytes_nulls (initial : V) (n : Nat) :
    tokBytes (List.replicate n (illegalTok initial [0])) = List.replicate n 0 := by
  induction n with
  | zero => rfl
  | succ n ih =>
    rw [List.replicate_succ, List.replicate_succ]
    show [0] ++ tokBytes _ = _
    rw [ih]; rfl

omit [LinearOrder V] in
theorem find_bits {tbl : TokTable V} {bits : Bytes} {t : Tok V} (h : tbl.find bits = some t) :
    t.bits = bits ∧ t ∈ tbl := by
  unfold TokTable.find at h
  exact ⟨by simpa using List.find?_some h, List.mem_of_find?_eq_some h⟩

/-- What `curr_bytes` can hold between two iterations. -/
def CurrOk (tbl : TokTable V) (curr : Bytes) : Prop :=
  (∃ n, curr = List.replicate n 0) ∨ (∃ b, b ≠ 0 ∧ curr = [b] ∧ tbl.find [b] = none)

theorem decodeStep_spec (initial : V) (tbl : TokTable V) (curr : Bytes) (acc : DecAcc V)
    (hc : (∃ b, b ≠ 0 ∧ curr = [b]) ∨ curr.length ≥ 2) :
    CurrOk tbl (decodeStep initial tbl curr acc).1 ∧
    tokBytes (decodeStep initial tbl curr acc).2.out ++ (decodeStep initial tbl curr acc).1 =
      tokBytes acc.out ++ curr := by
  unfold decodeStep
  split
  · rename_i t h
    exact ⟨Or.inl ⟨0, rfl⟩, by simp [(find_bits h).1]⟩
  · rename_i h
    split
    · exact ⟨Or.inl ⟨0, rfl⟩, by simp [illegalTok]⟩
    · rename_i hl
      rcases hc with ⟨b, hb, rfl⟩ | hc
      · exact ⟨Or.inr ⟨b, hb, rfl, h⟩, rfl⟩
      · exact absurd hc hl

theorem decodeLoop_bytes (initial : V) (tbl : TokTable V) (data curr : Bytes) (acc : DecAcc V)
    (hc : CurrOk tbl curr) :
    ∃ tail, CurrOk tbl tail ∧
      tokBytes (decodeLoop initial tbl data curr acc).out ++ tail =
        tokBytes acc.out ++ curr ++ data := by
  induction data generalizing curr acc with
  | nil => exact ⟨curr, hc, by simp [decodeLoop]⟩
  | cons b rest ih =>
    unfold decodeLoop
    split
    · rename_i h0
      have hstep := decodeStep_spec initial tbl (curr ++ [b]) acc (by
        rcases hc with ⟨n, rfl⟩ | ⟨x, _, rfl, _⟩
        · cases n with
          | zero => exact Or.inl ⟨b, by simpa using h0, rfl⟩
          | succ n => simp [List.replicate_succ] at h0
        · right; simp)
      obtain ⟨tail, ht, he⟩ := ih _ _ hstep.1
      refine ⟨tail, ht, ?_⟩
      rw [he, hstep.2]; simp
    · rename_i h0
      have hz : ∃ n, curr = List.replicate n 0 := by
        rcases hc with h | ⟨x, hx, rfl, _⟩
        · exact h
        · simp [hx] at h0
      obtain ⟨n, rfl⟩ := hz
      split
      · rename_i hb
        have hstep := decodeStep_spec initial tbl [b]
          ⟨acc.out ++ List.replicate (List.replicate n (0 : UInt8)).length (illegalTok initial [0]),
            acc.since, acc.warns ++ [.nullBytes]⟩ (Or.inl ⟨b, hb, rfl⟩)
        obtain ⟨tail, ht, he⟩ := ih _ _ hstep.1
        refine ⟨tail, ht, ?_⟩
        rw [he, hstep.2]
        simp [tokBytes_nulls]
      · rename_i hb
        have hb' : b = 0 := by simpa using hb
        subst hb'
        have : List.replicate n (0 : UInt8) ++ [0] = List.replicate (n + 1) 0 := by
          rw [List.replicate_succ']
        rw [this]
        obtain ⟨tail, ht, he⟩ := ih (List.replicate (n + 1) 0) acc (Or.inl ⟨n + 1, rfl⟩)
        refine ⟨tail, ht, ?_⟩
        rw [he, ← this]; simp

/-- `since` is the greatest of the starting version and those of the tokens. -/
def SinceOk (initial : V) (ts : List (Tok V)) (v : V) : Prop :=
  initial ≤ v ∧ (∀ t ∈ ts, t.since ≤ v) ∧ (v = initial ∨ ∃ t ∈ ts, v = t.since)

theorem SinceOk.push {initial v : V} {ts : List (Tok V)} (h : SinceOk initial ts v) (t : Tok V) :
    SinceOk initial (ts ++ [t]) (max t.since v) := by
  obtain ⟨h1, h2, h3⟩ := h
  refine ⟨le_trans h1 (le_max_right _ _), ?_, ?_⟩
  · intro u hu
    rcases List.mem_append.1 hu with hu | hu
    · exact le_trans (h2 u hu) (le_max_right _ _)
    · rw [List.mem_singleton.1 hu]; exact le_max_left _ _
  · rcases le_total t.since v with hle | hle
    · rw [max_eq_right hle]
      rcases h3 with h3 | ⟨u, hu, h3⟩
      · exact Or.inl h3
      · exact Or.inr ⟨u, List.mem_append_left _ hu, h3⟩
    · rw [max_eq_left hle]
      exact Or.inr ⟨t, by simp, rfl⟩

theorem SinceOk.pushInitial {initial v : V} {ts us : List (Tok V)} (h : SinceOk initial ts v)
    (hu : ∀ u ∈ us, u.since = initial) : SinceOk initial (ts ++ us) v := by
  obtain ⟨h1, h2, h3⟩ := h
  refine ⟨h1, ?_, ?_⟩
  · intro t ht
    rcases List.mem_append.1 ht with ht | ht
    · exact h2 t ht
    · rw [hu t ht]; exact h1
  · rcases h3 with h3 | ⟨u, hu, h3⟩
    · exact Or.inl h3
    · exact Or.inr ⟨u, List.mem_append_left _ hu, h3⟩

theorem decodeStep_since (initial : V) (tbl : TokTable V) (curr : Bytes) (acc : DecAcc V)
    (h : SinceOk initial acc.out acc.since) :
    SinceOk initial (decodeStep initial tbl curr acc).2.out
      (decodeStep initial tbl curr acc).2.since := by
  unfold decodeStep
  split
  · exact h.push _
  · split
    · exact h.pushInitial (by simp [illegalTok])
    · exact h

theorem decodeLoop_since (initial : V) (tbl : TokTable V) (data curr : Bytes) (acc : DecAcc V)
    (h : SinceOk initial acc.out acc.since) :
    SinceOk initial (decodeLoop initial tbl data curr acc).out
      (decodeLoop initial tbl data curr acc).since := by
  induction data generalizing curr acc with
  | nil => simpa [decodeLoop] using h
  | cons b rest ih =>
    unfold decodeLoop
    split
    · exact ih _ _ (decodeStep_since initial tbl _ _ h)
    · split
      · refine ih _ _ (decodeStep_since initial tbl _ _ ?_)
        refine h.pushInitial ?_
        intro u hu
        rw [List.eq_of_mem_replicate hu]; rfl
      · exact ih _ _ h

/-- A table whose codes can be told apart: one or two bytes, no leading null, prefix-free. -/
def PrefixFree (tbl : TokTable V) : Prop :=
  ∀ t ∈ tbl, (t.bits.length = 1 ∨ t.bits.length = 2) ∧ t.bits.headD 0 ≠ 0 ∧
    ∀ u ∈ tbl, t.bits <+: u.bits → t = u

omit [LinearOrder V] in
theorem PrefixFree.find {tbl : TokTable V} (h : PrefixFree tbl) {t : Tok V} (ht : t ∈ tbl) :
    tbl.find t.bits = some t := by
  have hs : (tbl.find t.bits).isSome := by
    unfold TokTable.find
    rw [List.find?_isSome]
    exact ⟨t, ht, by simp⟩
  obtain ⟨u, hu⟩ := Option.isSome_iff_exists.1 hs
  obtain ⟨hb, hm⟩ := find_bits hu
  rw [hu, (h t ht).2.2 u hm (by rw [hb]; exact List.prefix_rfl)]

theorem decodeLoop_tokens (initial : V) {tbl : TokTable V} (h : PrefixFree tbl)
    (ts : List (Tok V)) (hts : ∀ t ∈ ts, t ∈ tbl) (acc : DecAcc V) :
    decodeLoop initial tbl (tokBytes ts) [] acc =
      ⟨acc.out ++ ts, ts.foldl (fun v t => max t.since v) acc.since, acc.warns⟩ := by
  induction ts generalizing acc with
  | nil => simp [decodeLoop]
  | cons t ts ih =>
    have ht : t ∈ tbl := hts t (by simp)
    obtain ⟨hl, h0, hp⟩ := h t ht
    have hf := h.find ht
    have ih' := ih (fun u hu => hts u (by simp [hu]))
      ⟨acc.out ++ [t], max t.since acc.since, acc.warns⟩
    have hb : tokBytes (t :: ts) = t.bits ++ tokBytes ts := rfl
    rw [hb]
    rcases hl with hl | hl
    · obtain ⟨b, hbits⟩ := List.length_eq_one_iff.1 hl
      rw [hbits] at h0 hf
      rw [hbits, List.singleton_append, decodeLoop]
      rw [if_pos (by simpa using h0)]
      simp only [List.nil_append, decodeStep, hf]
      rw [ih']; simp
    · obtain ⟨a, b, hbits⟩ : ∃ a b, t.bits = [a, b] := by
        match t.bits, hl with
        | [a, b], _ => exact ⟨a, b, rfl⟩
      rw [hbits] at h0 hf
      have hn : tbl.find [a] = none := by
        cases hfa : tbl.find [a] with
        | none => rfl
        | some u =>
          exfalso
          obtain ⟨hub, hum⟩ := find_bits hfa
          have := (h u hum).2.2 t ht (by rw [hub, hbits]; simp)
          rw [this, hbits] at hub
          simp at hub
      rw [hbits]
      simp only [List.cons_append, List.nil_append]
      have h1 : decodeStep initial tbl [a] acc = ([a], acc) := by
        unfold decodeStep
        rw [hn]
        exact if_neg (by simp)
      have h2 : decodeStep initial tbl [a, b] acc =
          ([], ⟨acc.out ++ [t], max t.since acc.since, acc.warns⟩) := by
        unfold decodeStep
        rw [hf]
      rw [decodeLoop, if_pos (by simpa using h0)]
      simp only [List.nil_append, h1]
      rw [decodeLoop, if_pos (by simpa using h0)]
      simp only [List.cons_append, List.nil_append, h2]
      rw [ih']; simp

end Verif
