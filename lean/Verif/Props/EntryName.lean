import Verif.Proofs.EntryName
import Verif.Props.Data
import Verif.Props.Tokenized
import Verif.Spec.Sample

/-! Property theorems about the names of entries (C131, C132). -/

namespace Verif
open Spec Ent
variable {V : Type} [LinearOrder V]

/-! ### C131 – names made of tokens -/

/-- C131. A name is stored as the codes of its tokens in eight bytes, and reads as the names of these tokens. Tokens are read with the
longest names where names begin with a fixed byte, which is then required with a warning, and with the shortest elsewhere. -/
theorem C131_stored (env : Env V) (htbl : CodeTable env.table) (toks : List (Tok V × List Str)) (hn : ∀ p ∈ toks, [] ∉ p.2)
    (e : Ent) (hc : e.cls ∈ tokenNamed) (v text : Str) (hs : Spelled e.cls v text) (ts : List (Tok V))
    (hr : ReadAs env.initial toks (nameByte e.cls).isNone (smallTheta text) ts) (hts : ∀ t ∈ ts, t ∈ env.table)
    (hl : (codes ts).length ≤ 8) :
    nameAssign env (Trie.fromTokens toks) v e =
      ⟨.ok (), { e with name := eight (codes ts) }, if leads e.cls (codes ts) then [] else [.badName]⟩ ∧
    nameRead env { e with name := eight (codes ts) } = ([], .ok (ts.flatMap Tok.display)) := by
  constructor
  · rw [nameAssign_run env _ e v (d := codes ts) (by rw [nameConv_spelled env _ hc hs]; exact nameSet_reads env hn hc hr),
      List.drop_eq_nil_of_le hl]
    simp
  · obtain ⟨h1, h2, h3, -⟩ := tokenNamed_facts hc
    unfold nameRead nameGet
    rw [if_neg (by rw [h1]; decide), if_neg h2, if_neg h3, tokenText_codes env htbl hts hl]
    rfl

/-- C131, a name of more than eight bytes: the first eight are stored, with a warning unless only zeros are cut off. -/
theorem C131_long (env : Env V) (toks : List (Tok V × List Str)) (hn : ∀ p ∈ toks, [] ∉ p.2) (e : Ent) (hc : e.cls ∈ tokenNamed)
    (v text : Str) (hs : Spelled e.cls v text) (ts : List (Tok V))
    (hr : ReadAs env.initial toks (nameByte e.cls).isNone (smallTheta text) ts) (hl : 8 < (codes ts).length) :
    nameAssign env (Trie.fromTokens toks) v e =
      ⟨.ok (), { e with name := (codes ts).take 8 },
        (if leads e.cls (codes ts) then [] else [.badName]) ++ if ∃ x ∈ (codes ts).drop 8, x ≠ 0 then [.tooWide] else []⟩ := by
  rw [nameAssign_run env _ e v (d := codes ts) (by rw [nameConv_spelled env _ hc hs]; exact nameSet_reads env hn hc hr)]
  have : eight (codes ts) = (codes ts).take 8 := by
    unfold eight
    rw [show 8 - (codes ts).length = 0 by omega]
    simp
  rw [this]

/-- C131, a text that is not made of tokens raises `ValueError` and leaves the entry as it was. -/
theorem C131_error (env : Env V) (toks : List (Tok V × List Str)) (e : Ent) (hc : e.cls ∈ tokenNamed)
    (v text : Str) (hs : Spelled e.cls v text)
    (hr : ∀ ts, ¬ ReadAs env.initial toks (nameByte e.cls).isNone (smallTheta text) ts) :
    nameAssign env (Trie.fromTokens toks) v e = ⟨.error .valueError, e, []⟩ :=
  nameAssign_error env _ e v (by rw [nameConv_spelled env _ hc hs]; exact nameSet_unread env hc hr)

/-- C131, every name has a spelling, so that the theorems above speak about all of them. For strings: names in ASCII. -/
theorem C131_spelled (c : Cls) (v : Str) (h : c = .string → ∀ x ∈ v, x.toNat < 128) : ∃ text, Spelled c v text := by
  unfold Spelled
  split
  · by_cases h1 : v ∈ [['u'], ['v'], ['w']]
    · exact ⟨_, Or.inl ⟨h1, rfl⟩⟩
    · by_cases h2 : ∃ n, CurveName n ∧ v ∈ braced n
      · obtain ⟨n, hn, hv⟩ := h2
        exact ⟨_, Or.inr (Or.inl ⟨n, hn, hv, rfl⟩)⟩
      · exact ⟨v, Or.inr (Or.inr ⟨h1, fun n hn hv => h2 ⟨n, hn, hv⟩, rfl⟩)⟩
  · split
    · rename_i hc
      exact ⟨_, h hc, rfl⟩
    · exact ⟨v, rfl⟩

/-- C131, assigning to an entry the name it has changes nothing, provided the names that the tokens of the name are shown with are
read as these tokens. -/
theorem C131_again (env : Env V) (htbl : CodeTable env.table) (toks : List (Tok V × List Str)) (hn : ∀ p ∈ toks, [] ∉ p.2)
    (e : Ent) (hc : e.cls ∈ tokenNamed) (ts : List (Tok V)) (hts : ∀ t ∈ ts, t ∈ env.table) (hl : (codes ts).length ≤ 8)
    (he : e.name = eight (codes ts)) (hb : leads e.cls (codes ts)) (text : Str) (hs : Spelled e.cls (ts.flatMap Tok.display) text)
    (hr : ReadAs env.initial toks (nameByte e.cls).isNone (smallTheta text) ts) :
    ∃ v, nameRead env e = ([], .ok v) ∧ nameAssign env (Trie.fromTokens toks) v e = ⟨.ok (), e, []⟩ := by
  obtain ⟨h1, h2⟩ := C131_stored env htbl toks hn e hc _ text hs ts hr hts hl
  have hee : { e with name := eight (codes ts) } = e := by rw [← he]
  rw [hee] at h1 h2
  rw [if_pos hb] at h1
  exact ⟨_, h2, h1⟩

/-- C131, settings have names in Latin-1: up to eight characters not ending in a null character are stored as their codes and read
back. -/
theorem C131_settings (env : Env V) (trie : Trie (Tok V)) (e : Ent) (hc : e.cls ∈ [Cls.window, .recallWindow, .tableSettings])
    (v : Str) (hv : ∀ x ∈ v, x.toNat < 256) (hl : v.length ≤ 8) (h0 : v.getLast? ≠ some '\x00') :
    ∃ e', nameAssign env trie v e = ⟨.ok (), e', []⟩ ∧ nameRead env e' = ([], .ok v) ∧
      e' = { e with name := eight (v.map fun c => UInt8.ofNat c.toNat) } := by
  have h1 : e.cls.isSub .listE = false ∧ e.cls ≠ .image := by
    revert hc
    cases e.cls <;> decide
  have h8 : ljust 8 ((v.map fun c => UInt8.ofNat c.toNat).take 8) = eight (v.map fun c => UInt8.ofNat c.toNat) := by
    rw [List.take_of_length_le (by simpa using hl)]
    exact ljust_eight _ (by simpa using hl)
  refine ⟨_, ?_, ?_, rfl⟩
  · have hs : nameConv env trie e.cls v () = ⟨.ok (v.map fun c => UInt8.ofNat c.toNat), (), []⟩ := by
      unfold nameConv
      rw [if_neg (by rw [h1.1]; decide), if_neg h1.2, if_pos hc]
      simp only [strConv, PyM.ofExcept_run, latin1Encode_ok v hv]
    unfold nameAssign
    simp only [PyM.bind_run, PyM.get_run, PyM.lift_run, hs, fitWidth_some, PyM.set_run, h8]
    simp [hl]
  · unfold nameRead nameGet
    dsimp only
    rw [if_neg (by rw [h1.1]; decide), if_neg h1.2, if_pos hc]
    simp only [strConv, wrapIndexError]
    congr 2
    apply isRStrip_unique (z := '\x00') (rstripNulStr_isRStrip _)
    refine ⟨⟨8 - v.length, ?_⟩, h0⟩
    unfold eight latin1Decode
    rw [List.take_of_length_le (by simpa using hl), List.map_append, List.map_map, List.map_replicate, List.length_map]
    congr 1
    conv => rhs; rw [← List.map_id v]
    apply List.map_congr_left
    intro c hc'
    simp only [Function.comp, id]
    rw [UInt8.toNat_ofNat_of_lt' (by simpa using hv c hc')]
    exact Char.ofNat_toNat c

/-- The tokens of the examples. -/
def nameEnv : Env Nat := { sampleEnv with table := nameTokens.map Prod.fst }

/-- An entry of the class, with an empty name. -/
def blankOf (c : Cls) : Ent := ⟨c, [13, 0], [0], List.replicate 8 0, [0], [0], ⟨true, []⟩⟩

/-- The name stored, the warnings, and the name read again. -/
def named8 (c : Cls) (v : String) : Option Unit × Bytes × List Warn × Option Str :=
  let o := nameAssign nameEnv (Trie.fromTokens nameTokens) v.toList (blankOf c)
  (o.res.toOption, o.st.name, o.warns, (nameRead nameEnv o.st).2.toOption)

example : [named8 .matrix "[A]", named8 .string "sTR1", named8 .equation "Y1}", named8 .equation "{X1T}"] =
    [(some (), [0x5C, 0, 0, 0, 0, 0, 0, 0], [], some "[A]".toList),
     (some (), [0xAA, 0, 0, 0, 0, 0, 0, 0], [], some "Str1".toList),
     (some (), [0x5E, 0x10, 0, 0, 0, 0, 0, 0], [], some "Y₁".toList),
     (some (), [0x5E, 0x20, 0, 0, 0, 0, 0, 0], [], some "X₁ᴛ".toList)] := by decide +kernel

example : [named8 .newEquation "u", named8 .program "θ1Θ", named8 .program "LONGNAMES"] =
    [(some (), [0x5E, 0x80, 0, 0, 0, 0, 0, 0], [], some "u".toList),
     (some (), [0x5B, 0x31, 0x5B, 0, 0, 0, 0, 0], [], some "θ1θ".toList),
     (some (), [0x4C, 0x4F, 0x4E, 0x47, 0x4E, 0x41, 0x4D, 0x45], [.tooWide], some "LONGNAME".toList)] := by decide +kernel

example : [named8 .picture "GDB1", named8 .program "A-B", named8 .window "Window"] =
    [(some (), [0x61, 0, 0, 0, 0, 0, 0, 0], [.badName], some "GDB1".toList),
     (none, List.replicate 8 0, [], some []),
     (some (), [0x57, 0x69, 0x6E, 0x64, 0x6F, 0x77, 0, 0], [], some "Window".toList)] := by decide +kernel

/-! ### C132 – names of lists -/

/-- C132, the part that holds: the name of a list is stored as the codes of its tokens, read with the shortest names after changing it
to capitals, and reads as the names of these tokens; a name that is too long gives a warning. Missing: the byte that names of lists
begin with, see below. -/
theorem C132_stored_partial (env : Env V) (htbl : CodeTable env.table) (toks : List (Tok V × List Str)) (hn : ∀ p ∈ toks, [] ∉ p.2)
    (e : Ent) (hc : e.cls ∈ listClasses) (v : Str) (hv : ∀ x ∈ v, x.toNat < 128 ∨ x = 'θ') (ts : List (Tok V))
    (hr : ReadAs env.initial toks true (smallTheta (listSpelling v)) ts) (hts : ∀ t ∈ ts, t ∈ env.table)
    (hl : (codes ts).length ≤ 8) :
    nameAssign env (Trie.fromTokens toks) v e = ⟨.ok (), { e with name := eight (codes ts) },
      if (listSpelling v).length > listLimit (listSpelling v) then [.listName] else []⟩ ∧
    ((codes ts).head? ≠ some 0x5D →
      nameRead env { e with name := eight (codes ts) } = ([], .ok (ts.flatMap Tok.display))) := by
  constructor
  · rw [nameAssign_run env _ e v (d := codes ts)
      (by unfold nameConv; rw [if_pos (list_facts hc)]; exact listNameSet_reads env hn hv hr), List.drop_eq_nil_of_le hl]
    simp
  · intro hh
    unfold nameRead nameGet
    rw [if_pos (list_facts hc)]
    have hg : listNameGet env (eight (codes ts)) =
        ((tokenText env (eight (codes ts))).1, .ok (tokenText env (eight (codes ts))).2) := by
      unfold listNameGet
      split
      · rename_i h
        have := congrArg List.length h
        simp only [eight, List.length_append, List.length_take, List.length_replicate, List.length_nil] at this
        omega
      · rename_i b rest h
        rw [if_neg]
        rintro rfl
        rcases hcs : codes ts with _ | ⟨x, r⟩
        · rw [hcs] at h
          have : (0 : UInt8) = 0x5D := by
            have := congrArg List.head? h
            simp [eight, List.replicate] at this
          exact absurd this (by decide)
        · rw [hcs] at h hh
          have := congrArg List.head? h
          simp only [eight, List.take_succ_cons, List.cons_append, List.head?_cons, Option.some.injEq] at this
          exact hh (by simp [this])
    simp only [hg, tokenText_codes env htbl hts hl]
    rfl

/-- C132, reading the names of the six built-in lists: the names of their tokens. -/
theorem C132_builtin_read (env : Env V) (htbl : CodeTable env.table) (e : Ent) (hc : e.cls ∈ listClasses) (k : UInt8) (hk : k < 6)
    (t : Tok V) (ht : t ∈ env.table) (hb : t.bits = [0x5D, k]) (he : e.name = [0x5D, k, 0, 0, 0, 0, 0, 0]) :
    nameRead env e = ([], .ok t.display) := by
  have hcs : codes [t] = [0x5D, k] := by simp [codes, hb]
  have h := tokenText_codes env htbl (ts := [t]) (by simpa using ht) (by rw [hcs]; simp)
  rw [hcs, show eight [0x5D, k] = [0x5D, k, 0, 0, 0, 0, 0, 0] from rfl] at h
  unfold nameRead nameGet
  rw [if_pos (list_facts hc), he]
  unfold listNameGet
  simp only [if_true, hk, h]
  simp [wrapIndexError]

/-- Capitals and digits are stored as they are. -/
theorem alnum_stored (env : Env V) (toks : List (Tok V × List Str)) (hn : ∀ p ∈ toks, [] ∉ p.2)
    (ha : AsciiTokens env.table toks) (e : Ent) (hc : e.cls ∈ listClasses) (v : Str) (hv : ∀ x ∈ v, x.toNat < 128 ∨ x = 'θ')
    (ht : ∀ c ∈ listSpelling v, Alnum c) (h8 : (listSpelling v).length ≤ 8) :
    nameAssign env (Trie.fromTokens toks) v e =
      ⟨.ok (), { e with name := eight ((listSpelling v).map fun c => UInt8.ofNat c.toNat) },
        if (listSpelling v).length > listLimit (listSpelling v) then [.listName] else []⟩ := by
  obtain ⟨ts, hr, hts, hcs, -⟩ := ascii_reads (initial := env.initial) hn ha ht
  have hth : smallTheta (listSpelling v) = listSpelling v := by
    unfold smallTheta
    conv => rhs; rw [← List.map_id (listSpelling v)]
    apply List.map_congr_left
    intro c hc'
    have := alnum_ascii (ht c hc')
    rw [if_neg]
    · rfl
    · rintro (rfl | rfl | rfl) <;> exact absurd this (by decide)
  rw [nameAssign_run env _ e v (d := codes ts)
    (by unfold nameConv; rw [if_pos (list_facts hc)]; exact listNameSet_reads env hn hv (by rw [hth]; exact hr)),
    List.drop_eq_nil_of_le (by rw [hcs]; simpa using h8), hcs]
  simp

/-- C132 is false of the code, the six built-in lists: their names are stored as a letter and a digit. -/
theorem C132_builtin_false (env : Env V) (toks : List (Tok V × List Str)) (hn : ∀ p ∈ toks, [] ∉ p.2)
    (ha : AsciiTokens env.table toks) (e : Ent) (hc : e.cls ∈ listClasses) (d : Char) (h1 : '1' ≤ d) (h6 : d ≤ '6') :
    nameAssign env (Trie.fromTokens toks) ['L', d] e =
      ⟨.ok (), { e with name := [0x4C, UInt8.ofNat d.toNat, 0, 0, 0, 0, 0, 0] }, []⟩ ∧
    ∀ k, [0x4C, UInt8.ofNat d.toNat, 0, 0, 0, 0, 0, 0] ≠ ([0x5D, k, 0, 0, 0, 0, 0, 0] : Bytes) := by
  refine ⟨?_, by simp⟩
  have hd : Alnum d := Or.inr ⟨Char.le_trans (by decide) h1, Char.le_trans h6 (by decide)⟩
  have hs : listSpelling ['L', d] = ['L', d] := by
    have hd' := alnum_ascii hd
    obtain ⟨n, hn', rfl⟩ : ∃ n, n < 128 ∧ d = Char.ofNat n := ⟨d.toNat, hd', (Char.ofNat_toNat d).symm⟩
    clear hd hd'
    revert n
    decide +kernel
  have h := alnum_stored env toks hn ha e hc ['L', d]
    (by
      intro x hx
      left
      rcases List.mem_cons.1 hx with rfl | hx
      · decide
      · rw [List.mem_singleton.1 hx]; exact alnum_ascii hd)
    (by
      rw [hs]
      intro x hx
      rcases List.mem_cons.1 hx with rfl | hx
      · decide
      · rw [List.mem_singleton.1 hx]; exact hd)
    (by rw [hs]; simp)
  rw [h, hs]
  have : ¬ (['L', d].length > listLimit ['L', d]) := by
    unfold listLimit
    split <;> simp
  rw [if_neg this]
  rfl

/-- C132 is false of the code, lists named by the user: the name of a list read from a file is shown without the byte before it, and
assigning it to the list removes this byte. -/
theorem C132_custom_false (env : Env V) (htbl : CodeTable env.table) (toks : List (Tok V × List Str)) (hn : ∀ p ∈ toks, [] ∉ p.2)
    (ha : AsciiTokens env.table toks) (e : Ent) (hc : e.cls ∈ listClasses) (text : Str) (ht : ∀ c ∈ text, Alnum c)
    (h1 : 1 ≤ text.length) (h5 : text.length ≤ 5)
    (he : e.name = eight (0x5D :: text.map fun c => UInt8.ofNat c.toNat)) :
    nameRead env e = ([], .ok text) ∧
    nameAssign env (Trie.fromTokens toks) text e =
      ⟨.ok (), { e with name := eight (text.map fun c => UInt8.ofNat c.toNat) }, []⟩ ∧
    eight (text.map fun c => UInt8.ofNat c.toNat) ≠ e.name := by
  have hs : listSpelling text = text := by
    clear h1 h5 he
    induction text with
    | nil => rfl
    | cons c text ih =>
      have ih := ih fun x hx => ht x (by simp [hx])
      have hc := ht c (by simp)
      have key : listSpelling [c] = [c] := by
        obtain ⟨n, hn', rfl⟩ : ∃ n, n < 128 ∧ c = Char.ofNat n := ⟨c.toNat, alnum_ascii hc, (Char.ofNat_toNat c).symm⟩
        clear ht ih
        revert n
        decide +kernel
      have h2 : listSpelling (c :: text) = listSpelling [c] ++ listSpelling text := by simp [listSpelling]
      rw [h2, key, ih]
      rfl
  refine ⟨?_, ?_, ?_⟩
  · obtain ⟨ts, -, hts, hcs, hd⟩ := ascii_reads (initial := env.initial) hn ha ht
    rcases text with _ | ⟨c, r⟩
    · simp at h1
    have hc9 := ht c (by simp)
    have hk : ¬ (UInt8.ofNat c.toNat < 6) ∧ UInt8.ofNat c.toNat ≠ 0x40 := by
      obtain ⟨n, hn', rfl⟩ : ∃ n, n < 128 ∧ c = Char.ofNat n := ⟨c.toNat, alnum_ascii hc9, (Char.ofNat_toNat c).symm⟩
      clear hd hcs he h5 h1 ht hs
      revert n
      decide +kernel
    have hl : (codes ts).length ≤ 5 := by rw [hcs]; simpa using h5
    obtain ⟨rest, hrest⟩ : ∃ rest, rest = codes ts ++ List.replicate (7 - (codes ts).length) 0 := ⟨_, rfl⟩
    have hname : e.name = 0x5D :: UInt8.ofNat c.toNat :: rest.tail := by
      rw [he, hrest, hcs]
      simp only [List.map_cons, List.length_cons, List.length_map, List.cons_append, List.tail_cons, eight, List.take_succ_cons]
      rw [List.take_of_length_le (by simp at h5 ⊢; omega)]
      congr 4
      omega
    have htail : UInt8.ofNat c.toNat :: rest.tail = rest := by
      rw [hrest, hcs]
      rfl
    have htext : tokenText env rest = ([], c :: r) := by
      unfold tokenText
      have h8 : ljust 8 rest = codes ts ++ List.replicate (8 - (codes ts).length) 0 := by
        rw [hrest]
        unfold ljust
        rw [List.append_assoc, List.replicate_append_replicate]
        simp only [List.length_append, List.length_replicate]
        congr 2
        omega
      obtain ⟨h1, h2⟩ := decode_name env htbl hts (8 - (codes ts).length)
      simp only [h8, h1, h2, hd]
    unfold nameRead nameGet
    rw [if_pos (list_facts hc), hname]
    unfold listNameGet
    simp only [if_true, hk.1, hk.2, if_false]
    rw [htail, htext]
    rfl
  · have h := alnum_stored env toks hn ha e hc text (fun x hx => Or.inl (alnum_ascii (ht x hx))) (by rwa [hs])
      (by rw [hs]; omega)
    rw [h, hs, if_neg]
    unfold listLimit
    split <;> omega
  · rw [he]
    intro h
    rcases text with _ | ⟨c, r⟩
    · simp at h1
    · have := congrArg List.head? h
      simp only [List.map_cons, eight, List.take_succ_cons, List.cons_append, List.head?_cons, Option.some.injEq] at this
      have hc := ht c (by simp)
      have hc' := alnum_ascii hc
      obtain ⟨n, hn', rfl⟩ : ∃ n, n < 128 ∧ c = Char.ofNat n := ⟨c.toNat, hc', (Char.ofNat_toNat c).symm⟩
      clear h h1 h5 hs he ht hc'
      revert n
      decide +kernel

/-- C132 is false of the code, `IDList`: the name is read but assigning it stores six letters, with a warning. -/
theorem C132_idlist_false (env : Env V) (toks : List (Tok V × List Str)) (hn : ∀ p ∈ toks, [] ∉ p.2)
    (ha : AsciiTokens env.table toks) (e : Ent) (hc : e.cls ∈ listClasses) (he : e.name = [0x5D, 0x40, 0, 0, 0, 0, 0, 0]) :
    nameRead env e = ([], .ok "IDList".toList) ∧
    nameAssign env (Trie.fromTokens toks) "IDList".toList e =
      ⟨.ok (), { e with name := [0x49, 0x44, 0x4C, 0x49, 0x53, 0x54, 0, 0] }, [.listName]⟩ := by
  constructor
  · unfold nameRead nameGet
    rw [if_pos (list_facts hc), he]
    rfl
  · rw [alnum_stored env toks hn ha e hc _ (by decide +kernel) (by decide +kernel) (by decide +kernel)]
    rfl

example : [named8 .realList "abc", named8 .complexList "]z", named8 .realList "ABCDEF"] =
    [(some (), [0x41, 0x42, 0x43, 0, 0, 0, 0, 0], [], some "ABC".toList),
     (some (), [0xEB, 0x5A, 0, 0, 0, 0, 0, 0], [], some "ʟZ".toList),
     (some (), [0x41, 0x42, 0x43, 0x44, 0x45, 0x46, 0, 0], [.listName], some "ABCDEF".toList)] := by decide +kernel

example : [named8 .realList "L1", named8 .realList "Z"] =
    [(some (), [0x4C, 0x31, 0, 0, 0, 0, 0, 0], [], some "L1".toList),
     (some (), [0x5A, 0, 0, 0, 0, 0, 0, 0], [], some "Z".toList)] ∧
    (nameRead nameEnv { blankOf .realList with name := [0x5D, 0, 0, 0, 0, 0, 0, 0] }).2.toOption = some "L₁".toList ∧
    (nameRead nameEnv { blankOf .realList with name := [0x5D, 0x5A, 0, 0, 0, 0, 0, 0] }).2.toOption = some "Z".toList := by decide +kernel

end Verif
