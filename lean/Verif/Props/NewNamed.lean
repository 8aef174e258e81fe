import Verif.Model.NewNamed
import Verif.Spec.NewNamed
import Verif.Proofs.Construct
import Verif.Props.EntryName
import Verif.Props.Picture

/-! C135: the names of new entries. -/

namespace Verif
open Spec Ent
variable {V : Type} [LinearOrder V]

/-- C135, a new entry is named as assigning the name to an entry of its class names that, with the same warnings, and is
blank otherwise; a name that cannot be assigned makes the constructor fail likewise. -/
theorem C135_named (env : Env V) (trie : Trie (Tok V)) {c : Cls} (hc : c ≠ .graphedEquation) (name : Str)
    (version : Option Nat) (archived : Option Bool) (e : Ent) (he : e.cls = c) :
    (∀ x, (nameAssign env trie name e).res = .error x →
      newNamed env trie c name true version archived [] (pure ()) () = ⟨.error x, (), (nameAssign env trie name e).warns⟩) ∧
    ((nameAssign env trie name e).res = .ok () →
      ∃ v ws, newNamed env trie c name true version archived [] (pure ()) () =
        ⟨.ok ⟨c, [0x0D, 0x00], [UInt8.ofNat (c.typeId.getD 0xFF)], (nameAssign env trie name e).st.name, [v],
          [if archived = some true then 0x80 else 0x00], ⟨true, blank c⟩⟩, (), (nameAssign env trie name e).warns ++ ws⟩ ∧
      (∀ w ∈ ws, w ∉ corruption) ∧ (version = none → c ∉ gdbClasses → InitialOldest env → ws = [])) := by
  have hnew := fun d => new_blank env hc ⟨d, true, version, archived⟩ rfl
  subst he
  unfold newNamed nameAssign
  rw [PyM.bind_ok (show PyM.ofExcept (initMeta true) () = ⟨.ok _, (), []⟩ from rfl)]
  simp only [PyM.bind_run, PyM.get_run, PyM.lift_run]
  rcases nameConv env trie e.cls name () with ⟨r, u, w1⟩
  cases r with
  | error x => exact ⟨fun y hy => by simpa using hy, fun h => by simp at h⟩
  | ok b =>
    simp only
    rcases fitWidth (some 8) b () with ⟨r, u, w2⟩
    cases r with
    | error x => exact ⟨fun y hy => by simpa using hy, fun h => by simp at h⟩
    | ok b' =>
      obtain ⟨v, w, hw, h1, -, h2⟩ := hnew b'
      refine ⟨fun y hy => by simp [PyM.set_run] at hy, fun _ => ⟨v, w, ?_, h1, fun a b c => (h2 a b c).2⟩⟩
      simp only [hw, PyM.set_run]
      simp

omit [LinearOrder V] in
/-- The name of one token, read with the longest names. -/
theorem readAs_one {initial : V} {toks : List (Tok V × List Str)} {text : Str} {t : Tok V}
    (hl : ¬ StartsLiteral text) (hn : named (namePairs toks) text = some t) : ReadAs initial toks false text [t] := by
  refine ⟨[(text, t)], ?_, rfl⟩
  have := Pieces.next (P := IsMunch (illegalTok initial) (namePairs toks) false) (text := text) (s := []) (t := t)
    (ps := []) (rest := []) (by
      rw [List.append_nil]
      exact ⟨Or.inr ⟨hl, List.prefix_refl _, hn⟩, fun _ n _ h => h⟩) .done
  rwa [List.append_nil] at this

/-- How the first names are spelled. -/
theorem first_spelled {c : Cls} (h : c ∈ tokenNamed) : Spelled c (defaultName c) (firstName c).1.toList := by
  have hy : ∀ c ∈ equationClasses, Spelled c "Y1".toList "{Y1}".toList := by
    intro c hc
    unfold Spelled
    rw [if_pos hc]
    exact Or.inr (Or.inl ⟨['Y', '1'], ⟨'Y', '1', by decide, by decide, by decide, Or.inl rfl⟩, by decide, rfl⟩)
  cases c <;> first
    | exact absurd h (by decide)
    | exact hy _ (by decide)
    | (unfold Spelled; rw [if_neg (by decide), if_neg (by decide)]; rfl)
    | (unfold Spelled; rw [if_neg (by decide), if_pos rfl]; exact ⟨by decide, by decide⟩)

/-- The four kinds of first names. -/
theorem first_cases (c : Cls) (hc : c ∉ listClasses) (hg : c ≠ .graphedEquation) :
    (∃ c' ∈ [Cls.matrix, .equation, .string, .picture, .gdb], c ∈ tokenNamed ∧ firstName c = firstName c' ∧
      firstShown c = firstShown c' ∧ nameByte c = some ((firstName c').2.headD 0)) ∨
    (c ∈ tokenNamed ∧ nameByte c = none ∧ defaultName c = (firstName c).1.toList ∧ firstShown c = (firstName c).1 ∧
      (∀ x ∈ (firstName c).1.toList, Alnum x) ∧ (firstName c).1.toList.map (fun x => UInt8.ofNat x.toNat) = (firstName c).2 ∧
      (firstName c).2.length ≤ 8 ∧ smallTheta (firstName c).1.toList = (firstName c).1.toList) ∨
    (c ∈ [Cls.window, .recallWindow, .tableSettings] ∧ defaultName c = (firstName c).1.toList ∧ firstShown c = (firstName c).1 ∧
      (∀ x ∈ defaultName c, x.toNat < 256) ∧ (defaultName c).length ≤ 8 ∧ (defaultName c).getLast? ≠ some '\x00' ∧
      (defaultName c).map (fun x => UInt8.ofNat x.toNat) = (firstName c).2) ∨ c = .image := by
  revert hc hg
  cases c <;> decide +kernel

/-- C135, the part that holds of `cls()`: except for lists, the new entry has the first name of its class, stored as
calculators do, and no warning is about the name. -/
theorem C135_default_partial (env : Env V) (htbl : CodeTable env.table) (toks : List (Tok V × List Str)) (hn : ∀ p ∈ toks, [] ∉ p.2)
    (hf : FirstTokens env.table toks) {c : Cls} (hc : c ∉ listClasses) (hg : c ≠ .graphedEquation) :
    ∃ v ws, newDefault env (Trie.fromTokens toks) c () =
        ⟨.ok ⟨c, [0x0D, 0x00], [UInt8.ofNat (c.typeId.getD 0xFF)], eight (firstName c).2, [v], [keptIn c], ⟨true, blank c⟩⟩, (), ws⟩ ∧
      (∀ e : Ent, e.cls = c → e.name = eight (firstName c).2 → nameRead env e = ([], .ok (firstShown c).toList)) ∧
      (∀ w ∈ ws, w ∉ corruption) ∧ (c ∉ gdbClasses → InitialOldest env → ws = []) := by
  have key : ∀ e : Ent, e.cls = c → nameAssign env (Trie.fromTokens toks) (defaultName c) e =
      ⟨.ok (), { e with name := eight (firstName c).2 }, []⟩ ∧
      nameRead env { e with name := eight (firstName c).2 } = ([], .ok (firstShown c).toList) := by
    intro e he
    subst he
    have ht := C131_stored env htbl toks hn e
    have one : ∀ c' ∈ [Cls.matrix, .equation, .string, .picture, .gdb], e.cls ∈ tokenNamed → firstName e.cls = firstName c' →
        firstShown e.cls = firstShown c' → nameByte e.cls = some ((firstName c').2.headD 0) → Spelled e.cls (defaultName e.cls) (firstName c').1.toList →
        nameAssign env (Trie.fromTokens toks) (defaultName e.cls) e = ⟨.ok (), { e with name := eight (firstName e.cls).2 }, []⟩ ∧
        nameRead env { e with name := eight (firstName e.cls).2 } = ([], .ok (firstShown e.cls).toList) := by
      intro c' hc' h1 h2 h3 h4 h5
      obtain ⟨t, htab, hnm, hb, hd⟩ := hf.first c' hc'
      have hsl : ¬ StartsLiteral (firstName c').1.toList ∧ smallTheta (firstName c').1.toList = (firstName c').1.toList ∧
          (firstName c').2.length ≤ 8 ∧ (firstName c').2 ≠ [] := by
        clear hb hd hnm h2 h3 h4 h5
        simp only [List.mem_cons, List.not_mem_nil, or_false] at hc'
        rcases hc' with rfl | rfl | rfl | rfl | rfl <;>
        exact ⟨by rintro (⟨r, hr⟩ | ⟨r, hr⟩) <;> exact absurd (List.cons.inj hr).1 (by decide), by decide, by decide, by decide⟩
      have hcs : codes [t] = (firstName c').2 := by simp [codes, hb]
      have := ht h1 (defaultName e.cls) _ h5 [t] (by rw [h4, hsl.2.1]; exact readAs_one hsl.1 hnm) (by simpa using htab)
        (by rw [hcs]; exact hsl.2.2.1)
      rw [hcs, if_pos (by
        intro b hb'
        rw [h4] at hb'
        injection hb' with hb'
        rw [← hb']
        rcases hx : (firstName c').2 with _ | ⟨x, r⟩
        · exact absurd hx hsl.2.2.2
        · rfl)] at this
      rw [h2, h3]
      refine ⟨this.1, ?_⟩
      rw [this.2]
      simp [hd]
    have asc : e.cls ∈ tokenNamed → nameByte e.cls = none → defaultName e.cls = (firstName e.cls).1.toList → firstShown e.cls = (firstName e.cls).1 →
        Spelled e.cls (defaultName e.cls) (defaultName e.cls) → (∀ x ∈ (firstName e.cls).1.toList, Alnum x) →
        (firstName e.cls).1.toList.map (fun x => UInt8.ofNat x.toNat) = (firstName e.cls).2 → (firstName e.cls).2.length ≤ 8 →
        smallTheta (firstName e.cls).1.toList = (firstName e.cls).1.toList →
        nameAssign env (Trie.fromTokens toks) (defaultName e.cls) e = ⟨.ok (), { e with name := eight (firstName e.cls).2 }, []⟩ ∧
        nameRead env { e with name := eight (firstName e.cls).2 } = ([], .ok (firstShown e.cls).toList) := by
      intro h1 h2 h3 h4 h5 h6 h7 h8 h9
      obtain ⟨ts, hr, hts, hcs, hd⟩ := ascii_reads (initial := env.initial) hn hf.ascii h6
      rw [h7] at hcs
      have := ht h1 (defaultName e.cls) _ h5 ts (by rw [h2, h3, h9]; exact hr) hts (by rw [hcs]; exact h8)
      rw [hcs, if_pos (by intro b hb; rw [h2] at hb; cases hb), hd] at this
      rw [h4]
      exact this
    have set : e.cls ∈ [Cls.window, .recallWindow, .tableSettings] → defaultName e.cls = (firstName e.cls).1.toList → firstShown e.cls = (firstName e.cls).1 →
        (∀ x ∈ defaultName e.cls, x.toNat < 256) → (defaultName e.cls).length ≤ 8 → (defaultName e.cls).getLast? ≠ some '\x00' →
        (defaultName e.cls).map (fun x => UInt8.ofNat x.toNat) = (firstName e.cls).2 →
        nameAssign env (Trie.fromTokens toks) (defaultName e.cls) e = ⟨.ok (), { e with name := eight (firstName e.cls).2 }, []⟩ ∧
        nameRead env { e with name := eight (firstName e.cls).2 } = ([], .ok (firstShown e.cls).toList) := by
      intro h1 h2 h3 h4 h5 h6 h7
      obtain ⟨e', h8, h9, rfl⟩ := C131_settings env (Trie.fromTokens toks) e h1 (defaultName e.cls) h4 h5 h6
      rw [h7] at h8 h9
      rw [h3, ← h2]
      exact ⟨h8, h9⟩
    have hsp : e.cls ∈ tokenNamed → Spelled e.cls (defaultName e.cls) (firstName e.cls).1.toList := first_spelled
    have hall := first_cases e.cls hc hg
    rcases hall with ⟨c', h1, h2, h3, h4, h5⟩ | ⟨h1, h2, h3, h4, h5, h6, h7, h8⟩ | ⟨h1, h2, h3, h4, h5, h6, h7⟩ | h
    · exact one c' h1 h2 h3 h4 h5 (h3 ▸ hsp h2)
    · exact asc h1 h2 h3 h4 (by have := hsp h1; rwa [← h3] at this) h5 h6 h7 h8
    · exact set h1 h2 h3 h4 h5 h6 h7
    · rw [h]
      constructor
      · unfold nameAssign
        simp only [PyM.bind_run, PyM.get_run, PyM.lift_run]
        rw [h]
        rfl
      · unfold nameRead
        rfl
  obtain ⟨v, ws, h1, h2, h3⟩ := (C135_named env (Trie.fromTokens toks) hg (defaultName c) none (defaultArchived c) (blankOf c) rfl).2
    (by rw [(key _ rfl).1])
  rw [(key (blankOf c) rfl).1] at h1
  refine ⟨v, ws, ?_, fun e he h => ?_, h2, h3 rfl⟩
  rotate_left
  · have := (key e he).2
    rwa [← h] at this
  unfold newDefault
  rw [h1]
  have : (if defaultArchived c = some true then (0x80 : UInt8) else 0x00) = keptIn c := by
    cases c <;> rfl
  rw [this]
  rfl

example : FirstTokens nameEnv.table nameTokens ∧ CodeTable nameEnv.table ∧ ∀ p ∈ nameTokens, [] ∉ p.2 := by
  refine ⟨⟨fun c hc => ?_, by decide +kernel⟩, ?_, by decide +kernel⟩
  · obtain ⟨n, hn', rfl⟩ : ∃ n, n < 128 ∧ c = Char.ofNat n := ⟨c.toNat, alnum_ascii hc, (Char.ofNat_toNat c).symm⟩
    revert n
    decide +kernel
  · unfold CodeTable
    decide +kernel

/-- The names of some new entries. -/
example : ([Cls.program, .matrix, .newEquation, .string, .func, .image, .tableSettings].map fun c =>
      match (newDefault nameEnv (Trie.fromTokens nameTokens) c ()).res with
      | .ok e => (e.name, e.archived, (nameRead nameEnv e).2.toOption)
      | .error _ => ([], [], none)) =
    [([0x55, 0x4E, 0x4E, 0x41, 0x4D, 0x45, 0x44, 0], [0], some "UNNAMED".toList), ([0x5C, 0, 0, 0, 0, 0, 0, 0], [0], some "[A]".toList),
     ([0x5E, 0x10, 0, 0, 0, 0, 0, 0], [0], some "Y₁".toList), ([0xAA, 0, 0, 0, 0, 0, 0, 0], [0], some "Str1".toList),
     ([0x61, 0, 0, 0, 0, 0, 0, 0], [0], some "GDB1".toList), ([0x3C, 0, 0, 0, 0, 0, 0, 0], [0x80], some "Image1".toList),
     ([0x54, 0x62, 0x6C, 0x53, 0x65, 0x74, 0, 0], [0], some "TblSet".toList)] := by decide +kernel

/-- C135 is false of lists: a new list is not called `L1` as calculators store it, but by a letter and a digit. -/
theorem C135_default_false (env : Env V) (toks : List (Tok V × List Str)) (hn : ∀ p ∈ toks, [] ∉ p.2)
    (ha : AsciiTokens env.table toks) {c : Cls} (hc : c ∈ listClasses) :
    ∃ v ws, newDefault env (Trie.fromTokens toks) c () =
        ⟨.ok ⟨c, [0x0D, 0x00], [UInt8.ofNat (c.typeId.getD 0xFF)], [0x4C, 0x31, 0, 0, 0, 0, 0, 0], [v], [0x00], ⟨true, blank c⟩⟩, (), ws⟩ ∧
      ([0x4C, 0x31, 0, 0, 0, 0, 0, 0] : Bytes) ≠ eight (firstName c).2 := by
  have hd : defaultName c = ['L', '1'] ∧ defaultArchived c = none ∧ c ≠ .graphedEquation ∧
      ([0x4C, 0x31, 0, 0, 0, 0, 0, 0] : Bytes) ≠ eight (firstName c).2 := by
    revert hc
    cases c <;> decide
  have key := (C132_builtin_false env toks hn ha (blankOf c) hc '1' (by decide) (by decide)).1
  obtain ⟨v, ws, h1, -⟩ := (C135_named env (Trie.fromTokens toks) hd.2.2.1 (defaultName c) none (defaultArchived c) (blankOf c) rfl).2
    (by rw [hd.1, key])
  rw [hd.1, hd.2.1, key] at h1
  refine ⟨v, ws, ?_, hd.2.2.2⟩
  unfold newDefault
  rw [hd.1, hd.2.1, h1]
  rfl

example : (match (newDefault nameEnv (Trie.fromTokens nameTokens) .realList ()).res with
      | .ok e => (e.name, (nameRead nameEnv e).2.toOption)
      | .error _ => ([], none)) = ([0x4C, 0x31, 0, 0, 0, 0, 0, 0], some "L1".toList) := by decide +kernel

end Verif
