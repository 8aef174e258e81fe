import Verif.Proofs.AnyText
import Verif.Props.ArrayText
import Verif.Props.TextFile

/-! C146: a text loaded into an entry that has no class of its own. -/

namespace Verif
open Spec Ent
variable {V : Type} [LinearOrder V]

/-- **C146, the order decides**: whatever the constructors do, the entry becomes what the first class that accepts the text makes
of it, without any warning, if that can be stored; the classes after it are not asked. -/
theorem C146_first (env : Env V) (mk : Cls → PyM Unit Ent) (before after : List Cls) (c : Cls) (hr : registered = before ++ c :: after)
    (hno : ∀ k ∈ before, ∃ x, (mk k ()).res = .error x) (x : Ent) (w : List Warn) (hx : mk c () = ⟨.ok x, (), w⟩) (hex : Exact env x)
    (e : Ent) (he : e.cls = .entry) :
    tryClasses env mk registered e = ⟨.ok (), { x with body := ⟨true, x.body.bytes⟩ }, []⟩ := by
  rw [hr]
  clear hr
  induction before with
  | nil => exact tryClasses_hit env hx hex after he
  | cons k before ih =>
    obtain ⟨y, hy⟩ := hno k (by simp)
    rw [List.cons_append, tryClasses_miss env hy]
    exact ih fun k hk => hno k (List.mem_cons_of_mem _ hk)

/-- **C146, refusal**: if no class accepts the text, `ValueError` is raised, and the entry is what it was. -/
theorem C146_refused (env : Env V) (mk : Cls → PyM Unit Ent) (hno : ∀ k ∈ registered, ∃ x, (mk k ()).res = .error x) (e : Ent) :
    tryClasses env mk registered e = ⟨.error .valueError, e, []⟩ := by
  generalize registered = l at hno
  induction l with
  | nil => rfl
  | cons k l ih =>
    obtain ⟨y, hy⟩ := hno k (by simp)
    rw [tryClasses_miss env hy]
    exact ih fun k hk => hno k (List.mem_cons_of_mem _ hk)

/-- The classes registered after the classes of real numbers. -/
def afterReals : List Cls := registered.drop 7

theorem registered_reals : registered = .appVar :: (realTypes.map Prod.snd ++ afterReals) := by decide

variable (env : Env V) (trie : Trie (Tok V)) (mode : EncMode) (other : Cls → Str → PyM Ent Unit) (nm : Cls → Bytes)

/-- The loop on a text, after the AppVars and the classes of real numbers. -/
theorem loadAny_reals (hn : ∀ c, (nm c).length = 8) (s : Str) {e : Ent} (he : e.cls = .entry) :
    loadAnyText env trie mode other nm s e =
      match firstReal s realTypes with
      | .ok (c, b) => ⟨.ok (), textEnt nm c (c.versions.headD 0) b, []⟩
      | .error _ => tryClasses env (fun c => newText env trie mode other nm c s) afterReals e := by
  have happ : (newText env trie mode other nm .appVar s ()).res = .error .valueError := new_load_error env rfl
  unfold loadAnyText
  rw [registered_reals, tryClasses_miss env happ, tryClasses_reals env trie mode other nm hn s afterReals he realTypes (by decide)]
  rcases firstReal s realTypes with x | ⟨c, b⟩ <;> rfl

theorem kind_facts {n : NumText} : n.kind.typeId = some (fromLE [UInt8.ofNat (n.kind.typeId.getD 0xFF)]) ∧
    n.kind.versions = [fromLE [UInt8.ofNat (n.kind.versions.headD 0)]] := by
  have h : ∀ c : Cls, c ∈ realClasses → c.typeId = some (fromLE [UInt8.ofNat (c.typeId.getD 0xFF)]) ∧
      c.versions = [fromLE [UInt8.ofNat (c.versions.headD 0)]] := by decide +kernel
  refine h _ ?_
  cases n <;> simp [NumText.kind, realClasses]

/-- **C146, numbers**: a text that denotes a number makes an entry of unknown class that number, of the class its form asks for, with
the default name and version of the class, not archived. Missing: the texts excluded by `NumText.Fits`, see `C94_forms_false`, and
complex numbers, lists and matrices, see `C146_list_false`. -/
theorem C146_number_partial (hn : ∀ c, (nm c).length = 8) (n : NumText) (hv : n.Valid) (hf : n.Fits) (s : Str) (hw : n.Writes s)
    (e : Ent) (he : e.cls = .entry) :
    ∃ x, loadAnyText env trie mode other nm s e = ⟨.ok (), x, []⟩ ∧ x.cls = n.kind ∧ Stored n x ∧ RealElem x ∧
      x.name = nm n.kind ∧ x.archived = [0x00] ∧ n.kind.typeId = some (fromLE x.typeId) ∧ n.kind.versions = [fromLE x.version] := by
  obtain ⟨y, hy, hre, hcls, hst⟩ := C94_element_partial n hv hf s hw
  rw [loadAny_reals env trie mode other nm hn s he]
  unfold realOfString at hy
  rw [PyM.ofExcept_run] at hy
  rcases hr : firstReal s realTypes with x | ⟨c, b⟩
  · rw [hr] at hy
    cases hy
  · rw [hr] at hy
    have hyy : elem c b = y := by
      injection hy with h
      injection h
    subst hyy
    have hc : c = n.kind := hcls
    subst hc
    refine ⟨_, rfl, rfl, ?_, ⟨hre.1, hre.2.1, hre.2.2⟩, rfl, rfl, ?_, ?_⟩
    · cases n <;> exact hst
    · exact kind_facts.1
    · exact kind_facts.2

/-- **C146, numbers of any class**: `RealEntry(string)`, which is how lists and matrices read their elements, goes through the same loop.
It gives the number of the first class that accepts the text, and `ValueError` if there is none; this is `realOfString`. -/
theorem C146_real (hn : ∀ c, (nm c).length = 8) (s : Str) (e : Ent) (he : e.cls = .realE) :
    (∀ x, realOfString s () = ⟨.ok x, (), []⟩ →
      ∃ y, loadAnyText env trie mode other nm s e = ⟨.ok (), y, []⟩ ∧ y.cls = x.cls ∧ y.body = x.body) ∧
    ((∀ x, realOfString s () ≠ ⟨.ok x, (), []⟩) → loadAnyText env trie mode other nm s e = ⟨.error .valueError, e, []⟩) := by
  have hloop : loadAnyText env trie mode other nm s e =
      match firstReal s realTypes with
      | .ok (c, b) => ⟨.ok (), textEnt nm c (c.versions.headD 0) b, []⟩
      | .error _ => ⟨.error .valueError, e, []⟩ := by
    have happ : (newText env trie mode other nm .appVar s ()).res = .error .valueError := new_load_error env rfl
    unfold loadAnyText
    rw [registered_reals, tryClasses_miss env happ, tryClasses_realE env trie mode other nm hn s afterReals he realTypes (by decide),
      tryClasses_skip env _ afterReals (by rw [he]; decide)]
    rcases firstReal s realTypes with x | ⟨c, b⟩ <;> rfl
  rw [hloop]
  unfold realOfString
  rw [PyM.ofExcept_run]
  rcases hr : firstReal s realTypes with x | ⟨c, b⟩
  · exact ⟨fun x h => (by cases h), fun _ => rfl⟩
  · refine ⟨fun x h => ⟨_, rfl, ?_⟩, fun h => absurd rfl (h _)⟩
    have hx : elem c b = x := by
      injection h with h
      injection h
    subst hx
    exact ⟨rfl, rfl⟩

/-- **C146, tokens**: a text that is no number and no complex number, but can be encoded with tokens of the sheet, makes the entry an
equation with these tokens, and with that text if each piece of the text is the name by which its token is shown. Missing: texts
whose version is mistaken for the length, see `C141_flash_false`. -/
theorem C146_tokens_partial (htbl : CodeTable env.table) (hn : ∀ c, (nm c).length = 8) (toks : List (Tok V × List Str)) (s : Str)
    (hnum : ∀ c ∈ registered.take 12, ∃ x, (newText env (Trie.fromTokens toks) mode other nm c s ()).res = .error x)
    (acc : EncAcc V) (henc : encode env.initial (Trie.fromTokens toks) mode s = some (.ok acc))
    (hlit : ∀ a b, s = a ++ b → ¬ StartsLiteral b) (hin : ∀ p ∈ toks, p.1 ∈ env.table) (hne : s ≠ [])
    (hlen : acc.data.length + 2 < 65536)
    (hver : tokenVersion env (decode env.initial env.table acc.data).since acc.data ≠ acc.data.length + 2)
    (e : Ent) (he : e.cls = .entry) :
    ∃ x ps, loadAnyText env (Trie.fromTokens toks) mode other nm s e = ⟨.ok (), x, []⟩ ∧ x.cls = .equation ∧ x.name = nm .equation ∧
      x.archived = [0x00] ∧ Pieces (IsPiece (illegalTok env.initial) (namePairs toks)) s ps [] ∧
      x.tokens env = ([], ps.map Prod.snd) ∧ ((∀ p ∈ ps, p.2.display = p.1) → x.string env = s) := by
  have hE : (startEnt .equation { name := nm .equation }).cls = .equation := rfl
  obtain ⟨e', ws, ps, hrun, hps, -, ⟨os, he'⟩, hdata, htok, hstr⟩ :=
    load_string_full env htbl (startEnt .equation { name := nm .equation }) (by rw [hE]; decide) rfl (show 2 ≤ (clearFull .equation).length by decide +kernel) toks mode s acc
      henc hlit hin hne (by omega)
  have hc' : e'.cls = .equation := by rw [he']; rfl
  have hbody : e'.body = ⟨true, toLE 2 acc.data.length ++ acc.data⟩ := by rw [he', hdata]
  have hd : e'.data = acc.data := by
    unfold data
    rw [hbody, hc']
    show (toLE 2 acc.data.length ++ acc.data).drop 2 = acc.data
    rw [List.drop_left' (length_toLE _ _)]
  have hgv : getVersion env e' [] = ((decode env.initial env.table acc.data).warns,
      .ok (tokenVersion env (decode env.initial env.table acc.data).since acc.data)) := by
    unfold getVersion
    simp [getVersionN, hc', tokenGetVersion, tokenizedVersion, hd]
  have hnew := new_load env (a := { name := nm .equation }) rfl (load := textLoader env (Trie.fromTokens toks) mode other .equation s) hrun
    (fun _ => hgv) rfl
  have hb := tokenVersion_le env (decode env.initial env.table acc.data).since acc.data
  generalize tokenVersion env (decode env.initial env.table acc.data).since acc.data = v at *
  rw [if_pos rfl] at hnew
  have hex : Exact env { e' with version := [UInt8.ofNat v] } := by
    have hl : e'.body.bytes.length = acc.data.length + 2 := by
      rw [hbody]
      simp [length_toLE]
      omega
    refine ⟨⟨⟨.inr (by rw [he']; rfl), by rw [he']; rfl, by rw [he']; exact hn _, rfl, by rw [he']; rfl⟩, .inl (by rw [he']; rfl), fun h => ?_, ?_⟩,
      fun _ h => ?_, ⟨?_, .inl ?_⟩, fun h => ?_, fun h => ?_⟩
    · rw [he'] at h
      exact absurd (show ([0x0D, 0x00] : Bytes) = [0x0B, 0x00] from h) (by decide)
    · show e'.body.bytes.length ≤ 65535
      omega
    · have h' : fromLE ([UInt8.ofNat v] ++ e'.archived) = e'.body.bytes.length := h
      rw [hl, he'] at h'
      have h'' : fromLE [UInt8.ofNat v, 0x00] = acc.data.length + 2 := h'
      simp [fromLE] at h''
      omega
    · rw [he']
      show Cls.equation.typeId = some (fromLE [UInt8.ofNat (Cls.equation.typeId.getD 0xFF)])
      decide +kernel
    · show Plain e'.cls = true
      rw [hc']
      rfl
    · have h' : e'.cls ∈ colorClasses := h
      rw [hc'] at h'
      exact absurd h' (by decide)
    · have h' : e'.cls ∈ [Cls.monoFunc, .monoParam, .monoPolar, .monoSeq] := h
      rw [hc'] at h'
      exact absurd h' (by decide)
  have hres := C146_first env (fun c => newText env (Trie.fromTokens toks) mode other nm c s) (registered.take 12) (registered.drop 13)
    .equation (by decide) hnum _ _ hnew hex e he
  refine ⟨_, ps, hres, hc', by rw [he']; rfl, by rw [he']; rfl, hps, ?_, fun h => ?_⟩
  · exact htok
  · exact hstr h

/-- A sheet with the tokens of a list. -/
def bracesTable : List (Tok Nat) :=
  [⟨[0x08], ['{'], [['{']], 0⟩, ⟨[0x09], ['}'], [['}']], 0⟩, ⟨[0x2B], [','], [[',']], 0⟩, ⟨[0x31], ['1'], [['1']], 0⟩,
    ⟨[0x32], ['2'], [['2']], 0⟩]

def bracesEnv : Env Nat := { sampleEnv with table := bracesTable }
def bracesTrie : Trie (Tok Nat) := Trie.fromTokens (bracesTable.map fun t => (t, t.names))

/-- An entry of unknown class. -/
def noEntry : Ent := ⟨.entry, [0x0D, 0x00], [0xFF], sampleEnv.unnamed, [0x00], [0x00], ⟨true, []⟩⟩

/-- **C146 is false of lists**: the class of lists of real numbers makes the list 1, 2 of the text `{1,2}`, but equations are asked
first: the entry becomes an equation. -/
theorem C146_list_false :
    ∃ (env : Env Nat) (trie : Trie (Tok Nat)) (s : Str) (x y : Ent) (other : Cls → Str → PyM Ent Unit) (nm : Cls → Bytes) (e : Ent),
      (∀ c, (nm c).length = 8) ∧ e.cls = .entry ∧ s = "{1,2}".toList ∧
      (newText env trie .max other nm .realList s ()).res = .ok x ∧
      x.body.bytes = [0x02, 0x00, 0x00, 0x80, 0x10, 0, 0, 0, 0, 0, 0, 0x00, 0x80, 0x20, 0, 0, 0, 0, 0, 0] ∧
      (loadAnyText env trie .max other nm s e).res = .ok () ∧ (loadAnyText env trie .max other nm s e).st = y ∧ y.cls = .equation ∧
      y.string env = s := by
  refine ⟨bracesEnv, bracesTrie, _,
    ⟨.realList, [0x0D, 0x00], [0x01], sampleEnv.unnamed, [0x00], [0x00],
      ⟨true, [0x02, 0x00, 0x00, 0x80, 0x10, 0, 0, 0, 0, 0, 0, 0x00, 0x80, 0x20, 0, 0, 0, 0, 0, 0]⟩⟩,
    ⟨.equation, [0x0D, 0x00], [0x03], sampleEnv.unnamed, [0x00], [0x00], ⟨true, [0x05, 0x00, 0x08, 0x31, 0x2B, 0x32, 0x09]⟩⟩,
    fun _ _ => PyM.raise .valueError, fun _ => sampleEnv.unnamed, noEntry, fun _ => rfl, rfl, rfl, ?_, rfl, ?_, ?_, rfl, ?_⟩
  all_goals decide +kernel

/-- **C146 is false of texts without meaning**: `TIMatrix.load_string` takes off the first and last character whatever they are and
reads nothing as zero, so that a text of one or two characters that nothing else reads becomes a matrix of one zero. -/
theorem C146_matrix_false :
    ∃ (env : Env Nat) (trie : Trie (Tok Nat)) (s : Str) (y : Ent) (other : Cls → Str → PyM Ent Unit) (nm : Cls → Bytes) (e : Ent),
      (∀ c, (nm c).length = 8) ∧ e.cls = .entry ∧ s = "€".toList ∧
      (loadAnyText env trie .max other nm s e).res = .ok () ∧ (loadAnyText env trie .max other nm s e).st = y ∧ y.cls = .matrix ∧
      y.body.bytes = [0x01, 0x01, 0x00, 0x80, 0, 0, 0, 0, 0, 0, 0] := by
  refine ⟨bracesEnv, bracesTrie, _,
    ⟨.matrix, [0x0D, 0x00], [0x02], sampleEnv.unnamed, [0x00], [0x00], ⟨true, [0x01, 0x01, 0x00, 0x80, 0, 0, 0, 0, 0, 0, 0]⟩⟩,
    fun _ _ => PyM.raise .valueError, fun _ => sampleEnv.unnamed, noEntry, fun _ => rfl, rfl, rfl, ?_, ?_, rfl, rfl⟩
  all_goals decide +kernel

/-- With the same sheet: a fraction, a complex number, a matrix whose digits are not all in the sheet, and a text no class reads. -/
example :
    (["2/3", "1+2i", "[[1,2][3,4]]", "who?"].map fun s =>
      match loadAnyText bracesEnv bracesTrie .max (fun _ _ => PyM.raise .valueError) (fun _ => sampleEnv.unnamed) s.toList noEntry with
      | ⟨r, e, w⟩ => (match r with | .ok () => true | .error _ => false, e.cls, e.version, w)) =
    [(true, .realFraction, [0x06], []), (true, .complex, [0x00], []), (true, .matrix, [0x00], []), (false, .entry, [0x00], [])] := by
  decide +kernel

/-- The hypotheses about a text of tokens are met by `{1,2}`. -/
example :
    (∀ c ∈ registered.take 12, ((newText bracesEnv bracesTrie .max (fun _ _ => PyM.raise .valueError) (fun _ => sampleEnv.unnamed) c
      "{1,2}".toList ()).res.toOption.isNone)) ∧
    (match encode bracesEnv.initial bracesTrie .max "{1,2}".toList with
      | some (.ok acc) => acc.data == [0x08, 0x31, 0x2B, 0x32, 0x09] &&
          tokenVersion bracesEnv (decode bracesEnv.initial bracesEnv.table acc.data).since acc.data == 0
      | _ => false) = true := by
  decide +kernel

end Verif
