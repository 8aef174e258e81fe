import Verif.Model.AnyText
import Verif.Proofs.Join
import Verif.Proofs.Init
import Verif.Proofs.Header
import Verif.Proofs.Real
import Verif.Proofs.LoadFault
import Verif.Proofs.Array

/-! Helper lemmas for loading a text into an entry whose class has no format of its own. -/

namespace Verif
open Spec

/-- An action that keeps nine changeable bytes as such, and the low seven bits of the first. -/
def KeepsNine {α : Type} (x : PyM Buf α) : Prop :=
  ∀ (b : UInt8) (l : Bytes), l.length = 8 →
    ∃ b' l', (x ⟨true, b :: l⟩).st = ⟨true, b' :: l'⟩ ∧ l'.length = 8 ∧ b'.toNat % 128 = b.toNat % 128

theorem keepsNine_bind {α β : Type} {x : PyM Buf α} {f : α → PyM Buf β} (hx : KeepsNine x) (hf : ∀ a, KeepsNine (f a)) :
    KeepsNine (x >>= f) := by
  intro b l hl
  obtain ⟨b', l', h, hl', hb'⟩ := hx b l hl
  rw [PyM.bind_run]
  revert h
  rcases x ⟨true, b :: l⟩ with ⟨r, st, w⟩
  intro h
  cases (show st = _ from h)
  cases r with
  | error e => exact ⟨b', l', rfl, hl', hb'⟩
  | ok a =>
    obtain ⟨b'', l'', h'', hl'', hb''⟩ := hf a b' l' hl'
    exact ⟨b'', l'', h'', hl'', hb''.trans hb'⟩

theorem keepsNine_ofExcept {α : Type} (x : Except PyErr α) : KeepsNine (PyM.ofExcept x : PyM Buf α) := by
  intro b l hl
  rw [PyM.ofExcept_run]
  exact ⟨b, l, rfl, hl, rfl⟩

theorem keepsNine_raise {α : Type} (x : PyErr) : KeepsNine (PyM.raise x : PyM Buf α) := fun b l hl => ⟨b, l, rfl, hl, rfl⟩

theorem keepsNine_put {α : Type} (c : Conv α) {a b : Nat} (h0 : 1 ≤ a) (h1 : a ≤ b) (h2 : b ≤ 9) (v : α) :
    KeepsNine ((realView c a b).put v) := by
  intro g l hl
  have hd : (g :: l).length = 9 := by simp [hl]
  generalize hdd : g :: l = d at hd
  have hs : (realView c a b).slice = Slice.nat a b := rfl
  have hc : (realView c a b).conv = c := rfl
  simp only [View.put, PyM.bind_run, PyM.get_run, PyM.lift_run, realView_length c h1 h2, hs, hc]
  rw [getSlice_nat h1 (by omega)]
  have hw := @setRaw_width α c (b - a) ((d.drop a).take (b - a)) v
  revert hw
  rcases setRaw c (some (b - a)) ((d.drop a).take (b - a)) v () with ⟨r, u, w⟩
  intro hw
  cases r with
  | error e => exact ⟨g, l, by rw [hdd], hl, rfl⟩
  | ok x =>
    have hx := hw rfl
    simp only [setSlice_nat h1 (show b ≤ d.length by omega)]
    subst hdd
    obtain ⟨a, rfl⟩ : ∃ k, a = k + 1 := ⟨a - 1, by omega⟩
    refine ⟨g, l.take a ++ x ++ (g :: l).drop b, rfl, ?_, rfl⟩
    simp
    omega

theorem keepsNine_sign (s : Bool) : KeepsNine (signV.put (if s then 1 else 0)) := by
  intro b l hl
  obtain ⟨b1, rest, rfl⟩ : ∃ b1 rest, l = b1 :: rest := by
    rcases l with _ | ⟨b1, rest⟩
    · simp at hl
    · exact ⟨b1, rest, rfl⟩
  rw [sign_put s b b1 rest (by simpa using hl)]
  refine ⟨_, _, rfl, hl, ?_⟩
  cases s <;> simp

theorem keepsNine_realStore (m x : Int) (neg : Bool) : KeepsNine (realStore m x neg) := by
  unfold realStore
  refine keepsNine_bind (keepsNine_put (a := 2) (b := 9) _ (by decide) (by decide) (by decide) _) fun _ => ?_
  exact keepsNine_bind (keepsNine_put (a := 1) (b := 2) _ (by decide) (by decide) (by decide) _) fun _ => keepsNine_sign neg

theorem keepsNine_real (s : Str) : KeepsNine (realLoadString s) := by
  unfold realLoadString
  split
  · exact keepsNine_realStore _ _ _
  · exact keepsNine_bind (keepsNine_ofExcept _) fun ⟨m, x, neg⟩ => keepsNine_realStore m x neg

theorem keepsNine_rad (f : RadField) (v : Int) : KeepsNine (f.view.put v) := by
  cases f
  · exact keepsNine_put (a := 1) (b := 2) _ (by decide) (by decide) (by decide) v
  · exact keepsNine_put (a := 1) (b := 3) _ (by decide) (by decide) (by decide) v
  · exact keepsNine_put (a := 3) (b := 5) _ (by decide) (by decide) (by decide) v
  · exact keepsNine_put (a := 4) (b := 6) _ (by decide) (by decide) (by decide) v
  · exact keepsNine_put (a := 6) (b := 8) _ (by decide) (by decide) (by decide) v
  · exact keepsNine_put (a := 7) (b := 9) _ (by decide) (by decide) (by decide) v

theorem keepsNine_fraction (s : Str) : KeepsNine (fractionLoadString s) :=
  keepsNine_bind (keepsNine_ofExcept _) fun _ => keepsNine_real _

theorem keepsNine_string (c : Cls) (s : Str) : KeepsNine (loadRealString c s) := by
  unfold loadRealString
  split
  · exact keepsNine_fraction s
  · have hp : KeepsNine (do
        let (st, d, ls, rs, lr, rr) ← PyM.ofExcept (radParse s)
        radStore st d ls rs lr rr) :=
      keepsNine_bind (keepsNine_ofExcept _) fun ⟨_, _, _, _, _, _⟩ =>
        keepsNine_bind (keepsNine_rad _ _) fun _ => keepsNine_bind (keepsNine_rad _ _) fun _ =>
        keepsNine_bind (keepsNine_rad _ _) fun _ => keepsNine_bind (keepsNine_rad _ _) fun _ =>
        keepsNine_bind (keepsNine_rad _ _) fun _ => keepsNine_rad _ _
    unfold radLoadString
    dsimp only
    split
    · exact keepsNine_bind (keepsNine_bind (keepsNine_rad _ _) fun _ => keepsNine_bind (keepsNine_rad _ _) fun _ =>
        keepsNine_bind (keepsNine_rad _ _) fun _ => keepsNine_bind (keepsNine_rad _ _) fun _ =>
        keepsNine_bind (keepsNine_rad _ _) fun _ => keepsNine_rad _ _) fun _ => hp
    · exact hp
  · unfold piLoadString
    dsimp only
    split
    · exact keepsNine_real _
    · exact keepsNine_raise _
  · unfold piFractionLoadString
    split
    · exact keepsNine_raise _
    · exact keepsNine_fraction _
  · exact keepsNine_real s

namespace Ent
variable {V : Type} [LinearOrder V]

/-- The entry a constructor makes of a text, given the data. -/
def textEnt (nm : Cls → Bytes) (c : Cls) (v : Nat) (d : Bytes) : Ent :=
  ⟨c, [0x0D, 0x00], [UInt8.ofNat (c.typeId.getD 0xFF)], nm c, [UInt8.ofNat v], [0x00], ⟨true, d⟩⟩

/-- What happens in one step of the loop over the classes: the data the class makes of the text, if it does. -/
theorem tryClasses_miss (env : Env V) {mk : Cls → PyM Unit Ent} {c : Cls} {x : PyErr} (h : (mk c ()).res = .error x) (cs : List Cls)
    (e : Ent) : tryClasses env mk (c :: cs) e = tryClasses env mk cs e := by
  show (if c.isSub e.cls then _ else _) = _
  split
  · unfold loadVia
    rw [PyM.bind_run, PyM.lift_run]
    revert h
    rcases mk c () with ⟨r, u, w⟩
    intro h
    cases (show r = .error x from h)
    rfl
  · rfl

theorem tryClasses_ok (env : Env V) {mk : Cls → PyM Unit Ent} {c : Cls} {x x' : Ent} {w w' : List Warn} (h : mk c () = ⟨.ok x, (), w⟩)
    (hx : x.body.bytes.length ≤ 65535) {e : Ent} (hc : c.isSub e.cls = true)
    (hl : ∀ b, x.bytes = .ok b → load env b e = ⟨.ok (), x', w'⟩) (cs : List Cls) :
    tryClasses env mk (c :: cs) e = ⟨.ok (), x', []⟩ := by
  show (if c.isSub e.cls then _ else _) = _
  rw [if_pos hc]
  have : loadVia env (mk c) e = ⟨.ok (), x', w ++ ([] ++ w')⟩ := by
    unfold loadVia
    rw [PyM.bind_run, PyM.lift_run, h]
    have hb := bytes_ok hx
    simp only [hb, PyM.bind_run, PyM.ofExcept_run]
    rw [hl _ hb]
  rw [this]

theorem tryClasses_hit (env : Env V) {mk : Cls → PyM Unit Ent} {c : Cls} {e' : Ent} {w : List Warn} (h : mk c () = ⟨.ok e', (), w⟩)
    (he : Exact env e') (cs : List Cls) {e : Ent} (h₀ : e.cls = .entry) :
    tryClasses env mk (c :: cs) e = ⟨.ok (), thaw e', []⟩ := by
  obtain ⟨t, ht⟩ := length_one he.wf.typeId
  have hco := coerce_fromFile env (e := thaw e') ht he.fromFile
  exact tryClasses_ok env h he.wf.length (by rw [h₀]; cases c <;> rfl)
    (fun b hb => load_base env he.wf he.flash hco hb h₀) cs

/-- A constructor whose loader fails. -/
theorem new_load_error (env : Env V) {c : Cls} {nm : Bytes} {load : PyM Ent Unit} {x : PyErr}
    (h : (load (startEnt c { name := nm })).res = .error x) : ((new env c { name := nm } [] load) ()).res = .error x := by
  have hb : newBase c { name := nm } = .ok { startEnt c { name := nm } with body := ⟨true, []⟩ } := rfl
  have hst : ({ startEnt c { name := nm } with body := ⟨true, clearFull (startEnt c { name := nm }).cls⟩ } : Ent) = startEnt c { name := nm } := rfl
  simp only [new, hb, newInit, newRest, PyM.bind_run, PyM.modify_run, ne_eq, not_true_eq_false, if_false]
  rw [hst]
  revert h
  rcases load (startEnt c { name := nm }) with ⟨r, e', w⟩
  intro h
  cases (show r = .error x from h)
  rfl

theorem real_facts {c : Cls} (hc : c ∈ realClasses) :
    c.isSub .realE = true ∧ c.isSub .gdb = false ∧ Plain c = true ∧ c.versions.headD 0 ≠ 9 ∧ c.versions.headD 0 < 256 ∧
    (clearFull c).length = 9 ∧ c.typeId = some (fromLE [UInt8.ofNat (c.typeId.getD 0xFF)]) ∧ c ∉ colorClasses ∧
    c ∉ [Cls.monoFunc, .monoParam, .monoPolar, .monoSeq] := by
  revert hc
  cases c <;> decide +kernel

theorem clearFull_real {c : Cls} (hc : c ∈ realClasses) :
    ∃ b l, clearFull c = b :: l ∧ l.length = 8 ∧ c.typeId = some (b.toNat % 64) := by
  simp only [realClasses, List.mem_cons, List.not_mem_nil, or_false] at hc
  rcases hc with rfl | rfl | rfl | rfl | rfl | rfl <;> exact ⟨_, _, rfl, by decide +kernel, by decide +kernel⟩

theorem real_version (env : Env V) {e : Ent} (hc : e.cls ∈ realClasses) :
    getVersion env e [] = ([], .ok (e.cls.versions.headD 0)) := by
  rcases e with ⟨c, m, t, n, v, a, b⟩
  simp only [realClasses, List.mem_cons, List.not_mem_nil, or_false] at hc
  show getVersionN env (b.bytes.length + 1) _ [] = _
  rcases hc with rfl | rfl | rfl | rfl | rfl | rfl <;> rfl

variable (env : Env V) (trie : Trie (Tok V)) (mode : EncMode) (other : Cls → Str → PyM Ent Unit) (nm : Cls → Bytes)

theorem newText_real {c : Cls} (hc : c ∈ realClasses) {s : Str} {b : Bytes} {w : List Warn}
    (h : loadRealString c s ⟨true, clearFull c⟩ = ⟨.ok (), ⟨true, b⟩, w⟩) :
    newText env trie mode other nm c s () = ⟨.ok (textEnt nm c (c.versions.headD 0) b), (), w⟩ := by
  obtain ⟨h1, h2, -, -, -, -, -, -, -⟩ := real_facts hc
  have hl : textLoader env trie mode other c s (startEnt c { name := nm c }) =
      ⟨.ok (), { startEnt c { name := nm c } with body := ⟨true, b⟩ }, w⟩ := by
    unfold textLoader
    rw [if_pos h1]
    have hbd : (startEnt c { name := nm c }).body = ⟨true, clearFull c⟩ := rfl
    simp only [hbd, h]
  have := new_load env (a := { name := nm c }) rfl hl (v := c.versions.headD 0) (ws' := [])
    (fun _ => real_version env (e := { startEnt c { name := nm c } with body := ⟨true, b⟩ }) hc) h2
  unfold newText
  rw [this]
  show Out.mk _ _ _ = _
  simp only [if_true]
  have hm : ({ startEnt c { name := nm c } with body := ⟨true, b⟩ } : Ent).metaLength ≠ 11 := by
    show fromLE [0x0D, 0x00] ≠ 11
    decide
  rw [if_neg hm]
  simp [textEnt, startEnt]

theorem newText_real_error {c : Cls} (hc : c ∈ realClasses) {s : Str} {x : PyErr}
    (h : (loadRealString c s ⟨true, clearFull c⟩).res = .error x) :
    (newText env trie mode other nm c s ()).res = .error x := by
  obtain ⟨h1, -⟩ := real_facts hc
  refine new_load_error env ?_
  unfold textLoader
  rw [if_pos h1]
  exact h

theorem real_exact (hn : ∀ c, (nm c).length = 8) {c : Cls} (hc : c ∈ realClasses) {b : Bytes} (hb : b.length = 9) :
    Exact env (textEnt nm c (c.versions.headD 0) b) := by
  obtain ⟨-, -, h3, h4, h5, -, h7, h8, h9⟩ := real_facts hc
  refine ⟨⟨⟨.inr rfl, rfl, hn c, rfl, rfl⟩, .inl rfl, fun h => absurd (show ([0x0D, 0x00] : Bytes) = [0x0B, 0x00] from h) (by decide), ?_⟩, fun _ h => ?_, ⟨h7, .inl h3⟩,
    fun h => absurd h h8, fun h => absurd h h9⟩
  · show b.length ≤ 65535
    omega
  · have : fromLE [UInt8.ofNat (c.versions.headD 0), 0x00] = b.length := h
    generalize c.versions.headD 0 = v at *
    simp only [fromLE, UInt8.toNat_ofNat'] at this
    simp at this
    omega

/-- Loading the bytes of a number into an entry of the base class of numbers. -/
theorem load_realE (hn : ∀ c, (nm c).length = 8) {c : Cls} (hc : c ∈ realClasses) {b : Bytes} (hb : b.length = 9)
    (hk : c.typeId = some ((b.getD 0 0).toNat % 64)) {p : Bytes} (hp : (textEnt nm c (c.versions.headD 0) b).bytes = .ok p) {e : Ent}
    (h₀ : e.cls = .realE) :
    ∃ w, load env p e = ⟨.ok (), textEnt nm c (c.versions.headD 0) b, w⟩ := by
  have hex := real_exact env nm hn hc hb
  generalize hx : textEnt nm c (c.versions.headD 0) b = x at *
  obtain ⟨t, ht⟩ := length_one hex.wf.typeId
  obtain ⟨v, hv⟩ := length_one hex.wf.version
  have hbd : x.body = ⟨true, b⟩ := by rw [← hx]; rfl
  have hcls : x.cls = c := by rw [← hx]; rfl
  have htid : x.typeId = [UInt8.ofNat (c.typeId.getD 0xFF)] := by rw [← hx]; rfl
  have hco : coerce env { x with cls := .realE, body := ⟨true, x.body.bytes⟩ } = ⟨.ok (), x, []⟩ := by
    have hs : viewGet subtypeView { x with cls := .realE, body := ⟨true, x.body.bytes⟩ } =
        .ok (((b.getD 0 0).toNat % 64 : Nat) : Int) := by
      rw [subtypeView_get]
      simp only [hbd]
      rcases b with _ | ⟨g, l⟩
      · simp at hb
      · rfl
    obtain ⟨t', ht1, ht2, ht3, ht4, -⟩ := real_class hc
    have e1 : ((((b.getD 0 0).toNat % 64 : Nat) : Int) % 256).toNat = t' := by
      rw [ht1] at hk
      injection hk with hk
      omega
    have hti : [UInt8.ofNat t'] = x.typeId := by rw [htid, ht1]; rfl
    have hself : ({ x with cls := c, body := ⟨true, x.body.bytes⟩ } : Ent) = x := by rw [← hx]; rfl
    have htn : (UInt8.ofNat t').toNat = t' := by
      simp
      omega
    unfold coerce
    simp only [PyM.bind_run, PyM.get_run, hs, PyM.ofExcept_run, setTypeId_run, e1, hti]
    have hgt : ({ x with cls := .realE, body := ⟨true, x.body.bytes⟩ } : Ent).getTypeId = .ok t' := by
      rw [getTypeId_one (t := UInt8.ofNat t') (by rw [← hti]), htn]
    have hty : coerceTyped env x = ⟨.ok (), x, []⟩ := by
      rw [← coerce_plain env (e := x) (by rw [hcls]; exact ht3)]
      unfold coerce
      rw [PyM.bind_run, PyM.get_run]
      simp only [hcls]
      simp only [realClasses, List.mem_cons, List.not_mem_nil, or_false] at hc
      rcases hc with rfl | rfl | rfl | rfl | rfl | rfl <;> rfl
    unfold coerceById
    simp only [PyM.bind_run, PyM.get_run, hgt, PyM.ofExcept_run, ht2, setClass, PyM.modify_run, hself, hty]
    rfl
  have hbase := loadBase_bytes env hex.wf hex.flash hp e
  rw [h₀, finish_of_coerce env hco hv (metaLen_iff (show x.metaLen.length = 2 from metaLen_length hex.wf.toSections))] at hbase
  have hload : load env p e = loadBase env p e := by
    simp [load, PyM.bind_run, h₀]
  rw [hload, hbase]
  exact ⟨_, rfl⟩

/-- The loop over the classes of real numbers is `firstReal`. -/
theorem tryClasses_reals (hn : ∀ c, (nm c).length = 8) (s : Str) (rest : List Cls) {e : Ent} (h₀ : e.cls = .entry) :
    ∀ l : List (Int × Cls), (∀ p ∈ l, p.2 ∈ realClasses) →
      tryClasses env (fun c => newText env trie mode other nm c s) (l.map Prod.snd ++ rest) e =
        match firstReal s l with
        | .ok (c, b) => ⟨.ok (), textEnt nm c (c.versions.headD 0) b, []⟩
        | .error _ => tryClasses env (fun c => newText env trie mode other nm c s) rest e
  | [], _ => rfl
  | (t, c) :: l, hp => by
    have hc : c ∈ realClasses := hp (t, c) (by simp)
    obtain ⟨t', l', hcl, hcl', ht'⟩ := clearFull_real hc
    obtain ⟨g, d, hk, hk', hg⟩ := keepsNine_string c s t' l' hcl'
    rw [← hcl] at hk
    have ih := tryClasses_reals hn s rest h₀ l fun p h => hp p (List.mem_cons_of_mem _ h)
    simp only [List.map_cons, List.cons_append, firstReal]
    rcases hr : loadRealString c s ⟨true, clearFull c⟩ with ⟨r, b, w⟩
    rw [hr] at hk
    cases (show b = _ from hk)
    cases r with
    | error x =>
      rw [tryClasses_miss env (newText_real_error env trie mode other nm hc (by rw [hr])), ih]
    | ok u =>
      rw [tryClasses_hit env (newText_real env trie mode other nm hc hr) (real_exact env nm hn hc (by simp [hk'])) _ h₀]
      rfl

/-- The loop for an entry of the base class of numbers. -/
theorem tryClasses_realE (hn : ∀ c, (nm c).length = 8) (s : Str) (rest : List Cls) {e : Ent} (h₀ : e.cls = .realE) :
    ∀ l : List (Int × Cls), (∀ p ∈ l, p.2 ∈ realClasses) →
      tryClasses env (fun c => newText env trie mode other nm c s) (l.map Prod.snd ++ rest) e =
        match firstReal s l with
        | .ok (c, b) => ⟨.ok (), textEnt nm c (c.versions.headD 0) b, []⟩
        | .error _ => tryClasses env (fun c => newText env trie mode other nm c s) rest e
  | [], _ => rfl
  | (t, c) :: l, hp => by
    have hc : c ∈ realClasses := hp (t, c) (by simp)
    obtain ⟨t', l', hcl, hcl', ht'⟩ := clearFull_real hc
    obtain ⟨g, d, hk, hk', hg⟩ := keepsNine_string c s t' l' hcl'
    rw [← hcl] at hk
    have ih := tryClasses_realE hn s rest h₀ l fun p h => hp p (List.mem_cons_of_mem _ h)
    simp only [List.map_cons, List.cons_append, firstReal]
    rcases hr : loadRealString c s ⟨true, clearFull c⟩ with ⟨r, b, w⟩
    rw [hr] at hk
    cases (show b = _ from hk)
    cases r with
    | error x =>
      rw [tryClasses_miss env (newText_real_error env trie mode other nm hc (by rw [hr])), ih]
    | ok u =>
      have hid : c.typeId = some (((g :: d).getD 0 0).toNat % 64) := by
        rw [ht']
        show some (t'.toNat % 64) = some (g.toNat % 64)
        congr 1
        omega
      obtain ⟨p, hp⟩ : ∃ p, (textEnt nm c (c.versions.headD 0) (g :: d)).bytes = .ok p :=
        ⟨_, bytes_ok (show (g :: d).length ≤ 65535 by simp [hk'])⟩
      obtain ⟨w', hl⟩ := load_realE env nm hn hc (b := g :: d) (by simp [hk']) hid hp h₀
      rw [tryClasses_ok env (newText_real env trie mode other nm hc hr) (show (g :: d).length ≤ 65535 by simp [hk'])
        (by rw [h₀]; exact (real_facts hc).1) (fun q hq => by rw [hp] at hq; injection hq with hq; rw [← hq]; exact hl) _]

theorem tryClasses_skip (mk : Cls → PyM Unit Ent) {e : Ent} :
    ∀ l : List Cls, (∀ c ∈ l, c.isSub e.cls = false) → tryClasses env mk l e = ⟨.error .valueError, e, []⟩
  | [], _ => rfl
  | c :: l, h => by
    show (if c.isSub e.cls then _ else _) = _
    rw [if_neg (by rw [h c (by simp)]; decide)]
    exact tryClasses_skip mk l fun c hc => h c (List.mem_cons_of_mem _ hc)

end Ent
end Verif
