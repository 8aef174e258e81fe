import Verif.Proofs.GdbFull
import Verif.Proofs.Construct

/-! Helper lemmas for the dictionaries of graphed equations. -/

namespace Verif
open Spec
namespace Ent
variable {V : Type} [LinearOrder V]

/-- Decoding with something already decoded. -/
theorem decodeLoop_prefix (initial : V) (tbl : TokTable V) (data curr : Bytes) (o out : List (Tok V)) (s : V)
    (w warns : List Warn) :
    decodeLoop initial tbl data curr ⟨o ++ out, s, w ++ warns⟩ =
      ⟨o ++ (decodeLoop initial tbl data curr ⟨out, s, warns⟩).out,
        (decodeLoop initial tbl data curr ⟨out, s, warns⟩).since,
        w ++ (decodeLoop initial tbl data curr ⟨out, s, warns⟩).warns⟩ := by
  have hstep : ∀ (c : Bytes) (out : List (Tok V)) (s : V) (warns : List Warn),
      decodeStep initial tbl c ⟨o ++ out, s, w ++ warns⟩ =
        ((decodeStep initial tbl c ⟨out, s, warns⟩).1,
          ⟨o ++ (decodeStep initial tbl c ⟨out, s, warns⟩).2.out, (decodeStep initial tbl c ⟨out, s, warns⟩).2.since,
            w ++ (decodeStep initial tbl c ⟨out, s, warns⟩).2.warns⟩) := by
    intro c out s warns
    unfold decodeStep
    rcases tbl.find c with _ | t
    · by_cases h : c.length ≥ 2
      · simp [h]
      · simp [h]
    · simp
  induction data generalizing curr out s warns with
  | nil => rfl
  | cons b rest ih =>
    unfold decodeLoop
    by_cases h1 : (curr ++ [b]).headD 0 ≠ 0
    · rw [if_pos h1, if_pos h1]
      simp only [hstep]
      exact ih _ _ _ _
    · rw [if_neg h1, if_neg h1]
      by_cases h2 : b ≠ 0
      · rw [if_pos h2, if_pos h2]
        simp only [List.append_assoc, hstep]
        exact ih _ _ _ _
      · rw [if_neg h2, if_neg h2]
        exact ih _ _ _ _

/-- Decoding a null byte before the codes. -/
theorem decode_null (initial : V) (tbl : TokTable V) {b : UInt8} (hb : b ≠ 0) (rest : Bytes) :
    (decode initial tbl (0x00 :: b :: rest)).out = illegalTok initial [0] :: (decode initial tbl (b :: rest)).out ∧
    (decode initial tbl (0x00 :: b :: rest)).warns = .nullBytes :: (decode initial tbl (b :: rest)).warns := by
  have h := decodeLoop_prefix initial tbl (b :: rest) [] [illegalTok initial [0]] [] initial [.nullBytes] []
  have h0 : decode initial tbl (0x00 :: b :: rest) = decodeLoop initial tbl (b :: rest) []
      ⟨[illegalTok initial [0]] ++ [], initial, [.nullBytes] ++ []⟩ := by
    unfold decode
    simp only [decodeLoop, List.nil_append, List.headD_cons, ne_eq, not_true_eq_false, if_false, hb,
      not_false_eq_true, if_true, List.cons_append, List.length_cons, List.length_nil, List.replicate_succ,
      List.replicate_zero, List.append_nil]
  rw [h0, h]
  exact ⟨rfl, rfl⟩

/-- Making an equation from a text. -/
theorem equationOf_run (env : Env V) (trie : Trie (Tok V)) (mode : EncMode) (nm : Bytes) {expr : Str} {acc : EncAcc V}
    (henc : encode env.initial trie mode expr = some (.ok acc)) (hn : acc.data.length < 65536) :
    ∃ s, equationOf env trie mode nm expr () = ⟨.ok s, (), (decode env.initial env.table acc.data).warns ++
        (decode env.initial env.table acc.data).warns⟩ ∧
      s.body.bytes = toLE 2 acc.data.length ++ acc.data := by
  obtain ⟨e0, he0⟩ : ∃ e0 : Ent, e0 = ⟨.equation, [0x0D, 0x00], [0x03], nm, [0x00], [0x00], ⟨true, [0, 0]⟩⟩ := ⟨_, rfl⟩
  have hver : ∀ e : Ent, e.cls = .equation → ∀ d : Bytes,
      tokenGetVersion env e d = ((decode env.initial env.table (if d.isEmpty then e.data else d)).warns,
        .ok (tokenVersion env (decode env.initial env.table (if d.isEmpty then e.data else d)).since
          (if d.isEmpty then e.data else d))) := by
    intro e he d
    simp only [tokenGetVersion, tokenizedVersion, he]
    by_cases hd : d.isEmpty <;> simp [hd]
  have hb : newBase .equation ({ name := nm } : NewArgs) = .ok { e0 with body := ⟨true, []⟩ } := by
    rw [he0]; rfl
  obtain ⟨v, hv⟩ : ∃ v, v = tokenVersion env (decode env.initial env.table acc.data).since acc.data := ⟨_, rfl⟩
  have hd0 : ∀ e : Ent, e.data = acc.data → (if acc.data.isEmpty then e.data else acc.data) = acc.data := by
    intro e he; split
    · exact he
    · rfl
  have hset : setData (tokenGetVersion env) acc.data e0 = ⟨.ok (), { e0 with
      version := [UInt8.ofNat v], body := ⟨true, toLE 2 acc.data.length ++ acc.data⟩ },
      (decode env.initial env.table acc.data).warns⟩ := by
    have hg : tokenGetVersion env { e0 with body := ⟨true, toLE 2 acc.data.length ++ ([0, 0] : Bytes).drop 2⟩ } acc.data =
        ((decode env.initial env.table acc.data).warns, .ok v) := by
      rw [hver _ (by rw [he0])]
      have : (if acc.data.isEmpty then ({ e0 with body := ⟨true, toLE 2 acc.data.length ++ ([0, 0] : Bytes).drop 2⟩ } :
          Ent).data else acc.data) = acc.data := by
        by_cases h : acc.data = []
        · rw [h, he0]; rfl
        · simp [h]
      rw [this, hv]
    rw [setData_ok (e := e0) (d := [0, 0]) (by rw [he0]; rfl) (by rw [he0]; rfl) (by rw [he0]; rfl) (by rw [he0])
      (by simp) hn hg]
    rw [he0]
    simp [metaLength, fromLE]
  have hload : loadString env trie mode expr e0 = ⟨.ok (), { e0 with
      version := [UInt8.ofNat v], body := ⟨true, toLE 2 acc.data.length ++ acc.data⟩ },
      (decode env.initial env.table acc.data).warns⟩ := by
    rw [← hset]
    have hcls : e0.cls = .equation := by rw [he0]
    simp [loadString, PyM.bind_run, hcls, henc]
  obtain ⟨e1, he1⟩ : ∃ e1 : Ent, e1 = { e0 with
      version := [UInt8.ofNat v], body := ⟨true, toLE 2 acc.data.length ++ acc.data⟩ } := ⟨_, rfl⟩
  rw [← he1] at hload
  have hdata : e1.data = acc.data := by
    rw [he1, he0]
    rfl
  have hgv : getVersion env e1 [] = ((decode env.initial env.table acc.data).warns, .ok v) := by
    have hcls : e1.cls = .equation := by rw [he1, he0]
    unfold getVersion
    rw [getVersionN]
    simp only [hcls]
    rw [hver e1 hcls, hv]
    simp [hdata]
  have hclear : (⟨.equation, e0.metaLen, e0.typeId, e0.name, e0.version, e0.archived,
      ⟨true, clearFull .equation⟩⟩ : Ent) = e0 := by rw [he0]; rfl
  refine ⟨{ e1 with version := [UInt8.ofNat ((v : Int) % 256).toNat] }, ?_, by rw [he1]⟩
  have hrest : newRest env { name := nm } [] (loadString env trie mode expr) { e0 with body := ⟨true, []⟩ } =
      ⟨.ok (), { e1 with version := [UInt8.ofNat ((v : Int) % 256).toNat] },
        (decode env.initial env.table acc.data).warns ++ (decode env.initial env.table acc.data).warns⟩ := by
    have hm : e1.metaLength ≠ 11 := by rw [he1, he0]; simp [metaLength, fromLE]
    have hc0 : e0.cls = .equation := by rw [he0]
    simp only [newRest, PyM.bind_run, PyM.modify_run, ne_eq, not_true_eq_false, if_false, if_true, hc0, hclear]
    rw [hload]
    simp only [PyM.get_run, PyM.warnAll_run, PyM.ofExcept_run, setVersion_run, hgv, hm, if_false]
    simp
  exact new_run env (by decide) hb hrest

/-! ### The dictionary of an equation -/

theorem flagsContains_byte (b : UInt8) {k : Nat} (hk : k < 8) (v : Bool) :
    flagsContains (flagsGet [b]) [(k, v)] = .ok (b.toNat.testBit k == v) := by
  rw [flagsGet_byte]
  simp only [flagsContains, dictGet_mkFlags, if_pos hk]
  cases b.toNat.testBit k <;> cases v <;> rfl

theorem style_name : ∀ n : Nat, n < 256 → getName styleNames (n : Int) = (graphStyles[n]?).map String.toList := by
  decide +kernel

theorem color_name : ∀ n : Nat, n < 256 → getName colorNames (n : Int) = (graphColors[n]?).map String.toList := by
  decide +kernel

theorem line_name : ∀ n : Nat, n < 256 → getName lineNames (n : Int) = (lineStyles[n]?).map String.toList := by
  decide +kernel

/-- The dictionary of an equation. -/
theorem eqDict_run (env : Env V) (st co fl : UInt8) (rest : Bytes) :
    GEq.dict env ⟨[st], [co], fl :: rest⟩ () = ⟨.ok ⟨some ((graphStyles[st.toNat]?).map String.toList),
        if co = 0x00 then none else some ((graphColors[co.toNat]?).map String.toList),
        some ⟨some (fl.toNat.testBit 5), some (fl.toNat.testBit 6), some (fl.toNat.testBit 7)⟩,
        some ((decode env.initial env.table (rest.drop 1)).out.flatMap Tok.display)⟩, (),
      (decode env.initial env.table (rest.drop 1)).warns⟩ := by
  have hs : eqFlagsView.slice.bounds (fl :: rest).length = (0, 0 + 1) :=
    bounds_nat (a := 0) (b := 1) (by omega) (by simp)
  have hget : eqFlagsView.get ⟨true, fl :: rest⟩ = .ok (flagsGet [fl]) := by
    simp only [View.get, getSlice_one (d := fl :: rest) (by simp) hs]
    rfl
  have hsec : ∀ (l : List Int) (b : UInt8), sectionGet (enumConv l) ⟨false, [b]⟩ = .ok (b.toNat : Int) :=
    fun _ _ => rfl
  have hst := style_name _ (show st.toNat < 256 from st.toNat_lt)
  have hco := color_name _ (show co.toNat < 256 from co.toNat_lt)
  unfold GEq.dict
  simp only [hsec, hget, flagsContains_byte fl (show 5 < 8 by omega), flagsContains_byte fl (show 6 < 8 by omega),
    flagsContains_byte fl (show 7 < 8 by omega), PyM.bind_run, PyM.ofExcept_run, GEq.string, PyM.warnAll_run,
    PyM.pure_run, hst, hco, GEq.data]
  by_cases h : co = 0x00
  · subst h; simp
  · have : co.toNat ≠ 0 := fun h' => h (UInt8.toNat_inj.mp (by simpa using h'))
    simp [h, this]

end Ent
end Verif
