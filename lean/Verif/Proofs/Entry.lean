import Verif.Model.Var
import Verif.Proofs.Header

/-! Lemmas about `TIEntry`: section setters, serialisation and the run of `load_bytes`. -/

namespace Verif
namespace Ent
variable {V : Type} [LinearOrder V]

theorem getTypeId_one {e : Ent} {t : UInt8} (h : e.typeId = [t]) : e.getTypeId = .ok t.toNat := by
  simp only [getTypeId, sectionGet, h, bitsFull_get, wrapIndexError]
  rfl

theorem getVersionByte_one {e : Ent} {t : UInt8} (h : e.version = [t]) :
    e.getVersionByte = .ok t.toNat := by
  simp only [getVersionByte, sectionGet, h, bitsFull_get, wrapIndexError]
  rfl

/-- The end of `load_bytes` (var.py:799-807): coercion and the last two checks. -/
def finish (env : Env V) : PyM Ent Unit := do
  coerce env
  let e ← PyM.get
  let ws ← PyM.ofExcept e.checkLoaded
  PyM.warnAll ws

/-- Warnings `ws` first, then `m`. -/
def after (ws : List Warn) (o : Out Ent Unit) : Out Ent Unit := ⟨o.res, o.st, ws ++ o.warns⟩

/-- Bring a decided condition into the form `simp` rewrites with. -/
theorem ite_decided {α : Type} {c : Prop} [Decidable c] (x y : α) :
    (c ∧ (if c then x else y) = x) ∨ (¬c ∧ (if c then x else y) = y) := by
  by_cases h : c <;> simp [h]

theorem after_after (a b : List Warn) (o : Out Ent Unit) : after a (after b o) = after (a ++ b) o := by
  simp [after, List.append_assoc]

theorem bind_pure_unit {α : Type} (f : Unit → PyM Ent α) (e : Ent) :
    ((pure () : PyM Ent Unit) >>= f) e = f () e := by
  simp [PyM.bind_run]

/-- `load_bytes` when the flash bytes are read and taken as such. -/
theorem loadBase_flash (env : Env V) (data : Bytes) (e : Ent)
    (m0 m1 l0 l1 t n0 n1 n2 n3 n4 n5 n6 n7 v a x0 x1 : UInt8) (rest : Bytes)
    (hd : ljust 17 data = m0 :: m1 :: l0 :: l1 :: t :: n0 :: n1 :: n2 :: n3 :: n4 :: n5 :: n6 ::
      n7 :: v :: a :: x0 :: x1 :: rest)
    (hm : fromLE [m0, m1] ≠ 11) (hno : ¬(fromLE [m0, m1] = 13 ∧ [v, a] = [l0, l1])) :
    loadBase env data e =
      after (checkType e t.toNat ++ (if fromLE [m0, m1] = 13 then [] else [.metaLength]) ++
        (if a ≠ 0 ∧ a ≠ 0x80 then [.archiveFlag] else []) ++
        (if [l0, l1] ≠ [x0, x1] then [.dataLengths] else []) ++
        (if (rest.take (fromLE [l0, l1])).length ≠ fromLE [l0, l1] then [.dataLength] else []))
      (finish env ⟨e.cls, [m0, m1], [t], [n0, n1, n2, n3, n4, n5, n6, n7], [v], [a],
        ⟨true, rest.take (fromLE [l0, l1])⟩⟩) := by
  unfold loadBase
  rw [hd]
  simp only [Stream.read, Stream.peek, Stream.ofBytes, List.drop_succ_cons, List.drop_zero,
    List.take_succ_cons, List.take_zero, List.length_cons, List.length_nil, Nat.reduceAdd,
    PyM.bind_run, PyM.modify_run, PyM.get_run, PyM.ofExcept_run, PyM.warnAll_run,
    getTypeId_one (e := ⟨_, _, [t], _, _, _, _⟩) rfl, readFlash, if_neg hm]
  rcases Decidable.em (fromLE [m0, m1] = 13) with h13 | h13
  · have hva : ([v, a] = [l0, l1]) = False := eq_false fun h => hno ⟨h13, h⟩
    rcases Decidable.em (a ≠ 0 ∧ a ≠ 0x80) with ha | ha <;>
    rcases Decidable.em ([l0, l1] ≠ [x0, x1]) with hl | hl <;>
    rcases Decidable.em (min (fromLE [l0, l1]) rest.length = fromLE [l0, l1]) with hr | hr <;>
    simp [h13, ha, hl, hr, hva, PyM.bind_run, after, finish, checkType]
  · rcases Decidable.em (a ≠ 0 ∧ a ≠ 0x80) with ha | ha <;>
    rcases Decidable.em ([l0, l1] ≠ [x0, x1]) with hl | hl <;>
    rcases Decidable.em (min (fromLE [l0, l1]) rest.length = fromLE [l0, l1]) with hr | hr <;>
    simp [h13, ha, hl, hr, PyM.bind_run, after, finish, checkType]

/-- `load_bytes` with an 11-byte meta section. -/
theorem loadBase_flashless (env : Env V) (data : Bytes) (e : Ent)
    (m0 m1 l0 l1 t n0 n1 n2 n3 n4 n5 n6 n7 x0 x1 : UInt8) (rest : Bytes)
    (hd : ljust 17 data = m0 :: m1 :: l0 :: l1 :: t :: n0 :: n1 :: n2 :: n3 :: n4 :: n5 :: n6 ::
      n7 :: x0 :: x1 :: rest)
    (hm : fromLE [m0, m1] = 11) :
    loadBase env data e =
      after (checkType e t.toNat ++
        (if [l0, l1] ≠ [x0, x1] then [.dataLengths] else []) ++
        (if (rest.take (fromLE [l0, l1])).length ≠ fromLE [l0, l1] then [.dataLength] else []))
      (finish env ⟨e.cls, [m0, m1], [t], [n0, n1, n2, n3, n4, n5, n6, n7], [0], [0],
        ⟨true, rest.take (fromLE [l0, l1])⟩⟩) := by
  unfold loadBase
  rw [hd]
  simp only [Stream.read, Stream.peek, Stream.ofBytes, List.drop_succ_cons, List.drop_zero,
    List.take_succ_cons, List.take_zero, List.length_cons, List.length_nil, Nat.reduceAdd,
    PyM.bind_run, PyM.modify_run, PyM.get_run, PyM.ofExcept_run, PyM.warnAll_run,
    getTypeId_one (e := ⟨_, _, [t], _, _, _, _⟩) rfl, readFlash]
  rcases Decidable.em ([l0, l1] ≠ [x0, x1]) with hl | hl <;>
  rcases Decidable.em (min (fromLE [l0, l1]) rest.length = fromLE [l0, l1]) with hr | hr <;>
  simp [hm, hl, hr, PyM.bind_run, after, finish, checkType]

theorem setMeta_eleven (e : Ent) : setMeta 11 e =
    ⟨.ok (), { e with metaLen := [0x0B, 0x00] },
      (if e.metaLen = [0x0D, 0x00] then [.metaLost] else []) ++
      (if e.cls.flashOnly then [.flashlessSet] else [])⟩ := by
  have h : ∀ cur, setRaw intConv (some 2) cur 11 () = ⟨.ok [0x0B, 0x00], (), []⟩ :=
    fun cur => setRaw_eq (n := 2) rfl rfl
  rcases Decidable.em (e.metaLen = [0x0D, 0x00]) with h1 | h1 <;>
  rcases Decidable.em (e.cls.flashOnly = true) with h2 | h2 <;>
  simp [setMeta, PyM.bind_run, h1, h2, h]

theorem setTypeId_run (v : Int) (e : Ent) : setTypeId v e =
    ⟨.ok (), { e with typeId := [UInt8.ofNat (v % 256).toNat] }, []⟩ := by
  have h : ∀ cur, setRaw (bitsConv {}) (some 1) cur v () =
      ⟨.ok [UInt8.ofNat (v % 256).toNat], (), []⟩ :=
    fun cur => setRaw_eq (n := 1) (bitsFull_set _ _ _) rfl
  simp [setTypeId, PyM.bind_run, h]

theorem setVersion_run (v : Int) (e : Ent) : setVersion v e =
    ⟨.ok (), { e with version := [UInt8.ofNat (v % 256).toNat] },
      if e.metaLength = 11 then [.flashlessVersion] else []⟩ := by
  have h : ∀ cur, setRaw (bitsConv {}) (some 1) cur v () =
      ⟨.ok [UInt8.ofNat (v % 256).toNat], (), []⟩ :=
    fun cur => setRaw_eq (n := 1) (bitsFull_set _ _ _) rfl
  rcases Decidable.em (e.metaLength = 11) with h1 | h1 <;>
  simp [setVersion, PyM.bind_run, h, h1]

theorem setArchived_run (v : Bool) (e : Ent) : setArchived v e =
    ⟨.ok (), { e with archived := if v then [0x80] else [0x00] },
      if e.metaLength = 11 then [.flashlessArchive] else []⟩ := by
  have h : ∀ cur, setRaw boolConv (some 1) cur v () =
      ⟨.ok (if v then [0x80] else [0x00]), (), []⟩ :=
    fun cur => setRaw_eq (n := 1) rfl (by cases v <;> rfl)
  rcases Decidable.em (e.metaLength = 11) with h1 | h1 <;>
  simp [setArchived, PyM.bind_run, h, h1]

/-- `load_bytes` when the flash bytes are taken for the second length field. -/
theorem loadBase_misfire (env : Env V) (data : Bytes) (e : Ent)
    (m0 m1 l0 l1 t n0 n1 n2 n3 n4 n5 n6 n7 : UInt8) (rest : Bytes)
    (hd : ljust 17 data = m0 :: m1 :: l0 :: l1 :: t :: n0 :: n1 :: n2 :: n3 :: n4 :: n5 :: n6 ::
      n7 :: l0 :: l1 :: rest)
    (hm : fromLE [m0, m1] = 13) :
    loadBase env data e =
      after (checkType e t.toNat ++ [.flashMissing, .metaLost] ++
        (if e.cls.flashOnly then [.flashlessSet] else []) ++
        (if (rest.take (fromLE [l0, l1])).length ≠ fromLE [l0, l1] then [.dataLength] else []))
      (finish env ⟨e.cls, [0x0B, 0x00], [t], [n0, n1, n2, n3, n4, n5, n6, n7], [0], [0],
        ⟨true, rest.take (fromLE [l0, l1])⟩⟩) := by
  have hm2 : ([m0, m1] : Bytes) = [0x0D, 0x00] := fromLE_inj rfl (by rw [hm]; rfl)
  injection hm2 with hm3 hm4
  injection hm4 with hm4 _
  subst hm3 hm4
  unfold loadBase
  rw [hd]
  simp only [Stream.read, Stream.peek, Stream.ofBytes, List.drop_succ_cons, List.drop_zero,
    List.take_succ_cons, List.take_zero, List.length_cons, List.length_nil, Nat.reduceAdd,
    PyM.bind_run, PyM.modify_run, PyM.get_run, PyM.ofExcept_run, PyM.warnAll_run,
    getTypeId_one (e := ⟨_, _, [t], _, _, _, _⟩) rfl, readFlash]
  rcases Decidable.em (min (fromLE [l0, l1]) rest.length = fromLE [l0, l1]) with hr | hr <;>
  simp [hm, hr, setMeta_eleven, PyM.bind_run, after, finish, checkType]

end Ent
end Verif
