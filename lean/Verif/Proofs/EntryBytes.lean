import Verif.Proofs.Entry
import Verif.Spec.Entry

/-! Serialisation of entries and the result of `coerce`. -/

namespace Verif
open Spec
namespace Ent
variable {V : Type} [LinearOrder V]

theorem fromLE_two_lt (a b : UInt8) : fromLE [a, b] < 65536 := by
  simpa using fromLE_lt [a, b]

theorem toLE_two (n : Nat) (h : n ≤ 65535) :
    ∃ a b, toLE 2 n = [a, b] ∧ fromLE [a, b] = n := by
  refine ⟨UInt8.ofNat n, UInt8.ofNat (n / 256), rfl, ?_⟩
  have := fromLE_toLE_of_lt (l := 2) (n := n) (by omega)
  exact this

theorem lengthField_ok {e : Ent} (h : e.calcLength ≤ 65535) :
    e.lengthField = .ok (toLE 2 e.calcLength) := by
  unfold lengthField intToBytesLE
  have e2 : (256 ^ 2 : Nat) = 65536 := rfl
  rw [if_neg (by omega)]
  simp

theorem lengthField_error {e : Ent} (h : 65535 < e.calcLength) :
    e.lengthField = .error .overflowError := by
  unfold lengthField intToBytesLE
  rw [if_pos (Or.inr (by have : (256 ^ 2 : Nat) = 65536 := rfl; omega))]

theorem flashBytes_eleven {e : Ent} (h : e.metaLen = [0x0B, 0x00]) : e.flashBytes = [] := by
  have : e.metaLength = 11 := by rw [metaLength, h]; rfl
  unfold flashBytes
  rw [this]
  simp [getSlice, Slice.bounds, Slice.indices]
  left
  omega

theorem flashBytes_thirteen {e : Ent} (h : e.metaLen = [0x0D, 0x00]) (hv : e.version.length = 1)
    (ha : e.archived.length = 1) : e.flashBytes = e.version ++ e.archived := by
  have : e.metaLength = 13 := by rw [metaLength, h]; rfl
  unfold flashBytes
  rw [this]
  simp only [getSlice, Slice.bounds, Slice.indices, List.length_append, hv, ha]
  exact List.take_of_length_le (by simp [hv, ha])

theorem bytes_ok {e : Ent} (h : e.calcLength ≤ 65535) : e.bytes =
    .ok (e.metaLen ++ toLE 2 e.calcLength ++ e.typeId ++ e.name ++ e.flashBytes ++
      toLE 2 e.calcLength ++ e.body.bytes) := by
  unfold bytes
  rw [lengthField_ok h]

theorem bytes_error {e : Ent} (h : 65535 < e.calcLength) : e.bytes = .error .overflowError := by
  unfold bytes
  rw [lengthField_error h]

theorem flashBytes_length {e : Ent} (h : Sections e) : e.flashBytes.length + 11 = e.metaLength := by
  rcases h.metaLen with hm | hm
  · rw [flashBytes_eleven hm, metaLength, hm]; rfl
  · rw [flashBytes_thirteen hm h.version h.archived, metaLength, hm]
    simp [h.version, h.archived]; rfl

theorem metaLen_length {e : Ent} (h : Sections e) : e.metaLen.length = 2 := by
  rcases h.metaLen with hm | hm <;> rw [hm] <;> rfl

/-! ### Coercion -/

/-- What remains of `load_bytes` once the class is settled. -/
theorem finish_of_coerce (env : Env V) {e e' : Ent} {ws : List Warn} {v : UInt8}
    (hc : coerce env e = ⟨.ok (), e', ws⟩) (hv : e'.version = [v])
    (hm : e'.metaLen = [0x0B, 0x00] ↔ e'.metaLength = 11) :
    finish env e = ⟨.ok (), e', ws ++ loadWarnings e'.cls e'.metaLen e'.version⟩ := by
  have hw : fromLE e'.version = v.toNat := by rw [hv]; simp [fromLE]
  unfold finish
  rw [PyM.bind_ok hc]
  simp [PyM.bind_run, checkLoaded, getVersionByte_one hv, loadWarnings, hw, hm]

theorem loadWarnings_ok (c : Cls) (m v : Bytes) : ∀ w ∈ loadWarnings c m v, w ∉ corruption := by
  intro w hw
  unfold loadWarnings at hw
  rcases List.mem_append.1 hw with h | h <;> split at h <;> simp at h
  all_goals (subst h; decide)

theorem metaLen_iff {e : Ent} (h : e.metaLen.length = 2) :
    e.metaLen = [0x0B, 0x00] ↔ e.metaLength = 11 := by
  constructor
  · intro h; rw [metaLength, h]; rfl
  · intro h2
    exact fromLE_inj (by rw [h]; rfl) (by rw [← metaLength, h2]; rfl)

theorem coerce_plain (env : Env V) {e : Ent} (h : Plain e.cls = true) :
    coerce env e = ⟨.ok (), e, []⟩ := by
  unfold coerce
  simp only [PyM.bind_run, PyM.get_run, List.nil_append]
  rcases hc : e.cls <;> rw [hc] at h <;>
    first | exact absurd h (by decide) | (simp only [coerceTyped, PyM.bind_run, PyM.get_run, hc]; rfl)

theorem coerce_base (env : Env V) {e : Ent} {t : UInt8} {c : Cls} (h : e.cls = .entry)
    (ht : e.typeId = [t]) (hc : Cls.getType t.toNat = some c) :
    coerce env e = coerceTyped env { e with cls := c } := by
  unfold coerce
  simp only [PyM.bind_run, PyM.get_run, List.nil_append, h, coerceById, getTypeId_one ht,
    PyM.ofExcept_run, hc, setClass, PyM.modify_run]

theorem bits6_get (b : UInt8) : (bitsConv { start := some 0, stop := some 6 }).get [b] =
    .ok ((b.toNat % 64 : Nat) : Int) := by
  have hf : (List.range 8).filter (bitIdx { start := some 0, stop := some 6 }) = List.range 6 := by
    decide +kernel
  simp only [bitsConv]
  rw [bitSliceGet_spec _ _ (by rw [hf]; decide), hf, ofBits_testBit_range]

theorem imagSubtype_get {e : Ent} (h : 10 ≤ e.body.bytes.length) :
    viewGet imagSubtypeView e = .ok ((imagType e.body.bytes : Nat) : Int) := by
  have hs : getSlice e.body.bytes { start := some 9, stop := some 10 } =
      [e.body.bytes.getD 9 0] := by
    have := getSlice_nat (a := 9) (b := 10) (d := e.body.bytes) (by omega) h
    rw [show ({ start := some 9, stop := some 10 } : Slice) = Slice.nat 9 10 from rfl, this]
    have hx : e.body.bytes.getD 9 0 = e.body.bytes[9] := by
      simp [List.getD, List.getElem?_eq_getElem (show 9 < e.body.bytes.length by omega)]
    rw [hx, show List.drop 9 e.body.bytes = e.body.bytes[9] :: List.drop 10 e.body.bytes from
      List.drop_eq_getElem_cons (by omega)]
    rfl
  simp only [viewGet, View.get, imagSubtypeView, View.mk', hs, bits6_get, wrapIndexError, imagType]

theorem sizedLength_zero {e : Ent} (h : lengthStart e.cls = 0) :
    e.sizedLength = fromLE (e.body.bytes.take 2) := by
  unfold sizedLength
  rw [h]
  congr 1
  simp only [getSlice, Slice.bounds, Slice.indices]
  rcases e.body.bytes with _ | ⟨a, _ | ⟨b, l⟩⟩
  · rfl
  · rfl
  · have := getSlice_nat (a := 0) (b := 2) (d := a :: b :: l) (by omega) (by simp)
    exact this

theorem getType_typeId {n : Nat} {c : Cls} (h : Cls.getType n = some c) :
    (c = .graphedEquation ∧ n = 0x23) ∨ c.typeId = some n := by
  unfold Cls.getType at h
  split at h <;> first | (injection h with h; subst h; simp [Cls.typeId]) | cases h

theorem coerceTyped_plain (env : Env V) {e : Ent} (h : Plain e.cls = true) :
    coerceTyped env e = ⟨.ok (), e, []⟩ := by
  rcases hc : e.cls <;> rw [hc] at h <;>
    first | exact absurd h (by decide) | (simp only [coerceTyped, PyM.bind_run, PyM.get_run, hc]; rfl)

theorem coerceProgram_run (env : Env V) {e : Ent} {t : UInt8} (ht : e.typeId = [t])
    (h1 : e.cls ≠ .asmProgram) (h2 : e.cls ≠ .protAsmProgram) :
    coerceProgram env e =
      ⟨.ok (), { e with cls := programClass t.toNat (looksAsm env e.data) e.cls }, []⟩ := by
  simp [coerceProgram, PyM.bind_run, h1, h2, getTypeId_one ht, setClass]

theorem coerceComplex_run {e : Ent} {c : Cls} (hl : 10 ≤ e.body.bytes.length)
    (hc : Cls.getType (imagType e.body.bytes) = some c) :
    coerceComplex e =
      ⟨.ok (), { e with cls := c, typeId := [UInt8.ofNat (imagType e.body.bytes)] }, []⟩ := by
  have hlt : imagType e.body.bytes < 64 := Nat.mod_lt _ (by omega)
  have e1 : (((imagType e.body.bytes : Nat) : Int) % 256).toNat = imagType e.body.bytes := by omega
  have e2 : (UInt8.ofNat (imagType e.body.bytes)).toNat = imagType e.body.bytes := by
    simp; omega
  simp [coerceComplex, PyM.bind_run, imagSubtype_get hl, setTypeId_run, e1,
    getTypeId_one (e := ⟨_, _, [UInt8.ofNat (imagType e.body.bytes)], _, _, _, _⟩) rfl, e2, hc,
    setClass]

theorem and_31 (n : Nat) : n &&& 31 = n % 32 := Nat.and_two_pow_sub_one_eq_mod n 5

theorem data_two {e : Ent} (h : dataStart e.cls = 2) (hl : 3 ≤ e.body.bytes.length) :
    ∃ l, e.data = e.body.bytes.getD 2 0 :: l := by
  unfold data
  rw [h]
  generalize e.body.bytes = d at hl
  rcases d with _ | ⟨a, _ | ⟨b, _ | ⟨c, l⟩⟩⟩
  · simp at hl
  · simp at hl
  · simp at hl
  · exact ⟨l, rfl⟩

theorem coerceList_run {e : Ent} {c : Cls} (h : dataStart e.cls = 2) (hl : 3 ≤ e.body.bytes.length)
    (hc : Cls.getType ((e.body.bytes.getD 2 0).toNat % 32) = some c) :
    (c.isSub .realE = true → coerceList e = ⟨.ok (), { e with cls := .realList }, []⟩) ∧
    (c.isSub .realE = false → c.isSub .complexE = true →
      coerceList e = ⟨.ok (), { e with cls := .complexList }, []⟩) := by
  obtain ⟨l, hd⟩ := data_two h hl
  constructor
  · intro h1
    simp only [coerceList, PyM.bind_run, PyM.get_run, hd, byte0, PyM.ofExcept_run, and_31, hc, h1]
    simp [setClass]
  · intro h1 h2
    simp only [coerceList, PyM.bind_run, PyM.get_run, hd, byte0, PyM.ofExcept_run, and_31, hc, h1, h2]
    simp [setClass]

theorem content_realList (env : Env V) {e : Ent} {t : UInt8} (hcls : e.cls = .realList)
    (h1 : 1 = t.toNat) (hok : ContentOK 1 e.body.bytes) :
    ∃ c', coerceTyped env e = ⟨.ok (), { e with cls := c' }, []⟩ ∧ c'.typeId = some t.toNat := by
  refine ⟨.realList, ?_, by rw [← h1]; rfl⟩
  have hrun : coerceTyped env e = coerceList e := by simp [coerceTyped, PyM.bind_run, hcls]
  obtain ⟨hl, hm⟩ : 3 ≤ e.body.bytes.length ∧
    (e.body.bytes.getD 2 0).toNat % 32 ∈ [0x00, 0x0E, 0x18, 0x1C] := hok
  rw [hrun]
  have hd : dataStart e.cls = 2 := by rw [hcls]; rfl
  have : ∃ c, Cls.getType ((e.body.bytes.getD 2 0).toNat % 32) = some c ∧ c.isSub .realE = true := by
    revert hm
    generalize (e.body.bytes.getD 2 0).toNat % 32 = n
    intro hm
    simp only [List.mem_cons, List.not_mem_nil, or_false] at hm
    rcases hm with rfl | rfl | rfl | rfl
    · exact ⟨_, rfl, by decide⟩
    · exact ⟨_, rfl, by decide⟩
    · exact ⟨_, rfl, by decide⟩
    · exact ⟨_, rfl, by decide⟩
  obtain ⟨c, hc, hs⟩ := this
  exact (coerceList_run hd hl hc).1 hs

theorem content_complexList (env : Env V) {e : Ent} {t : UInt8} (hcls : e.cls = .complexList)
    (h1 : 0x0D = t.toNat) (hok : ContentOK 0x0D e.body.bytes) :
    ∃ c', coerceTyped env e = ⟨.ok (), { e with cls := c' }, []⟩ ∧ c'.typeId = some t.toNat := by
  refine ⟨.complexList, ?_, by rw [← h1]; rfl⟩
  have hrun : coerceTyped env e = coerceList e := by simp [coerceTyped, PyM.bind_run, hcls]
  obtain ⟨hl, hm⟩ : 3 ≤ e.body.bytes.length ∧
    (e.body.bytes.getD 2 0).toNat % 32 ∈ [0x0C, 0x1B, 0x1D, 0x1E, 0x1F] := hok
  rw [hrun]
  have hd : dataStart e.cls = 2 := by rw [hcls]; rfl
  have : ∃ c, Cls.getType ((e.body.bytes.getD 2 0).toNat % 32) = some c ∧
      c.isSub .realE = false ∧ c.isSub .complexE = true := by
    revert hm
    generalize (e.body.bytes.getD 2 0).toNat % 32 = n
    intro hm
    simp only [List.mem_cons, List.not_mem_nil, or_false] at hm
    rcases hm with rfl | rfl | rfl | rfl | rfl
    · exact ⟨_, rfl, by decide⟩
    · exact ⟨_, rfl, by decide⟩
    · exact ⟨_, rfl, by decide⟩
    · exact ⟨_, rfl, by decide⟩
    · exact ⟨_, rfl, by decide⟩
  obtain ⟨c, hc, hs, hs2⟩ := this
  exact (coerceList_run hd hl hc).2 hs hs2

theorem content_program (env : Env V) {e : Ent} {t : UInt8}
    (hcls : e.cls = .program ∨ e.cls = .protProgram) (ht : e.typeId = [t])
    (h1 : t.toNat = 5 ∨ t.toNat = 6) :
    ∃ c', coerceTyped env e = ⟨.ok (), { e with cls := c' }, []⟩ ∧ c'.typeId = some t.toNat := by
  have hrun : coerceTyped env e = coerceProgram env e := by
    rcases hcls with h | h <;> simp [coerceTyped, PyM.bind_run, h]
  rw [hrun, coerceProgram_run env ht (by rcases hcls with h | h <;> rw [h] <;> decide)
    (by rcases hcls with h | h <;> rw [h] <;> decide)]
  refine ⟨_, rfl, ?_⟩
  unfold programClass
  rcases h1 with h1 | h1 <;> rw [h1] <;> cases looksAsm env e.data <;> rfl

theorem coercePicture_run {e : Ent} (h : lengthStart e.cls = 0) :
    coercePicture e =
      if fromLE (e.body.bytes.take 2) + 2 = 758 then ⟨.ok (), { e with cls := .monoPicture }, []⟩
      else if fromLE (e.body.bytes.take 2) + 2 = 21947 then ⟨.ok (), { e with cls := .picture }, []⟩
      else if fromLE (e.body.bytes.take 2) + 2 = 22247 then ⟨.ok (), { e with cls := .image }, []⟩
      else ⟨.ok (), e, [.pictureLength]⟩ := by
  simp only [coercePicture, PyM.bind_run, PyM.get_run, sizedLength_zero h, setClass, PyM.ite_run,
    PyM.modify_run, PyM.warn_run, List.nil_append]

theorem content_picture (env : Env V) {e : Ent} {t : UInt8}
    (hcls : e.cls = .picture ∨ e.cls = .monoPicture) (h1 : 7 = t.toNat)
    (hok : ContentOK 7 e.body.bytes) :
    ∃ c', coerceTyped env e = ⟨.ok (), { e with cls := c' }, []⟩ ∧ c'.typeId = some t.toNat := by
  have hrun : coerceTyped env e = coercePicture e := by
    rcases hcls with h | h <;> simp [coerceTyped, PyM.bind_run, h]
  have hm : fromLE (e.body.bytes.take 2) ∈ [756, 21945] := hok
  rw [hrun, coercePicture_run (by rcases hcls with h | h <;> rw [h] <;> rfl), ← h1]
  simp only [List.mem_cons, List.not_mem_nil, or_false] at hm
  rcases hm with h | h <;> rw [h]
  · exact ⟨_, rfl, rfl⟩
  · exact ⟨_, rfl, rfl⟩

theorem content_image (env : Env V) {e : Ent} {t : UInt8} (hcls : e.cls = .image)
    (h1 : 0x1A = t.toNat) (hok : ContentOK 0x1A e.body.bytes) :
    ∃ c', coerceTyped env e = ⟨.ok (), { e with cls := c' }, []⟩ ∧ c'.typeId = some t.toNat := by
  have hrun : coerceTyped env e = coercePicture e := by simp [coerceTyped, PyM.bind_run, hcls]
  have hm : fromLE (e.body.bytes.take 2) = 22245 := hok
  rw [hrun, coercePicture_run (by rw [hcls]; rfl), ← h1, hm]
  exact ⟨_, rfl, rfl⟩

theorem modeId_eq (e : Ent) (h : 4 ≤ e.body.bytes.length) :
    e.modeId = (e.body.bytes.getD 3 0).toNat := by
  unfold modeId
  have hx : e.body.bytes.getD 3 0 = e.body.bytes[3] := by
    simp [List.getD, List.getElem?_eq_getElem (show 3 < e.body.bytes.length by omega)]
  rw [hx, show List.drop 3 e.body.bytes = e.body.bytes[3] :: List.drop 4 e.body.bytes from
    List.drop_eq_getElem_cons (by omega)]
  simp only [List.take_succ_cons, List.take_zero, fromLE]
  omega

theorem content_gdb (env : Env V) {e : Ent} {t : UInt8} (hcls : e.cls = .monoGDB)
    (h1 : 8 = t.toNat) (hok : ContentOK 8 e.body.bytes) :
    ∃ c', coerceTyped env e = ⟨.ok (), { e with cls := c' }, []⟩ ∧ c'.typeId = some t.toNat := by
  have hrun : coerceTyped env e = coerceMonoGDB e := by simp [coerceTyped, PyM.bind_run, hcls]
  have hm : e.body.bytes.getD 3 0 ∈ ([0x10, 0x40, 0x20, 0x80] : List UInt8) := hok
  have hl : 4 ≤ e.body.bytes.length := by
    by_contra hl
    rw [List.getD, List.getElem?_eq_none (by omega)] at hm
    exact absurd hm (by decide)
  rw [hrun, ← h1]
  have hmode := modeId_eq e hl
  have hm2 : ∀ c, ({ e with cls := c } : Ent).modeId = e.modeId := fun _ => rfl
  simp only [List.mem_cons, List.not_mem_nil, or_false] at hm
  simp only [coerceMonoGDB, coerceColorGDB, PyM.bind_run, PyM.get_run, setClass, PyM.modify_run,
    PyM.ite_run, hm2, hmode]
  by_cases hcd : e.colorData ≠ []
  · simp only [if_pos hcd]
    rcases hm with h | h | h | h <;> rw [h]
    · exact ⟨.func, rfl, rfl⟩
    · exact ⟨.param, rfl, rfl⟩
    · exact ⟨.polar, rfl, rfl⟩
    · exact ⟨.seq, rfl, rfl⟩
  · simp only [if_neg hcd]
    rcases hm with h | h | h | h <;> rw [h]
    · exact ⟨.monoFunc, rfl, rfl⟩
    · exact ⟨.monoParam, rfl, rfl⟩
    · exact ⟨.monoPolar, rfl, rfl⟩
    · exact ⟨.monoSeq, rfl, rfl⟩

theorem content_complex (env : Env V) {e : Ent} {n : Nat} {t : UInt8} {c : Cls} (ht : e.typeId = [t])
    (h1 : n = t.toNat) (hrun : coerceTyped env e = coerceComplex e)
    (hok : ContentOK n e.body.bytes)
    (hn : n = 0x0C ∨ n = 0x1B ∨ n = 0x1D ∨ n = 0x1E ∨ n = 0x1F)
    (hc : Cls.getType n = some c ∧ c.typeId = some n) :
    ∃ c', coerceTyped env e = ⟨.ok (), { e with cls := c' }, []⟩ ∧ c'.typeId = some t.toNat := by
  unfold ContentOK at hok
  rw [if_pos hn] at hok
  refine ⟨c, ?_, by rw [← h1]; exact hc.2⟩
  rw [hrun, coerceComplex_run hok.1 (by rw [hok.2]; exact hc.1), hok.2]
  have : UInt8.ofNat n = t := by rw [h1]; simp
  rw [this, ← ht]

/-- With determined content, coercion of a registered class settles on a class of the same type
ID, changes nothing else and does not warn. -/
theorem coerceTyped_content (env : Env V) {e : Ent} {t : UInt8} {c : Cls} (ht : e.typeId = [t])
    (hc : Cls.getType t.toNat = some c) (hcls : e.cls = c) (hok : ContentOK t.toNat e.body.bytes) :
    ∃ c', coerceTyped env e = ⟨.ok (), { e with cls := c' }, []⟩ ∧ c'.typeId = some t.toNat := by
  subst hcls
  rcases getType_typeId hc with ⟨h1, h2⟩ | h1
  · rw [h2] at hok
    exact absurd hok (by simp [ContentOK])
  · by_cases hp : Plain e.cls = true
    · exact ⟨e.cls, coerceTyped_plain env hp, h1⟩
    · rcases hcls : e.cls <;> rw [hcls] at h1 hc hp <;>
        first
        | exact absurd rfl hp
        | (simp only [Cls.typeId, reduceCtorEq] at h1; done)
        | skip
      all_goals simp only [Cls.typeId, Option.some.injEq] at h1
      all_goals rw [← h1] at hok hc
      all_goals simp only [Cls.getType, Option.some.injEq, reduceCtorEq] at hc
      case realList => exact content_realList env hcls h1 hok
      case complexList => exact content_complexList env hcls h1 hok
      case program => exact content_program env (Or.inl hcls) ht (Or.inl h1.symm)
      case protProgram => exact content_program env (Or.inr hcls) ht (Or.inr h1.symm)
      case picture => exact content_picture env (Or.inl hcls) h1 hok
      case image => exact content_image env hcls h1 hok
      case monoGDB => exact content_gdb env hcls h1 hok
      all_goals
        exact content_complex env ht h1 (by simp [coerceTyped, PyM.bind_run, hcls]) hok
          (by decide) ⟨rfl, rfl⟩

end Ent
end Verif
