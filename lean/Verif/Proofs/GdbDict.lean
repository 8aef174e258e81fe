import Verif.Spec.GdbDict
import Verif.Proofs.Gdb
import Verif.Proofs.Settings
import Verif.Proofs.Flags

/-! Helper lemmas for the dictionaries of graph databases. -/

namespace Verif
open Spec
namespace Ent
variable {V : Type} [LinearOrder V]

/-! ### One byte of flags -/

theorem flagsGet_byte (b : UInt8) : flagsGet [b] = mkFlags 8 b.toNat.testBit := by
  have hb : b.toNat < 2 ^ 8 := b.toNat_lt
  have h := binLen_le hb (by omega)
  have hpos : 0 < binLen b.toNat := by unfold binLen; split <;> omega
  rw [flagsGet_eq, show fromLE [b] = b.toNat by simp [fromLE]]
  congr 1
  omega

theorem flagsSet_byte (f : Nat → Bool) : ∃ b : UInt8, flagsSet (mkFlags 8 f) = .ok [b] ∧
    ∀ k < 8, b.toNat.testBit k = f k := by
  have hlt : ofBits ((List.range 8).map f) < 256 := by
    simpa using ofBits_lt ((List.range 8).map f)
  refine ⟨UInt8.ofNat (ofBits ((List.range 8).map f)), ?_, ?_⟩
  · rw [flagsSet, flagsInt_mkFlags, intToBytesLE, if_neg (by simp [mkFlags]; omega), Int.toNat_natCast]
    simp [mkFlags, toLE]
  · intro k hk
    rw [UInt8.toNat_ofNat', Nat.mod_eq_of_lt hlt, testBit_ofBits]
    simp [hk]

/-- Updating a byte of flags. -/
theorem flag_step (b : UInt8) {s : FlagItems} (hs : ∀ kv ∈ s, kv.1 < 8) :
    ∃ b' : UInt8, flagsSet (flagsUpdate (flagsGet [b]) s) = .ok [b'] ∧
      ∀ k < 8, b'.toNat.testBit k = updFun b.toNat.testBit s k := by
  rw [flagsGet_byte, flagsUpdate_mkFlags hs]
  exact flagsSet_byte _

theorem byte_ext {a b : UInt8} (h : ∀ k < 8, a.toNat.testBit k = b.toNat.testBit k) : a = b := by
  apply UInt8.toNat_inj.mp
  apply Nat.eq_of_testBit_eq
  intro k
  by_cases hk : k < 8
  · exact h k hk
  · have hpow : 2 ^ 8 ≤ 2 ^ k := Nat.pow_le_pow_right (by omega) (by omega)
    rw [Nat.testBit_lt_two_pow (Nat.lt_of_lt_of_le a.toNat_lt hpow),
      Nat.testBit_lt_two_pow (Nat.lt_of_lt_of_le b.toNat_lt hpow)]

/-! ### Views of one byte -/

theorem bounds_neg {a b n : Nat} (hb : 0 < b) (h : b < a) (ha : a ≤ n) :
    (⟨some (-(a : Int)), some (-(b : Int)), none⟩ : Slice).bounds n = (n - a, n - b) := by
  simp only [Slice.bounds, Slice.indices, Option.getD_none, show ¬(1 : Int) < 0 by omega, if_false,
    show -(a : Int) < 0 by omega, show -(b : Int) < 0 by omega, if_true, Prod.mk.injEq]
  omega

theorem bounds_last {n : Nat} (h : 1 ≤ n) :
    (⟨some (-1), none, none⟩ : Slice).bounds n = (n - 1, n) := by
  simp only [Slice.bounds, Slice.indices, Option.getD_none]
  simp
  omega

theorem getSlice_one {d : Bytes} {s : Slice} {k : Nat} (hk : k < d.length) (hs : s.bounds d.length = (k, k + 1)) :
    getSlice d s = [d[k]] := by
  simp only [getSlice, hs]
  rw [Nat.add_sub_cancel_left, List.drop_eq_getElem_cons hk]
  rfl

theorem setSlice_one {d : Bytes} {s : Slice} {k : Nat} (hk : k < d.length) (hs : s.bounds d.length = (k, k + 1))
    (b : UInt8) : setSlice d s [b] = d.set k b := by
  simp only [setSlice, hs]
  rw [List.set_eq_take_append_cons_drop, if_pos hk]
  simp

theorem setRaw_one {α : Type} {c : Conv α} {cur : Bytes} {value : α} {b : UInt8} {ws : List Warn}
    (h : c.set value (some 1) cur () = ⟨.ok [b], (), ws⟩) :
    setRaw c (some 1) cur value () = ⟨.ok [b], (), ws⟩ := by
  unfold setRaw
  rw [PyM.bind_ok h, fitWidth_eq (n := 1) (x := [b]) rfl]
  simp

theorem viewPut_byte {α : Type} {v : View α} {value : α} {e : Ent} {d : Bytes} {k : Nat} {b : UInt8}
    {ws : List Warn} (hl : v.length = some 1) (hk : k < d.length) (hs : v.slice.bounds d.length = (k, k + 1))
    (hb : e.body = ⟨true, d⟩) (h : v.conv.set value (some 1) [d[k]] () = ⟨.ok [b], (), ws⟩) :
    viewPut v value e = ⟨.ok (), { e with body := ⟨true, d.set k b⟩ }, ws⟩ := by
  refine viewPut_ok ?_
  rw [hb]
  have := setRaw_one h
  rw [← hl, ← getSlice_one hk hs] at this
  rw [view_put_ok this, setSlice_one hk hs]

/-- Updating the flags of a one-byte view. -/
theorem orFlags_byte {v : View FlagItems} {e : Ent} {d : Bytes} {k : Nat} {s : FlagItems} (hc : v.conv = flagsConv)
    (hl : v.length = some 1) (hk : k < d.length) (hs : v.slice.bounds d.length = (k, k + 1))
    (hb : e.body = ⟨true, d⟩) (hf : ∀ kv ∈ s, kv.1 < 8) :
    ∃ b : UInt8, orFlags v s e = ⟨.ok (), { e with body := ⟨true, d.set k b⟩ }, []⟩ ∧
      ∀ j < 8, b.toNat.testBit j = updFun (d[k]).toNat.testBit s j := by
  obtain ⟨b, h1, h2⟩ := flag_step d[k] hf
  refine ⟨b, ?_, h2⟩
  have hget : viewGet v e = .ok (flagsGet [d[k]]) := by
    simp only [viewGet, View.get, hc, hb, getSlice_one hk hs]
    rfl
  unfold orFlags
  rw [PyM.bind_ok (PyM.get_run e), hget, PyM.bind_ok (PyM.ofExcept_run _ _)]
  rw [viewPut_byte (b := b) (ws := []) hl hk hs hb]
  · rfl
  · rw [hc]
    show (PyM.ofExcept (flagsSet _)) () = _
    rw [h1]; rfl

/-- Storing a recognised value of an enumeration. -/
theorem enumConv_set {all : List Int} {v : Int} {n : Nat} (hv : v ∈ all) (hn : v = n) (hlt : n < 256) (cur : Bytes) :
    (enumConv all).set v (some 1) cur () = ⟨.ok [UInt8.ofNat n], (), []⟩ := by
  simp only [enumConv, hv, not_true_eq_false, if_false]
  subst hn
  simp only [byteOf]
  rw [if_neg (by omega)]
  rfl

/-! ### Databases of known parts -/

theorem length_plot_head {p : Plot} {c : Cls} (hc : c ∈ plotClasses) (hp : p.Fits c) : 61 ≤ p.head.length := by
  rw [hp.head]
  exact (by decide : ∀ c ∈ plotClasses, 61 ≤ fieldStart c (fieldNames c).length) c hc

/-- The entry with the parts of a database as its data. -/
def onPlot (e : Ent) (p : Plot) : Ent := { e with body := ⟨true, p.bytes⟩ }

theorem head_set (p : Plot) {k : Nat} (hk : k < p.head.length) (b : UInt8) :
    p.bytes.set k b = ({ p with head := p.head.set k b } : Plot).bytes := by
  unfold Plot.bytes
  simp only [List.append_assoc]
  rw [List.set_append_left _ _ hk]

theorem head_get (p : Plot) {k : Nat} (hk : k < p.head.length) (hk' : k < p.bytes.length) :
    p.bytes[k] = p.head[k] := by
  unfold Plot.bytes
  simp only [List.append_assoc]
  rw [List.getElem_append_left]

theorem head_lt (p : Plot) {k : Nat} (hk : k < p.head.length) : k < p.bytes.length := by
  unfold Plot.bytes
  simp only [List.length_append]
  omega

theorem head_fits {p : Plot} {c : Cls} (hp : p.Fits c) {h : Bytes} (hl : h.length = p.head.length) :
    ({ p with head := h } : Plot).Fits c :=
  ⟨by simpa [hl] using hp.head, hp.styles, hp.eqs, hp.tokens, hp.tail⟩

/-- Updating one of the bytes of modes. -/
theorem orFlags_head {p : Plot} {e : Ent} (hc : e.cls ∈ plotClasses) (hp : p.Fits e.cls) {k : Nat} (hk : k < 7)
    {s : FlagItems} (hs : ∀ kv ∈ s, kv.1 < 8) :
    ∃ b : UInt8, orFlags (flagsViewAt (k : Int) (some ((k + 1 : Nat) : Int))) s (onPlot e p) =
        ⟨.ok (), onPlot e { p with head := p.head.set k b }, []⟩ ∧
      ∀ j < 8, b.toNat.testBit j = updFun (p.head.getD k 0).toNat.testBit s j := by
  have h61 := length_plot_head hc hp
  have hkh : k < p.head.length := by omega
  have hkl := head_lt p hkh
  have hb : (flagsViewAt (k : Int) (some ((k + 1 : Nat) : Int))).slice.bounds p.bytes.length = (k, k + 1) :=
    bounds_nat (by omega) (by omega)
  have hlen : (flagsViewAt (k : Int) (some ((k + 1 : Nat) : Int))).length = some 1 := by
    have : ∀ k : Nat, k < 7 → (flagsViewAt (k : Int) (some ((k + 1 : Nat) : Int))).length = some 1 := by decide
    exact this k hk
  obtain ⟨b, h1, h2⟩ := orFlags_byte (e := onPlot e p) rfl hlen hkl hb rfl hs
  refine ⟨b, ?_, ?_⟩
  · rw [h1, head_set p hkh]
    rfl
  · intro j hj
    rw [h2 j hj, head_get p hkh hkl, List.getD_eq_getElem?_getD, List.getElem?_eq_getElem hkh]
    rfl

/-! ### Equations -/

theorem getKey_some {α : Type} {x : Option α} {a : α} (h : x = some a) : getKey x = .ok a := by rw [h]; rfl

theorem styles_table : ∀ n ∈ graphStyles, ∃ v ∈ styleNames.map Prod.snd, styleNames.lookup n.toList = some v ∧
    v = ((graphStyles.map String.toList).idxOf n.toList : Nat) ∧ (graphStyles.map String.toList).idxOf n.toList < 256 := by
  decide +kernel

theorem colors_table : ∀ n ∈ graphColors, ∃ v ∈ colorNames.map Prod.snd, colorNames.lookup n.toList = some v ∧
    v = ((graphColors.map String.toList).idxOf n.toList : Nat) ∧ (graphColors.map String.toList).idxOf n.toList < 256 := by
  decide +kernel

theorem lines_table : ∀ n ∈ lineStyles, ∃ v ∈ lineNames.map Prod.snd, lineNames.lookup n.toList = some v ∧
    v = ((lineStyles.map String.toList).idxOf n.toList : Nat) ∧ (lineStyles.map String.toList).idxOf n.toList < 256 := by
  decide +kernel

theorem putStyle_run {v : Int} {n : Nat} (hv : v ∈ styleNames.map Prod.snd) (hn : v = n) (hlt : n < 256) (g : GEq) :
    putStyle v g = ⟨.ok (), { g with style := [UInt8.ofNat n] }, []⟩ := by
  unfold putStyle
  rw [PyM.bind_ok (PyM.get_run g)]
  simp only [PyM.bind_run, PyM.lift_run, setRaw_one (enumConv_set hv hn hlt g.style)]
  rfl

theorem putColor_run {v : Int} {n : Nat} (hv : v ∈ colorNames.map Prod.snd) (hn : v = n) (hlt : n < 256) (g : GEq) :
    putColor v g = ⟨.ok (), { g with color := [UInt8.ofNat n] }, []⟩ := by
  unfold putColor
  rw [PyM.bind_ok (PyM.get_run g)]
  simp only [PyM.bind_run, PyM.lift_run, setRaw_one (enumConv_set hv hn hlt g.color)]
  rfl

theorem putEqFlags_run {f : FlagItems} {b' : UInt8} (h : flagsSet f = .ok [b']) (st co : Bytes) (b : UInt8)
    (rest : Bytes) : putEqFlags f ⟨st, co, b :: rest⟩ = ⟨.ok (), ⟨st, co, b' :: rest⟩, []⟩ := by
  have hs : eqFlagsView.slice.bounds (b :: rest).length = (0, 0 + 1) :=
    bounds_nat (a := 0) (b := 1) (by omega) (by simp)
  have hl : eqFlagsView.length = some 1 := by decide
  have hr : setRaw eqFlagsView.conv eqFlagsView.length (getSlice (b :: rest) eqFlagsView.slice) f () =
      ⟨.ok [b'], (), []⟩ := by
    rw [hl]
    apply setRaw_one
    show PyM.ofExcept (flagsSet f) () = _
    rw [h]; rfl
  unfold putEqFlags
  simp only [view_put_ok hr, setSlice_one (d := b :: rest) (by simp) hs, List.set_cons_zero]

theorem orEqFlags_run {s : FlagItems} {b b' : UInt8} (h : flagsSet (flagsUpdate (flagsGet [b]) s) = .ok [b'])
    (st co : Bytes) (rest : Bytes) : orEqFlags s ⟨st, co, b :: rest⟩ = ⟨.ok (), ⟨st, co, b' :: rest⟩, []⟩ := by
  have hs : eqFlagsView.slice.bounds (b :: rest).length = (0, 0 + 1) :=
    bounds_nat (a := 0) (b := 1) (by omega) (by simp)
  have hget : eqFlagsView.get ⟨true, b :: rest⟩ = .ok (flagsGet [b]) := by
    simp only [View.get, getSlice_one (d := b :: rest) (by simp) hs]
    rfl
  unfold orEqFlags
  rw [PyM.bind_ok (PyM.get_run _)]
  simp only [hget]
  rw [PyM.bind_ok (PyM.ofExcept_run _ _), putEqFlags_run h]
  rfl

/-- The flags stored for an equation. -/
theorem flags_stored : ∀ a b t : Bool, ∃ x y : UInt8,
    flagsSet (flagsInit [(1, true), (0, true)]) = .ok [0x03] ∧
    flagsSet (flagsUpdate (flagsGet [0x03]) [(5, a)]) = .ok [x] ∧
    flagsSet (flagsUpdate (flagsGet [x]) [(6, b)]) = .ok [y] ∧
    flagsSet (flagsUpdate (flagsGet [y]) [(7, t)]) = .ok [eqFlagByte ⟨some a, some b, some t⟩] := by
  intro a b t
  refine ⟨eqFlagByte ⟨some a, none, none⟩, eqFlagByte ⟨some a, some b, none⟩, ?_⟩
  revert a b t
  decide +kernel

theorem eqFlagByte_getD (f : EqFlags) :
    eqFlagByte ⟨some (f.selected.getD false), some (f.used.getD false), some (f.transfer.getD false)⟩ =
      eqFlagByte f := by
  obtain ⟨a, b, t⟩ := f
  rcases a with _ | _ | _ <;> rcases b with _ | _ | _ <;> rcases t with _ | _ | _ <;> rfl

/-- Loading a dictionary of an equation in which everything is known. -/
theorem loadEqDict_run {eq : Str → PyM Unit Ent} {tok : Str → Bytes} {ws : Str → List Warn} {q : EqDict}
    (hq : KnownEq q) (heq : ∀ t, q.expr = some t → ∃ s, eq t () = ⟨.ok s, (), ws t⟩ ∧
      s.body.bytes = toLE 2 (tok t).length ++ tok t) {g : GEq} (hg : g.body ≠ []) :
    loadEqDict eq q g = ⟨.ok (), ⟨[codeIn graphStyles q.style], [codeIn graphColors q.color],
      (saidCurve tok q).bytes⟩, ws (q.expr.getD [])⟩ := by
  obtain ⟨⟨sn, hsn, hs⟩, ⟨cn, hcn, hc⟩, hfl, hex⟩ := hq
  obtain ⟨f, hf⟩ := Option.ne_none_iff_exists'.mp hfl
  obtain ⟨t, ht⟩ := Option.ne_none_iff_exists'.mp hex
  obtain ⟨s, hrun, hbytes⟩ := heq t ht
  obtain ⟨sv, hsv, hsl, hsn', hslt⟩ := styles_table sn hsn
  obtain ⟨cv, hcv, hcl, hcn', hclt⟩ := colors_table cn hcn
  obtain ⟨x, y, f0, f1, f2, f3⟩ := flags_stored (f.selected.getD false) (f.used.getD false) (f.transfer.getD false)
  rw [eqFlagByte_getD] at f3
  obtain ⟨st, co, body⟩ := g
  obtain ⟨b, rest, rfl⟩ := List.exists_cons_of_ne_nil hg
  unfold loadEqDict
  rw [getKey_some hs, PyM.bind_ok (PyM.ofExcept_run _ _),
    show getAttr styleNames (some sn.toList) = .ok sv by simp only [getAttr, hsl],
    PyM.bind_ok (PyM.ofExcept_run _ _), PyM.bind_ok (putStyle_run hsv hsn' hslt _),
    getKey_some hc, PyM.bind_ok (PyM.ofExcept_run _ _),
    show getAttr colorNames (some cn.toList) = .ok cv by simp only [getAttr, hcl],
    PyM.bind_ok (PyM.ofExcept_run _ _), PyM.bind_ok (putColor_run hcv hcn' hclt _),
    getKey_some ht, PyM.bind_ok (PyM.ofExcept_run _ _),
    PyM.bind_ok (a := s) (w := ws t) (by rw [PyM.lift_run, hrun]),
    PyM.bind_ok (PyM.modify_run _ _), getKey_some hf, PyM.bind_ok (PyM.ofExcept_run _ _)]
  simp only [loadEquation, List.take_succ_cons, List.take_zero, List.cons_append, List.nil_append]
  rw [PyM.bind_ok (putEqFlags_run f0 _ _ _ _), PyM.bind_ok (orEqFlags_run f1 _ _ _),
    PyM.bind_ok (orEqFlags_run f2 _ _ _), orEqFlags_run f3]
  simp only [hs, hc, ht, hf, codeIn, saidCurve, PlotEq.bytes, Option.getD_some, List.append_nil,
    hbytes, List.cons_append]

end Ent
end Verif
