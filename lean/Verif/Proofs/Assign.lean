import Verif.Model.Assign
import Verif.Proofs.EntryLoad

/-! Lemmas about assigning the data of an entry. -/

namespace Verif
open Spec

theorem viewLength_nat {a b : Nat} (h : a ≤ b) : viewLength none (Slice.nat a b) = some (b - a) := by
  simp only [viewLength, Slice.nat, Option.getD_none, Option.getD_some]
  simp
  omega

theorem viewLength_natFrom (a : Nat) : viewLength none (Slice.natFrom a) = none := by
  simp [viewLength, Slice.natFrom]

theorem view_put_ok {α : Type} {v : View α} {val : α} {d x : Bytes} {w : List Warn}
    (h : setRaw v.conv v.length (getSlice d v.slice) val () = ⟨.ok x, (), w⟩) :
    v.put val ⟨true, d⟩ = ⟨.ok (), ⟨true, setSlice d v.slice x⟩, w⟩ := by
  simp [View.put, PyM.bind_run, h]

theorem view_put_error {α : Type} {v : View α} {val : α} {m : Bool} {d : Bytes} {e : PyErr}
    {w : List Warn}
    (h : setRaw v.conv v.length (getSlice d v.slice) val () = ⟨.error e, (), w⟩) :
    v.put val ⟨m, d⟩ = ⟨.error e, ⟨m, d⟩, w⟩ := by
  simp [View.put, PyM.bind_run, h]

theorem intToBytesLE_ok {n l : Nat} (h : n < 256 ^ l) :
    intToBytesLE (n : Int) l = .ok (toLE l n) := by
  unfold intToBytesLE
  have h' : ((n : Int)) < ((256 ^ l : Nat) : Int) := by exact_mod_cast h
  rw [if_neg (by omega)]
  simp

theorem intToBytesLE_overflow {n l : Nat} (h : 256 ^ l ≤ n) :
    intToBytesLE (n : Int) l = .error .overflowError := by
  unfold intToBytesLE
  rw [if_pos (Or.inr (by exact_mod_cast h))]

namespace Ent

theorem viewPut_ok {α : Type} {v : View α} {val : α} {e : Ent} {b : Buf} {w : List Warn}
    (h : v.put val e.body = ⟨.ok (), b, w⟩) :
    viewPut v val e = ⟨.ok (), { e with body := b }, w⟩ := by
  simp [viewPut, h]

theorem viewPut_error {α : Type} {v : View α} {val : α} {e : Ent} {x : PyErr} {b : Buf}
    {w : List Warn} (h : v.put val e.body = ⟨.error x, b, w⟩) :
    viewPut v val e = ⟨.error x, { e with body := b }, w⟩ := by
  simp [viewPut, h]

theorem setLength_ok {e : Ent} {n : Nat} {d : Bytes} (hc : lengthStart e.cls = 0)
    (hb : e.body = ⟨true, d⟩) (hd : 2 ≤ d.length) (hn : n < 65536) :
    setLength n e = ⟨.ok (), { e with body := ⟨true, toLE 2 n ++ d.drop 2⟩ }, []⟩ := by
  have hs : (lengthView e.cls).slice = Slice.nat 0 2 := by simp [lengthView, View.mk', hc, Slice.nat]
  have hl : (lengthView e.cls).length = some 2 := by
    have := viewLength_nat (a := 0) (b := 2) (by omega)
    simp only [lengthView, View.mk', hc]
    exact this
  have hput : (lengthView e.cls).put (n : Int) e.body =
      ⟨.ok (), ⟨true, toLE 2 n ++ d.drop 2⟩, []⟩ := by
    rw [hb]
    have h1 : setRaw (lengthView e.cls).conv (lengthView e.cls).length
        (getSlice d (lengthView e.cls).slice) (n : Int) () = ⟨.ok (toLE 2 n), (), []⟩ := by
      rw [hl]
      refine setRaw_eq (n := 2) ?_ (length_toLE 2 n)
      show (PyM.ofExcept (intToBytesLE (n : Int) 2) : PyM Unit Bytes) () = _
      rw [intToBytesLE_ok (by have : 256 ^ 2 = 65536 := rfl; omega)]
      rfl
    rw [view_put_ok h1, hs, setSlice_nat (by omega) hd]
    rfl
  simp only [setLength, PyM.bind_run, PyM.get_run]
  rw [viewPut_ok hput]
  simp

theorem setLength_overflow {e : Ent} {n : Nat} (hc : lengthStart e.cls = 0) (hn : 65536 ≤ n) :
    setLength n e = ⟨.error .overflowError, e, []⟩ := by
  have hl : (lengthView e.cls).length = some 2 := by
    have := viewLength_nat (a := 0) (b := 2) (by omega)
    simp only [lengthView, View.mk', hc]
    exact this
  have hput : (lengthView e.cls).put (n : Int) e.body =
      ⟨.error .overflowError, e.body, []⟩ := by
    refine view_put_error ?_
    rw [hl]
    unfold setRaw
    rw [PyM.bind_error]
    show (PyM.ofExcept (intToBytesLE (n : Int) 2) : PyM Unit Bytes) () = _
    rw [intToBytesLE_overflow (by have : 256 ^ 2 = 65536 := rfl; omega)]
    rfl
  simp only [setLength, PyM.bind_run, PyM.get_run]
  rw [viewPut_error hput]
  simp

theorem updateVersion_ok {gv : GetVersion} {value : Bytes} {e : Ent} {ws : List Warn} {v : Nat}
    (h : gv e value = (ws, .ok v)) : updateVersion gv value e =
      ⟨.ok (), { e with version := [UInt8.ofNat v] },
        ws ++ if e.metaLength = 11 then [.flashlessVersion] else []⟩ := by
  have hv : UInt8.ofNat ((v : Int) % 256).toNat = UInt8.ofNat v := by
    apply UInt8.toNat_inj.1
    simp
    omega
  simp [updateVersion, PyM.bind_run, h, setVersion_run, hv]

theorem updateVersion_error {gv : GetVersion} {value : Bytes} {e : Ent} {ws : List Warn} {x : PyErr}
    (h : gv e value = (ws, .error x)) : updateVersion gv value e = ⟨.error x, e, ws⟩ := by
  simp [updateVersion, PyM.bind_run, h]

theorem dataPut_ok {e : Ent} {d value : Bytes} (hb : e.body = ⟨true, d⟩)
    (hd : dataStart e.cls ≤ d.length) (c : Cls) (hc : dataStart c = dataStart e.cls) :
    viewPut (dataView c) value e =
      ⟨.ok (), { e with body := ⟨true, d.take (dataStart e.cls) ++ value⟩ }, []⟩ := by
  have hs : (dataView c).slice = Slice.natFrom (dataStart e.cls) := by
    simp [dataView, View.mk', Slice.natFrom, hc]
  have hl : (dataView c).length = none := viewLength_natFrom (dataStart c)
  have hput : (dataView c).put value e.body =
      ⟨.ok (), ⟨true, d.take (dataStart e.cls) ++ value⟩, []⟩ := by
    rw [hb]
    have h1 : setRaw (dataView c).conv (dataView c).length
        (getSlice d (dataView c).slice) value () = ⟨.ok value, (), []⟩ := by
      rw [hl]
      rfl
    rw [view_put_ok h1, hs, setSlice_natFrom hd]
  exact viewPut_ok hput

/-- Assigning data to a sized entry whose version can be computed. -/
theorem setData_ok {gv : GetVersion} {value : Bytes} {e : Ent} {d : Bytes} {ws : List Warn} {v : Nat}
    (hz : e.cls.isSized = true) (h1 : lengthStart e.cls = 0) (h2 : dataStart e.cls = 2)
    (hb : e.body = ⟨true, d⟩) (hd : 2 ≤ d.length) (hn : value.length < 65536)
    (hg : gv { e with body := ⟨true, toLE 2 value.length ++ d.drop 2⟩ } value = (ws, .ok v)) :
    setData gv value e = ⟨.ok (),
      { e with version := [UInt8.ofNat v], body := ⟨true, toLE 2 value.length ++ value⟩ },
      ws ++ if e.metaLength = 11 then [.flashlessVersion] else []⟩ := by
  have hp := dataPut_ok (e := { e with
      version := [UInt8.ofNat v]
      body := ⟨true, toLE 2 value.length ++ d.drop 2⟩ }) (value := value) rfl
      (by simp [h2]) e.cls rfl
  rw [h2] at hp
  simp only [List.take_left' (length_toLE 2 value.length)] at hp
  have hm : ({ e with body := ⟨true, toLE 2 value.length ++ d.drop 2⟩ } : Ent).metaLength =
      e.metaLength := rfl
  simp only [setData, PyM.bind_run, PyM.get_run, hz, if_true, setLength_ok h1 hb hd hn,
    updateVersion_ok hg, hm]
  rw [hp]
  simp

end Ent
end Verif
