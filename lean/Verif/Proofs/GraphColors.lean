import Verif.Model.Construct
import Verif.Proofs.Assign

/-! Helper lemmas for the colours of new graph databases. -/

namespace Verif
open Spec
namespace Ent

/-- Storing a known colour in one of the last five bytes. -/
theorem putColorAt {start stop : Int} {k n : Nat} {pre rest : Bytes} {old : UInt8} {e : Ent} (hb : e.body = ⟨true, pre ++ old :: rest⟩)
    (hv : viewLength none { start := some start, stop := some stop } = some 1)
    (hs : ({ start := some start, stop := some stop } : Slice).bounds (pre ++ old :: rest).length = (pre.length, pre.length + 1))
    (hk : (k : Int) ∈ colorNames.map Prod.snd) (hn : k = n) (hlt : n < 256) :
    viewPut (enumViewAt colorNames start stop) k e =
      ⟨.ok (), { e with body := ⟨true, pre ++ UInt8.ofNat n :: rest⟩ }, []⟩ := by
  subst hn
  refine viewPut_ok ?_
  have hraw : setRaw (enumConv (colorNames.map Prod.snd)) (some 1)
      (getSlice (pre ++ old :: rest) { start := some start, stop := some stop }) (k : Int) () = ⟨.ok [UInt8.ofNat k], (), []⟩ := by
    unfold setRaw
    rw [PyM.bind_ok (a := [UInt8.ofNat k]) (s' := ()) (w := []) (by
      simp only [enumConv, hk, not_true_eq_false, if_false, byteOf]
      rw [if_neg (by omega)]
      rfl), fitWidth_eq (n := 1) (x := [UInt8.ofNat k]) rfl]
    rfl
  rw [← hv] at hraw
  rw [hb]
  refine (view_put_ok (v := enumViewAt colorNames start stop) hraw).trans ?_
  have hset : setSlice (pre ++ old :: rest) { start := some start, stop := some stop } [UInt8.ofNat k] =
      pre ++ UInt8.ofNat k :: rest := by
    unfold setSlice
    rw [hs]
    simp
  show (⟨.ok (), ⟨true, setSlice (pre ++ old :: rest) { start := some start, stop := some stop } [UInt8.ofNat k]⟩, []⟩ : Out Buf Unit) = _
  rw [hset]

/-- The colours that the constructor sets. -/
theorem setColors_run {e : Ent} (h : e.cls.isSub .gdb = true) {pre : Bytes} {g a x y z : UInt8}
    (hb : e.body = ⟨true, pre ++ [g, a, x, y, z]⟩) :
    setColors e = ⟨.ok (), { e with body := ⟨true, pre ++ [0x0D, 0x03, x, y, z]⟩ }, []⟩ := by
  have hbd : ∀ j : Nat, j < 4 → ∀ n : Nat, ({ start := some (-(5 - j : Nat) : Int), stop := some (-(4 - j : Nat) : Int) } : Slice).bounds (n + 5) =
      (n + j, n + j + 1) := by
    intro j hj n
    have h5 : ((5 - j : Nat) : Int) = 5 - (j : Int) := by omega
    have h4 : ((4 - j : Nat) : Int) = 4 - (j : Int) := by omega
    simp only [Slice.bounds, Slice.indices, Option.getD_none, show ¬(1 : Int) < 0 by omega, if_false,
      show -((5 - j : Nat) : Int) < 0 by omega, show -((4 - j : Nat) : Int) < 0 by omega, if_true, Prod.mk.injEq]
    omega
  have h1 : viewPut axesView 0x03 e = ⟨.ok (), { e with body := ⟨true, pre ++ [g, 0x03, x, y, z]⟩ }, []⟩ := by
    have := putColorAt (start := -4) (stop := -3) (k := 3) (n := 3) (pre := pre ++ [g]) (rest := [x, y, z]) (old := a) (e := e)
      (by rw [hb]; simp) (by decide)
      (by have := hbd 1 (by omega) pre.length; simp only [List.length_append, List.length_cons, List.length_nil] at this ⊢; exact this)
      (by decide) rfl (by omega)
    simpa [axesView] using this
  have h2 : ∀ e' : Ent, e'.body = ⟨true, pre ++ [g, 0x03, x, y, z]⟩ → viewPut gridView 0x0D e' =
      ⟨.ok (), { e' with body := ⟨true, pre ++ [0x0D, 0x03, x, y, z]⟩ }, []⟩ := by
    intro e' he'
    have := putColorAt (start := -5) (stop := -4) (k := 13) (n := 13) (pre := pre) (rest := [0x03, x, y, z]) (old := g) (e := e')
      he' (by decide)
      (by have := hbd 0 (by omega) pre.length; simp only [List.length_append, List.length_cons, List.length_nil] at this ⊢; exact this)
      (by decide) rfl (by omega)
    simpa [gridView] using this
  unfold setColors
  rw [PyM.bind_ok (PyM.get_run e)]
  simp only [h, if_true]
  rw [PyM.bind_ok h1, h2 _ rfl]
  rfl

end Ent
end Verif
