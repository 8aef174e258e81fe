import Verif.Proofs.VarFault
import Verif.Proofs.FlashFault
import Verif.Spec.Sample
/-! C133: what loading damaged bytes raises. -/
namespace Verif
open Spec Ent
variable {V : Type} [LinearOrder V]

/-- C133, the part that holds, entries: loading any bytes whatsoever into an entry of any class that can be
loaded into raises exactly what the class, the type byte and the amount of data determine, and
nothing when they determine nothing: `IndexError` for a list without a first element,
`ValueError` for a complex number without imaginary part or a real number without data,
`UserWarning` for the classes of assembly programs. -/
theorem C133_entry_partial (env : Env V) (data : Bytes) (e₀ : Ent) (hc : e₀.cls ∉ baseOnly) :
    (load env data e₀).res = match loadFault e₀.cls data with
      | none => .ok ()
      | some x => .error x := by
  rw [(load_yields env data hc).1]
  cases loadFault e₀.cls data <;> rfl

/-- An empty list, a list of one number, a complex number cut off, and an empty program. -/
example : [loadFault .entry [0x0D, 0, 2, 0, 0x01, 0x5D, 0, 0, 0, 0, 0, 0, 0, 0, 0, 2, 0, 0, 0],
    loadFault .entry ([0x0D, 0, 11, 0, 0x01, 0x5D, 0, 0, 0, 0, 0, 0, 0, 0, 0, 11, 0, 1, 0] ++ List.replicate 9 0),
    loadFault .complex [0x0D, 0, 9, 0, 0x0C, 0x41, 0, 0, 0, 0, 0, 0, 0, 0, 0, 9, 0, 1, 0, 0, 0, 0, 0, 0, 0, 0],
    loadFault .program []] = [some .indexError, none, some .valueError, none] := by decide +kernel

/-- C133, the part that holds, vars: loading any bytes whatsoever as a var – without a model, as opening a
file does – raises exactly what the first of the pieces that its entries are given raises. -/
theorem C133_var_partial (env : Env V) (me : Var.ModelEnv) (data : Bytes) (v : Var) (hm : v.model = none) :
    ∃ pieces, Cut data (min 55 data.length) (fromLE ((data.drop 53).take 2) : Nat) pieces ∧
      (Var.load env me data v).res = match pieces.findSome? (loadFault .entry) with
        | none => .ok ()
        | some x => .error x := by
  obtain ⟨ps, hc, h⟩ := Var.load_cut env me data hm
  refine ⟨ps, hc, ?_⟩
  rw [h]
  cases ps.findSome? (loadFault .entry) <;> rfl

/-- A file cut off in the middle of its second entry. -/
example : Cut (List.replicate 53 0 ++ [21, 0] ++ [0x0B, 0, 1, 0, 7, 7, 7, 7, 7, 7, 7, 7, 7, 1, 0, 9] ++ [0x0B, 0]) 55 21
    [[0x0B, 0, 1, 0, 7, 7, 7, 7, 7, 7, 7, 7, 7, 1, 0, 9], [0, 9, 0x0B, 0]] :=
  .next (by decide) (by decide +kernel) (.next (by decide +kernel) (by decide +kernel) (.done (by decide +kernel)))

/-- C133, the part that holds, flash headers: loading any bytes raises exactly when the byte for the length of
the name is missing (`IndexError`), or the type (`ValueError`). -/
theorem C133_flash_partial (d : Bytes) (h : Flash) : (Flash.load d h).res = match flashFault d with
    | none => .ok ()
    | some x => .error x := Flash.load_fault d h

example : [flashFault [], flashFault (List.replicate 17 0x2A), flashFault (List.replicate 50 0x2A)] =
    [some .indexError, some .valueError, none] := by decide +kernel

/-- C133 is false of the code. A saved list of no elements does not load; neither does a whole var because
of such an entry behind a good one, and nothing loads into an entry of a class of assembly
programs. The entry loaded into is overwritten before the exception. -/
theorem C133_load_false (env : Env V) :
    (∃ e₀ data, (load sampleEnv data e₀).res = .error .indexError ∧ (load sampleEnv data e₀).st.name ≠ e₀.name) ∧
    (∃ data, (Var.load sampleEnv ⟨fun _ => 0, id⟩ data ⟨Hdr.unset, [], none⟩).res = .error .indexError) ∧
    (∀ (data : Bytes) (e₀ : Ent), e₀.cls = .asmProgram → (load env data e₀).res = .error .userWarningError) := by
  refine ⟨⟨fresh sampleEnv, [0x0D, 0, 2, 0, 0x01, 0x5D, 0, 0, 0, 0, 0, 0, 0, 0, 0, 2, 0, 0, 0], ?_⟩,
    ⟨List.replicate 53 0 ++ [35, 0] ++ [0x0B, 0, 1, 0, 0x15, 7, 7, 7, 7, 7, 7, 7, 7, 1, 0, 9] ++
      [0x0D, 0, 2, 0, 0x01, 0x5D, 0, 0, 0, 0, 0, 0, 0, 0, 0, 2, 0, 0, 0], ?_⟩, ?_⟩
  · decide +kernel
  · decide +kernel
  · intro data e₀ h
    rw [C133_entry_partial env data e₀ (by rw [h]; decide), h]
    rfl

end Verif
