import Verif.Proofs.Group
import Verif.Spec.Sample

/-! Properties of groups. -/

namespace Verif
open Spec Ent
variable {V : Type} [LinearOrder V]

/-! ### C62 – grouping and ungrouping -/

/-- C62, the part that holds: any list of programs, appvars, real numbers, equations, strings, pictures,
images, graph databases, settings and groups of such, with names that fit, can be grouped if the first
has flash bytes and the result is not too long; the group has the name asked for and its length field is
right, and ungrouping gives back the types, names, versions, archived flags and data, in order, with the
warnings known beforehand. Missing: lists, complex numbers, matrices, long names and groups starting with
an entry without flash bytes, see the `_false` theorems below. -/
theorem C62_group_partial (env : Env V) (nm : Bytes) (es : List Ent) (hes : ∀ x ∈ es, Groupable x)
    (hflash : ∀ x ∈ es.head?, x.flashBytes ≠ []) (hn : (es.flatMap groupBytes).length < 65536) :
    ∃ g ws, group env nm es () = ⟨.ok g, (), ws⟩ ∧ g.cls = .group ∧ g.typeId = [0x17] ∧ g.name = nm ∧
      g.archived = [0x80] ∧ InStep g ∧ g.body.bytes.drop 2 = es.flatMap groupBytes ∧
      ∃ out, ungroup env g [] () = ⟨.ok out, (), es.flatMap ungroupWarnings⟩ ∧ List.Forall₂ SameContent es out := by
  have key : ∃ g ws, group env nm es () = ⟨.ok g, (), ws⟩ ∧ Making g (es.flatMap groupBytes) ∧ g.name = nm ∧
      g.typeId = [0x17] := by
    have h0 : Making ⟨.group, [0x0D, 0x00], [0x17], nm, [0x00], [0x80], ⟨true, [0x00, 0x00]⟩⟩
        (([] : List Ent).flatMap groupBytes) := ⟨rfl, rfl, ⟨_, rfl⟩, rfl, rfl⟩
    rcases es with _ | ⟨x, xs⟩
    · refine ⟨_, [.groupSmall], ?_, h0, rfl, rfl⟩
      unfold group
      simp only [PyM.bind_run, PyM.warn_run, new_group env nm true rfl]
      rfl
    · have hf := hflash x (by simp)
      have hfl : (!x.flashBytes.isEmpty) = true := by
        rcases hb : x.flashBytes with _ | ⟨b, bs⟩
        · exact absurd hb hf
        · rfl
      obtain ⟨g, ws, hr, hm, hnm, ht⟩ := addEntries_ok env [] (x :: xs) (by simp) hes h0 (by simpa using hn)
      refine ⟨g, (if xs = [] then [.groupSmall] else []) ++ ws, ?_, hm, hnm, ht⟩
      unfold group
      simp only [PyM.bind_run, PyM.ite_run, new_group env nm _ hfl, hr, PyM.warnAll_run, PyM.ofExcept_run,
        PyM.pure_run, PyM.warn_run]
      by_cases h : xs = [] <;> simp [h]
  obtain ⟨g, ws, hr, hm, hnm, ht⟩ := key
  have hpk : ∀ y ∈ es, ∃ t v a, Packable y t v a := fun y hy => groupable_packable (hes y hy)
  refine ⟨g, ws, hr, hm.cls, ht, hnm, hm.archived, ?_, ?_, es.map (fun x => unpack x x.body.bytes),
    ungroup_ok env es hpk hm.flash [] (by rw [if_pos rfl, hm.data]), ?_⟩
  · rw [InStep, hm.body]
    simp only
    rw [List.take_left' (length_toLE 2 _), List.drop_left' (length_toLE 2 _), fromLE_toLE_of_lt (by simpa using hn)]
    exact ⟨by rw [List.length_append, length_toLE]; omega, rfl⟩
  · rw [hm.body]
    exact List.drop_left' (length_toLE 2 _)
  · clear hr hm hn hflash
    induction es with
    | nil => exact List.Forall₂.nil
    | cons x xs ih =>
      refine List.Forall₂.cons ⟨rfl, rfl, rfl, ?_, rfl⟩ (ih (fun y hy => hes y (List.mem_cons_of_mem _ hy))
        (fun y hy => hpk y (List.mem_cons_of_mem _ hy)))
      simp only [unpack]
      by_cases h : x.archived = [0x00]
      · simp [h]
      · simp [h]

/-- A group that starts with an entry without flash bytes cannot be made. -/
theorem C62_flashless_false (env : Env V) (nm : Bytes) (x : Ent) (xs : List Ent) (h : x.flashBytes = []) :
    (group env nm (x :: xs) ()).res = .error .attributeError := by
  have hnew : (new env .group { name := nm, forFlash := !x.flashBytes.isEmpty, archived := some true } []) () =
      ⟨.error .attributeError, (), []⟩ := new_flashless env _ _ (by simp [h]) _ _
  unfold group
  by_cases hx : xs = [] <;> simp [PyM.bind_run, hx, hnew]

/-- A group cannot be made of a list, since its element type is looked for before the data is read. -/
theorem C62_list_false :
    (group sampleEnv sampleEnv.unnamed [⟨.realList, [0x0D, 0x00], [0x01], [0x5D, 0x00, 0, 0, 0, 0, 0, 0], [0x00], [0x00],
      ⟨true, [0x01, 0x00, 0x00, 0x80, 0x10, 0, 0, 0, 0, 0, 0]⟩⟩] ()).res = .error .indexError := by
  decide +kernel

/-- Nor of a complex number. -/
theorem C62_complex_false :
    (group sampleEnv sampleEnv.unnamed [⟨.complex, [0x0D, 0x00], [0x0C], [0x41, 0, 0, 0, 0, 0, 0, 0], [0x00], [0x00],
      ⟨true, [0x0C, 0x80, 0x10, 0, 0, 0, 0, 0, 0, 0x0C, 0x80, 0x10, 0, 0, 0, 0, 0, 0]⟩⟩] ()).res = .error .valueError := by
  decide +kernel

/-- What grouping entries and then ungrouping them gives: types, names and data. -/
def regroup (es : List Ent) : Option (List (Bytes × Bytes × Bytes)) :=
  match (group sampleEnv sampleEnv.unnamed es ()).res with
  | .error _ => none
  | .ok g =>
    match (ungroup sampleEnv g [] ()).res with
    | .error _ => none
    | .ok out => some (out.map fun e => (e.typeId, e.name, e.body.bytes))

/-- A matrix with one element comes out of a group as a matrix with one byte of an element and a
real number without data: one byte per element is read instead of nine. -/
theorem C62_matrix_false :
    regroup [⟨.matrix, [0x0D, 0x00], [0x02], [0x5C, 0, 0, 0, 0, 0, 0, 0], [0x00], [0x00],
      ⟨true, [0x01, 0x01, 0x00, 0x80, 0x10, 0, 0, 0, 0, 0, 0]⟩⟩] =
    some [([0x02], [0x5C, 0, 0, 0, 0, 0, 0, 0], [0x01, 0x01, 0x00]), ([0x00], [0, 0, 0, 0, 0, 0, 0, 0], [])] := by
  decide +kernel

/-- A window settings entry, called `Window`, comes out of a group as one called `Win` with other
data. -/
theorem C62_name_false :
    regroup [⟨.window, [0x0D, 0x00], [0x0F], [0x57, 0x69, 0x6E, 0x64, 0x6F, 0x77, 0, 0], [0x00], [0x00],
      ⟨true, [0x02, 0x00, 0x11, 0x22]⟩⟩] =
    some [([0x0F], [0x57, 0x69, 0x6E, 0, 0, 0, 0, 0], [0x64, 0x6F, 0x77, 0x02, 0x00, 0x11, 0x22])] := by
  decide +kernel

/-- A graphed equation cannot be put into a group after other entries either: the flags are looked
for in the wrong place. -/
theorem C62_graphed_false (env : Env V) (x : Ent) (hx : x.cls = .graphedEquation) (g : Ent) :
    (addEntry env x g).res ≠ .ok () := by
  unfold addEntry
  rcases x.getTypeId with _ | t <;> rcases x.getVersionByte with _ | v <;>
    by_cases h : x.getArchived <;> simp [PyM.bind_run, hx, h]

example : regroup [sampleProgram,
      ⟨.real, [0x0D, 0x00], [0x00], [0x42, 0, 0, 0, 0, 0, 0, 0], [0x00], [0x00], ⟨true, [0x00, 0x80, 0x31, 0x41, 0x50, 0, 0, 0, 0]⟩⟩,
      ⟨.string, [0x0B, 0x00], [0x04], [0xAA, 0x00, 0, 0, 0, 0, 0, 0], [0x00], [0x00], ⟨true, [0x01, 0x00, 0x41]⟩⟩] =
    some [([0x05], [0x41, 0, 0, 0, 0, 0, 0, 0], [0x03, 0x00, 0x41, 0x3F, 0x42]),
      ([0x00], [0x42, 0, 0, 0, 0, 0, 0, 0], [0x00, 0x80, 0x31, 0x41, 0x50, 0, 0, 0, 0]),
      ([0x04], [0xAA, 0, 0, 0, 0, 0, 0, 0], [0x01, 0x00, 0x41])] := by
  decide +kernel

example : Groupable sampleProgram :=
  .long _ 0x05 0x01 0x80 (by decide) (by decide) rfl rfl rfl rfl (by decide) ⟨[0x41, 0x3F, 0x42], by decide, by decide⟩

end Verif
