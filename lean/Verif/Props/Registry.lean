import Verif.Model.Registry
import Mathlib.Data.List.Perm.Basic

/-! C147: the registries of classes. -/

namespace Verif
open Ent

section
variable {C : Type}

/-- The ID under which a class statement registers its class: the one given, or the one of the class. -/
def statedId (typeIdOf : C → Option Nat) (s : C × Option Nat) : Option Nat :=
  match s.2 with
  | some t => some t
  | none => typeIdOf s.1

theorem registry_get_set (reg : Registry C) (k k' : Option Nat) (c : C) :
    (reg.set k c).get k' = if k' = k then some c else reg.get k' := by
  induction reg with
  | nil => simp only [Registry.set, Registry.get, eq_comm]
  | cons p reg ih =>
    obtain ⟨a, d⟩ := p
    unfold Registry.set
    by_cases h : a = k
    · subst h
      rw [if_pos rfl]
      by_cases h' : a = k'
      · simp [Registry.get, h']
      · rw [if_neg fun g : k' = a => h' g.symm]
        simp [Registry.get, h']
    · rw [if_neg h]
      by_cases h' : a = k'
      · subst h'
        simp [Registry.get, h]
      · simp [Registry.get, h', ih]

/-- **C147, registering**: afterwards the class is found under its ID, and every other ID gives what it gave before. -/
theorem C147_register (typeIdOf : C → Option Nat) (reg : Registry C) (c : C) (o : Option Nat) (t : Nat) :
    (reg.register typeIdOf c o).getType t = if some t = statedId typeIdOf (c, o) then some c else reg.getType t := by
  unfold Registry.register Registry.getType statedId
  rw [registry_get_set]
  cases o <;> simp

/-- **C147, replacing**: a class registered under an ID in use takes the place of the class that had it, and all others keep theirs;
otherwise it comes last. -/
theorem C147_place (typeIdOf : C → Option Nat) (reg : Registry C) (c : C) (o : Option Nat) :
    (∀ a d b, reg = a ++ (statedId typeIdOf (c, o), d) :: b → (∀ p ∈ a, p.1 ≠ statedId typeIdOf (c, o)) →
      reg.register typeIdOf c o = a ++ (statedId typeIdOf (c, o), c) :: b) ∧
    ((∀ p ∈ reg, p.1 ≠ statedId typeIdOf (c, o)) → reg.register typeIdOf c o = reg ++ [(statedId typeIdOf (c, o), c)]) := by
  have hk : (if o = none then typeIdOf c else o) = statedId typeIdOf (c, o) := by cases o <;> rfl
  unfold Registry.register
  rw [hk]
  generalize statedId typeIdOf (c, o) = k
  constructor
  · rintro a d b rfl ha
    induction a with
    | nil => simp [Registry.set]
    | cons p a ih =>
      rw [List.cons_append]
      unfold Registry.set
      rw [if_neg (ha p (by simp)), ih fun q hq => ha q (List.mem_cons_of_mem _ hq)]
      rfl
  · intro h
    induction reg with
    | nil => rfl
    | cons p reg ih =>
      unfold Registry.set
      rw [if_neg (h p (by simp)), ih fun q hq => h q (List.mem_cons_of_mem _ hq)]
      rfl

/-- **C147, the last one wins**: after any class statements, an ID belongs to the last one that registered a class under it, or, if there
is none, to the class it belonged to before. -/
theorem C147_last (typeIdOf : C → Option Nat) (reg : Registry C) (l : List (C × Option Nat)) (t : Nat) :
    (∀ a b s, l = a ++ s :: b → statedId typeIdOf s = some t → (∀ x ∈ b, statedId typeIdOf x ≠ some t) →
      (reg.fill typeIdOf l).getType t = some s.1) ∧
    ((∀ x ∈ l, statedId typeIdOf x ≠ some t) → (reg.fill typeIdOf l).getType t = reg.getType t) := by
  have hnone : ∀ (l : List (C × Option Nat)) (reg : Registry C), (∀ x ∈ l, statedId typeIdOf x ≠ some t) →
      (reg.fill typeIdOf l).getType t = reg.getType t := by
    intro l
    induction l with
    | nil => intro reg _; rfl
    | cons s l ih =>
      intro reg h
      obtain ⟨c, o⟩ := s
      rw [Registry.fill, ih _ fun x hx => h x (List.mem_cons_of_mem _ hx), C147_register,
        if_neg fun g => h (c, o) (by simp) g.symm]
  refine ⟨?_, hnone l reg⟩
  rintro a b s rfl hs hb
  induction a generalizing reg with
  | nil =>
    obtain ⟨c, o⟩ := s
    rw [List.nil_append, Registry.fill, hnone b _ hb, C147_register, if_pos hs.symm]
  | cons x a ih =>
    obtain ⟨c, o⟩ := x
    rw [List.cons_append, Registry.fill]
    exact ih _

end

theorem statements_ids : (statements.map (statedId Cls.typeId)).Nodup := by decide

/-- With distinct IDs the order is of no consequence. -/
theorem fill_distinct {C : Type} (typeIdOf : C → Option Nat) (l : List (C × Option Nat)) (h : (l.map (statedId typeIdOf)).Nodup)
    (t : Nat) (c : C) :
    (Registry.fill typeIdOf [] l).getType t = some c ↔ ∃ s ∈ l, s.1 = c ∧ statedId typeIdOf s = some t := by
  constructor
  · intro hg
    by_cases hex : ∃ s ∈ l, statedId typeIdOf s = some t
    · obtain ⟨s, hs, hst⟩ := hex
      obtain ⟨a, b, rfl⟩ := List.append_of_mem hs
      have hb : ∀ x ∈ b, statedId typeIdOf x ≠ some t := by
        intro x hx hxt
        rw [List.map_append, List.map_cons, List.nodup_append] at h
        have := (List.nodup_cons.1 h.2.1).1
        rw [hst] at this
        exact this (List.mem_map.2 ⟨x, hx, hxt⟩)
      have := (C147_last typeIdOf [] (a ++ s :: b) t).1 a b s rfl hst hb
      rw [hg] at this
      injection this with this
      exact ⟨s, hs, this.symm, hst⟩
    · have := (C147_last typeIdOf [] l t).2 fun x hx hxt => hex ⟨x, hx, hxt⟩
      rw [hg] at this
      cases this
  · rintro ⟨s, hs, rfl, hst⟩
    obtain ⟨a, b, rfl⟩ := List.append_of_mem hs
    have hb : ∀ x ∈ b, statedId typeIdOf x ≠ some t := by
      intro x hx hxt
      rw [List.map_append, List.map_cons, List.nodup_append] at h
      have := (List.nodup_cons.1 h.2.1).1
      rw [hst] at this
      exact this (List.mem_map.2 ⟨x, hx, hxt⟩)
    exact (C147_last typeIdOf [] (a ++ s :: b) t).1 a b s rfl hst hb

/-- The IDs and classes of the library, by ID. -/
def shippedIds : List (Nat × Cls) :=
  [(0x00, .real), (0x01, .realList), (0x02, .matrix), (0x03, .equation), (0x04, .string), (0x05, .program), (0x06, .protProgram),
   (0x07, .picture), (0x08, .monoGDB), (0x0B, .newEquation), (0x0C, .complex), (0x0D, .complexList), (0x0E, .undefReal), (0x0F, .window),
   (0x10, .recallWindow), (0x11, .tableSettings), (0x15, .appVar), (0x17, .group), (0x18, .realFraction), (0x1A, .image),
   (0x1B, .complexFraction), (0x1C, .realRadical), (0x1D, .complexRadical), (0x1E, .complexPi), (0x1F, .complexPiFraction), (0x20, .realPi),
   (0x21, .realPiFraction), (0x23, .graphedEquation)]

theorem getType_iff (t : Nat) (c : Cls) : Cls.getType t = some c ↔ (t, c) ∈ shippedIds := by
  constructor
  · intro h
    unfold Cls.getType at h
    split at h <;> first | (injection h with h; subst h; decide) | cases h
  · intro h
    simp only [shippedIds, List.mem_cons, List.not_mem_nil, or_false, Prod.mk.injEq] at h
    rcases h with h | h | h | h | h | h | h | h | h | h | h | h | h | h | h | h | h | h | h | h | h | h | h | h | h | h | h | h <;>
      (obtain ⟨rfl, rfl⟩ := h; rfl)

/-- **C147, the order of the imports does not matter**: in whatever order the modules are imported, each ID has the class that calculators
use it for, and no other ID has one. This is what the rest of the model uses as `get_type`. -/
theorem C147_order (l : List (Cls × Option Nat)) (hl : l.Perm statements) (t : Nat) (c : Cls) :
    ((Registry.fill Cls.typeId [] l).getType t = some c ↔ (t, c) ∈ shippedIds) ∧
    (Registry.fill Cls.typeId [] l).getType t = Cls.getType t := by
  have key : ∀ c, (Registry.fill Cls.typeId [] l).getType t = some c ↔ (t, c) ∈ shippedIds := by
    intro c
    rw [fill_distinct Cls.typeId l ((hl.map _).nodup_iff.2 statements_ids)]
    have hmem : (∃ s ∈ l, s.1 = c ∧ statedId Cls.typeId s = some t) ↔ ∃ s ∈ statements, s.1 = c ∧ statedId Cls.typeId s = some t :=
      ⟨fun ⟨s, h, g⟩ => ⟨s, hl.mem_iff.1 h, g⟩, fun ⟨s, h, g⟩ => ⟨s, hl.mem_iff.2 h, g⟩⟩
    rw [hmem]
    constructor
    · rintro ⟨s, hs, rfl, hst⟩
      have : ∀ s ∈ statements, ∀ t ∈ statedId Cls.typeId s, (t, s.1) ∈ shippedIds := by decide +kernel
      exact this s hs t hst
    · intro h
      have : ∀ p ∈ shippedIds, ∃ s ∈ statements, s.1 = p.2 ∧ statedId Cls.typeId s = some p.1 := by decide +kernel
      exact this _ h
  refine ⟨key c, ?_⟩
  rcases hg : (Registry.fill Cls.typeId [] l).getType t with _ | d
  · rcases hc : Cls.getType t with _ | d
    · rfl
    · rw [getType_iff, ← key, hg] at hc
      cases hc
  · exact ((getType_iff t d).2 ((key d).1 hg)).symm

/-- **C147, the order of the classes**: `import tivars` leaves the classes in the order used for loading texts (C146), and those of real
numbers among them in the order used for the parts of complex numbers (C91). -/
theorem C147_values :
    (Registry.fill Cls.typeId [] statements).values = registered ∧
    realItems (Registry.fill Cls.typeId [] statements) = realTypes := by
  decide +kernel

/-- **C147, lists**: in whatever order the modules are imported, going through the registry to find the class of a list gives what looking up
the number of the first element gives. -/
theorem C147_list (l : List (Cls × Option Nat)) (hl : l.Perm statements) :
    listCoerce (Registry.fill Cls.typeId [] l) = coerceList := by
  have hloop : ∀ (reg : Registry Cls) (t : Nat), listLoop t reg =
      match reg.getType t with
      | some c => if c.isSub .realE then setClass .realList else if c.isSub .complexE then setClass .complexList else PyM.warn .listInvalid
      | none => PyM.warn .listInvalid := by
    intro reg t
    induction reg with
    | nil => rfl
    | cons p reg ih =>
      obtain ⟨k, c⟩ := p
      unfold listLoop Registry.getType Registry.get
      by_cases h : k = some t
      · simp [h]
      · simp only [if_neg h]
        exact ih
  unfold listCoerce coerceList
  congr 1; funext e
  congr 1; funext b
  rw [hloop, (C147_order l hl (b.toNat &&& 31) .real).2]
  rfl

/-- **C147, own IDs**: every registered class is found under its own ID, except graphed equations, which share that of equations. -/
theorem C147_own (c : Cls) (hc : c ∈ registered) :
    ∃ t, c.typeId = some t ∧ Cls.getType t = some (if c = .graphedEquation then .equation else c) := by
  have : ∀ c ∈ registered, ∃ t ∈ c.typeId, Cls.getType t = some (if c = .graphedEquation then .equation else c) := by decide +kernel
  obtain ⟨t, ht, h⟩ := this c hc
  exact ⟨t, ht, h⟩

/-- The IDs of flash headers. -/
def shippedFlashIds : List (Nat × FlashCls) := [(0x23, .os), (0x24, .app), (0x25, .certificate), (0x3E, .license)]

/-- **C147, flash headers**: likewise for the registry of flash headers, which is a separate one: 0x23 is an operating system there and a
graphed equation among entries. -/
theorem C147_flash (l : List (FlashCls × Option Nat)) (hl : l.Perm flashStatements) (t : Nat) (c : FlashCls) :
    ((Registry.fill FlashCls.typeId [] l).getType t = some c ↔ (t, c) ∈ shippedFlashIds) ∧
    (Registry.fill FlashCls.typeId [] l).getType t = FlashCls.ofTypeId t := by
  have hn : (flashStatements.map (statedId FlashCls.typeId)).Nodup := by decide
  have key : ∀ c, (Registry.fill FlashCls.typeId [] l).getType t = some c ↔ (t, c) ∈ shippedFlashIds := by
    intro c
    rw [fill_distinct FlashCls.typeId l ((hl.map _).nodup_iff.2 hn)]
    constructor
    · rintro ⟨s, hs, rfl, hst⟩
      have : ∀ s ∈ flashStatements, ∀ t ∈ statedId FlashCls.typeId s, (t, s.1) ∈ shippedFlashIds := by decide +kernel
      exact this s (hl.mem_iff.1 hs) t hst
    · intro h
      have : ∀ p ∈ shippedFlashIds, ∃ s ∈ flashStatements, s.1 = p.2 ∧ statedId FlashCls.typeId s = some p.1 := by decide +kernel
      obtain ⟨s, hs, g⟩ := this _ h
      exact ⟨s, hl.mem_iff.2 hs, g⟩
  have hof : ∀ c, FlashCls.ofTypeId t = some c ↔ (t, c) ∈ shippedFlashIds := by
    intro c
    unfold FlashCls.ofTypeId shippedFlashIds
    constructor
    · intro h
      split at h
      · rename_i ht; subst ht; injection h with h; subst h; simp
      split at h
      · rename_i ht; subst ht; injection h with h; subst h; simp
      split at h
      · rename_i ht; subst ht; injection h with h; subst h; simp
      split at h
      · rename_i ht; subst ht; injection h with h; subst h; simp
      · cases h
    · intro h
      simp only [List.mem_cons, List.not_mem_nil, or_false, Prod.mk.injEq] at h
      rcases h with h | h | h | h <;> (obtain ⟨rfl, rfl⟩ := h; rfl)
  refine ⟨key c, ?_⟩
  rcases hg : (Registry.fill FlashCls.typeId [] l).getType t with _ | d
  · rcases hc : FlashCls.ofTypeId t with _ | d
    · rfl
    · rw [hof, ← key, hg] at hc
      cases hc
  · exact ((hof d).2 ((key d).1 hg)).symm

/-- The statements of the library in reverse order: another order of the same. -/
example : (statements.reverse).Perm statements := List.reverse_perm _

/-- Then 0x23 still is a graphed equation, and 0x09 nothing. -/
example : (Registry.fill Cls.typeId [] statements.reverse).getType 0x23 = some .graphedEquation ∧
    (Registry.fill Cls.typeId [] statements.reverse).getType 0x09 = none := by decide

/-- Without its `override` a graphed equation would replace equations. -/
example : ((Registry.fill Cls.typeId [] statements).register Cls.typeId .graphedEquation none).getType 0x03 = some .graphedEquation := by
  decide

/-- Monochrome pictures are not registered; registering them replaces colour pictures, in the same place. -/
example : ((Registry.fill Cls.typeId [] [(.matrix, none), (.picture, none), (.image, none)]).register Cls.typeId .monoPicture none)
    = [(some 2, .matrix), (some 7, .monoPicture), (some 0x1A, .image)] := by decide

/-- The list `{1/2}` has elements of type 0x18. -/
example : listLoop 0x18 (Registry.fill Cls.typeId [] statements) = setClass .realList := rfl

example : Registry.fill FlashCls.typeId [] flashStatements
    = [(some 0x23, .os), (some 0x24, .app), (some 0x25, .certificate), (some 0x3E, .license)] := by decide

end Verif
