import Verif.Spec.Schema

/-! Values of JSON and schemas: equality and conformity by calculation. -/

namespace Verif
open Spec Json

/-! ### Equality -/

mutual
/-- The values are the same. -/
def Json.same : Json → Json → Bool
  | .null, .null => true
  | .bool a, .bool b => a == b
  | .int a, .int b => a == b
  | .float a, .float b => decide (a = b)
  | .str a, .str b => a == b
  | .arr xs, .arr ys => Json.sameItems xs ys
  | .obj xs, .obj ys => Json.sameMembers xs ys
  | _, _ => false
def Json.sameItems : List Json → List Json → Bool
  | [], [] => true
  | x :: xs, y :: ys => Json.same x y && Json.sameItems xs ys
  | _, _ => false
def Json.sameMembers : List (Str × Json) → List (Str × Json) → Bool
  | [], [] => true
  | (k, x) :: xs, (l, y) :: ys => k == l && (Json.same x y && Json.sameMembers xs ys)
  | _, _ => false
end

mutual
theorem Json.same_eq : ∀ (x y : Json), Json.same x y = true → x = y
  | .null, y, h => by cases y <;> simp_all [Json.same]
  | .bool _, y, h => by cases y <;> simp_all [Json.same]
  | .int _, y, h => by cases y <;> simp_all [Json.same]
  | .float _, y, h => by cases y <;> simp_all [Json.same]
  | .str _, y, h => by cases y <;> simp_all [Json.same]
  | .arr xs, y, h => by
    cases y with
    | arr ys => rw [Json.sameItems_eq xs ys (by simpa [Json.same] using h)]
    | _ => simp [Json.same] at h
  | .obj xs, y, h => by
    cases y with
    | obj ys => rw [Json.sameMembers_eq xs ys (by simpa [Json.same] using h)]
    | _ => simp [Json.same] at h
theorem Json.sameItems_eq : ∀ (xs ys : List Json), Json.sameItems xs ys = true → xs = ys
  | [], ys, h => by cases ys <;> simp_all [Json.sameItems]
  | x :: xs, ys, h => by
    cases ys with
    | nil => simp [Json.sameItems] at h
    | cons y ys =>
      simp only [Json.sameItems, Bool.and_eq_true] at h
      rw [Json.same_eq x y h.1, Json.sameItems_eq xs ys h.2]
theorem Json.sameMembers_eq : ∀ (xs ys : List (Str × Json)), Json.sameMembers xs ys = true → xs = ys
  | [], ys, h => by cases ys <;> simp_all [Json.sameMembers]
  | (k, x) :: xs, ys, h => by
    cases ys with
    | nil => simp [Json.sameMembers] at h
    | cons y ys =>
      simp only [Json.sameMembers, Bool.and_eq_true, beq_iff_eq] at h
      obtain ⟨h1, h2, h3⟩ := h
      rw [h1, Json.same_eq x y.2 h2, Json.sameMembers_eq xs ys h3]
end

/-- The text is read as a value. -/
theorem loads_same {s : Str} {j : Json} (h : (match loads s with | .ok x => Json.same x j | .error _ => false) = true) :
    loads s = .ok j := by
  split at h
  · rename_i x hx
    rw [hx, Json.same_eq x j h]
  · cases h

/-! ### Conformity -/

/-- What a schema asks of a member. -/
def MemberOk (root : Json) (s : Sch) (k : Str) (x : Json) : Prop :=
  match s.props.lookup k with
  | some p => Conforms root p x
  | none => ∀ a, s.extra = some a → Conforms root a x

theorem conforms_obj {root : Json} {s : List (Str × Json)} {v : Json} : Conforms root (.obj s) v ↔
    (∀ t, (readSch s).types = some t → typeOk v t = true) ∧ (∀ vs, (readSch s).enum = some vs → v ∈ elements vs) ∧
    (∀ kv ∈ members v, MemberOk root (readSch s) kv.1 kv.2) ∧ (∀ a, (readSch s).items = some a → ∀ x ∈ elements v, Conforms root a x) ∧
    (∀ r, (readSch s).ref = some r → ∃ d, refTarget root r = some d ∧ Conforms root d v) := by
  constructor
  · intro h
    cases h with
    | mk _ _ types enum props extra items target ref =>
      refine ⟨types, enum, ?_, fun a ha x hx => items x a hx ha, ?_⟩
      · rintro ⟨k, x⟩ hk
        unfold MemberOk
        split
        · exact props k x _ hk ‹_›
        · exact fun a ha => extra k x a hk ‹_› ha
      · intro r hr
        cases hd : refTarget root r with
        | none => exact absurd hd (target r hr)
        | some d => exact ⟨d, rfl, ref r d hr hd⟩
  · rintro ⟨h1, h2, h3, h4, h5⟩
    refine .mk s v h1 h2 ?_ ?_ (fun x a hx ha => h4 a ha x hx) ?_ ?_
    · intro k x p hk hp
      have := h3 _ hk
      simp only [MemberOk, hp] at this
      exact this
    · intro k x a hk hp ha
      have := h3 _ hk
      simp only [MemberOk, hp] at this
      exact this a ha
    · intro r hr h
      obtain ⟨d, hd, -⟩ := h5 r hr
      rw [hd] at h
      cases h
    · intro r d hr hd
      obtain ⟨d', hd', h⟩ := h5 r hr
      obtain rfl := Option.some.inj (hd.symm.trans hd')
      exact h

/-- Nothing conforms to `false`. -/
theorem conforms_false {root v : Json} : ¬Conforms root (.bool false) v := fun h => nomatch h

/-- Conformity by calculation, down to a depth. -/
def checkSchema (root : Json) : Nat → Json → Json → Bool
  | 0, _, _ => false
  | n + 1, .obj s, v =>
    let k := readSch s
    (match k.types with
      | some t => typeOk v t
      | none => true) &&
    (match k.enum with
      | some vs => (elements vs).any (Json.same v)
      | none => true) &&
    ((members v).all fun kv =>
      match k.props.lookup kv.1 with
      | some p => checkSchema root n p kv.2
      | none => match k.extra with
        | some a => checkSchema root n a kv.2
        | none => true) &&
    (match k.items with
      | some a => (elements v).all (checkSchema root n a)
      | none => true) &&
    (match k.ref with
      | some r => match refTarget root r with
        | some d => checkSchema root n d v
        | none => false
      | none => true)
  | _ + 1, .bool b, _ => b
  | _ + 1, _, _ => false

theorem check_sound (root : Json) : ∀ (n : Nat) (s v : Json), checkSchema root n s v = true → Conforms root s v
  | 0, _, _, h => by simp [checkSchema] at h
  | n + 1, .obj s, v, h => by
    simp only [checkSchema, Bool.and_eq_true] at h
    obtain ⟨⟨⟨⟨h1, h2⟩, h3⟩, h4⟩, h5⟩ := h
    refine conforms_obj.2 ⟨?_, ?_, ?_, ?_, ?_⟩
    · intro t ht
      simpa only [ht] using h1
    · intro vs hvs
      rw [hvs] at h2
      obtain ⟨x, hx, he⟩ := List.any_eq_true.1 h2
      rw [Json.same_eq _ _ he]
      exact hx
    · intro kv hkv
      have := List.all_eq_true.1 h3 kv hkv
      unfold MemberOk
      split at this
      · exact check_sound root n _ _ this
      · intro a ha
        rw [ha] at this
        exact check_sound root n _ _ this
    · intro a ha x hx
      rw [ha] at h4
      exact check_sound root n _ _ (List.all_eq_true.1 h4 x hx)
    · intro r hr
      rw [hr] at h5
      cases hd : refTarget root r with
      | none => simp [hd] at h5
      | some d =>
        simp only [hd] at h5
        exact ⟨d, rfl, check_sound root n _ _ h5⟩
  | n + 1, .bool b, v, h => by
    simp only [checkSchema] at h
    subst h
    exact .any v
  | n + 1, .null, v, h => by simp [checkSchema] at h
  | n + 1, .int _, v, h => by simp [checkSchema] at h
  | n + 1, .float _, v, h => by simp [checkSchema] at h
  | n + 1, .str _, v, h => by simp [checkSchema] at h
  | n + 1, .arr _, v, h => by simp [checkSchema] at h

end Verif
