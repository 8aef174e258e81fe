import Verif.Model.Negate
import Verif.Props.Construct
import Verif.Props.Real
import Verif.Proofs.RadicalValue
import Verif.Proofs.ComplexPart
import Verif.Spec.Sample

/-
C115: negating a number.
-/

namespace Verif
open Spec Ent
variable {V : Type} [LinearOrder V]

/-- Negating any real number makes a copy in which the sign bit is the other one. -/
theorem negate_run (env : Env V) (e : Ent) (hw : WF e) (hno : e.metaLen = [0x0D, 0x00] → ¬FlashIsLength e)
    (hc : e.cls ∈ realClasses) (ht : e.cls.typeId = some (fromLE e.typeId)) {b0 : UInt8} {rest : Bytes}
    (hb : e.body.bytes = b0 :: rest) (hr : rest.length = 8) :
    ∃ (b0' : UInt8) (ws : List Warn), negate env e () = ⟨.ok { e with body := ⟨true, b0' :: rest⟩ }, (), ws⟩ ∧
      (∀ w ∈ ws, w ∉ corruption) ∧
      (∀ i, i < 7 → b0'.toNat.testBit i = b0.toNat.testBit i) ∧ b0'.toNat.testBit 7 = !b0.toNat.testBit 7 ∧
      realNeg ⟨true, b0' :: rest⟩ = ⟨.ok (), ⟨true, b0 :: rest⟩, []⟩ ∧
      ∀ c e, realDecimal ⟨true, b0 :: rest⟩ = .ok (c, e) → realDecimal ⟨true, b0' :: rest⟩ = .ok (-c, e) := by
  have hpl : Plain e.cls = true := by
    have : ∀ c ∈ realClasses, Plain c = true := by decide
    exact this _ hc
  obtain ⟨ws, hcopy, hws, -⟩ := C77_copy_partial env e hw hno ⟨ht, .inl hpl⟩
  obtain ⟨b0', hneg, h1, h2, h3, h4⟩ := C20_negation b0 rest hr
  refine ⟨b0', ws, ?_, hws, h1, h2, h3, h4⟩
  unfold negate
  rw [PyM.bind_ok hcopy]
  simp only [hb, hneg]
  simp

/-- The sign does not take part in rounding. -/
theorem decFix_neg (prec : Nat) (a b : Bool) (c : Nat) (e : Int) :
    (decFix prec ⟨a, c, e⟩).mag = (decFix prec ⟨b, c, e⟩).mag ∧ (decFix prec ⟨a, c, e⟩).neg = a := by
  unfold decFix PyDec.mag
  simp only
  repeat' split
  all_goals exact ⟨rfl, rfl⟩

theorem pi_neg (c e : Int) : (decMul 14 ⟨decide (-c < 0), (-c).natAbs, e⟩ pyPi).value =
    -(decMul 14 ⟨decide (c < 0), c.natAbs, e⟩ pyPi).value := by
  by_cases h0 : c = 0
  · subst h0
    have h : (decMul 14 ⟨decide ((0 : Int) < 0), (0 : Int).natAbs, e⟩ pyPi).coeff = 0 := by
      simp only [decMul, decFix, Int.natAbs_zero, Nat.zero_mul, Nat.zero_div]
      repeat' split
      all_goals simp_all
    have : (decMul 14 ⟨decide ((0 : Int) < 0), (0 : Int).natAbs, e⟩ pyPi).value = 0 := by
      unfold PyDec.value; rw [h]; simp
    rw [show (-0 : Int) = 0 from rfl, this]; simp
  · rw [Int.natAbs_neg]
    unfold decMul
    simp only
    generalize c.natAbs * pyPi.coeff = k
    generalize e + pyPi.exp = x
    rw [value_eq, value_eq, (decFix_neg 14 (decide (c < 0) ^^ pyPi.neg) true k x).2,
      (decFix_neg 14 (decide (-c < 0) ^^ pyPi.neg) true k x).2,
      (decFix_neg 14 (decide (c < 0) ^^ pyPi.neg) true k x).1,
      (decFix_neg 14 (decide (-c < 0) ^^ pyPi.neg) true k x).1]
    generalize (decFix 14 ⟨true, k, x⟩).mag = q
    by_cases hc : c < 0
    · have : ¬ -c < 0 := by omega
      rw [decide_eq_true hc, decide_eq_false this]
      simp [pyPi]
    · have : -c < 0 := by omega
      rw [decide_eq_false hc, decide_eq_true this]
      simp [pyPi]

/-- The coefficient of an ordinary number. -/
theorem dec_neg (c e : Int) : (⟨decide (-c < 0), (-c).natAbs, e⟩ : PyDec).value =
    -(⟨decide (c < 0), c.natAbs, e⟩ : PyDec).value := by
  rw [Int.natAbs_neg, value_eq, value_eq]
  unfold PyDec.mag
  simp only
  rcases lt_trichotomy c 0 with h | h | h
  · have : ¬ -c < 0 := by omega
    simp [h]; intro; omega
  · subst h; simp
  · have h1 : -c < 0 := by omega
    have h2 : ¬ c < 0 := by omega
    simp [h2]; intro; omega

/-- The value of any number that is no radical. -/
theorem realPartDecimal_neg {c : Cls} (hrad : c ≠ .realRadical) {b b' : Buf}
    (h : ∀ k e, realDecimal b = .ok (k, e) → realDecimal b' = .ok (-k, e)) {d : PyDec}
    (hd : realPartDecimal c b = .ok d) : ∃ d', realPartDecimal c b' = .ok d' ∧ d'.value = -d.value := by
  unfold realPartDecimal at hd ⊢
  split at hd
  · exact absurd rfl hrad
  · unfold piDecimal at hd ⊢
    split at hd
    · cases hd
    · rename_i k e hk
      cases hd
      simp only [h k e hk]
      exact ⟨_, rfl, pi_neg k e⟩
  · unfold piDecimal at hd ⊢
    split at hd
    · cases hd
    · rename_i k e hk
      cases hd
      simp only [h k e hk]
      exact ⟨_, rfl, pi_neg k e⟩
  · split at hd
    · cases hd
    · rename_i k e hk
      cases hd
      simp only [h k e hk]
      exact ⟨_, rfl, dec_neg k e⟩

/-- The sign. -/
theorem realSign_head (m : Bool) (b0 : UInt8) {rest : Bytes} (hr : rest.length = 8) :
    realSign ⟨m, b0 :: rest⟩ = .ok (if b0.toNat.testBit 7 then -1 else 1) := by
  match rest, hr with
  | b1 :: rest, hr =>
    have h := b0.toNat_lt
    unfold realSign
    rw [sign_get _ _ _ _ (by simpa using hr)]
    have : b0.toNat.testBit 7 = decide (b0.toNat / 128 ≠ 0) := by
      rw [Nat.testBit_eq_decide_div_mod_eq]
      have : (b0.toNat / 2 ^ 7 % 2 = 1) = (b0.toNat / 128 ≠ 0) := propext ⟨by omega, by omega⟩
      simp only [this]
    rw [this]
    by_cases h0 : b0.toNat / 128 = 0
    · rw [h0]; simp
    · have h1 : ((b0.toNat / 128 : Nat) : Int) ≠ 0 := by exact_mod_cast h0
      simp only [if_pos h1, decide_eq_true h0]; rfl

/-- Entries with other data of the same length are not equal. -/
theorem eqEnt_other {e : Ent} {b : Buf} (hl : e.body.bytes.length ≤ 65535) (h : b.bytes.length = e.body.bytes.length)
    (hne : b.bytes ≠ e.body.bytes) : eqEnt { e with body := b } e = .ok false := by
  unfold eqEnt
  have h1 : calcLength { e with body := b } = calcLength e := h
  rw [if_pos rfl, bytes_ok (e := { e with body := b }) (by rw [h1]; exact hl), bytes_ok (e := e) hl]
  rw [h1]
  simp only
  rw [show flashBytes { e with body := b } = flashBytes e from rfl]
  have : ∀ p : Bytes, (p ++ b.bytes == p ++ e.body.bytes) = false := by
    intro p
    rw [beq_eq_false_iff_ne]
    exact fun hp => hne (List.append_cancel_left hp)
  rw [this]

/-- C115, the part that holds: negating a number that is no radical gives a number of the same kind, name and other
sections with the opposite value and sign; negating that gives a number equal to the first. Missing: radicals. -/
theorem C115_negate_partial (env : Env V) (e : Ent) (hw : WF e) (hno : e.metaLen = [0x0D, 0x00] → ¬FlashIsLength e)
    (hc : e.cls ∈ realClasses) (hrad : e.cls ≠ .realRadical) (ht : e.cls.typeId = some (fromLE e.typeId))
    (hl : e.body.bytes.length = 9) :
    ∃ e' ws, negate env e () = ⟨.ok e', (), ws⟩ ∧ (∀ w ∈ ws, w ∉ corruption) ∧
      e' = { e with body := e'.body } ∧ eqEnt e' e = .ok false ∧
      (∀ d, realPartDecimal e.cls e.body = .ok d → ∃ d', realPartDecimal e.cls e'.body = .ok d' ∧ d'.value = -d.value) ∧
      (∃ s, realPartSign e.cls e.body = .ok s ∧ realPartSign e.cls e'.body = .ok (-s)) ∧
      ∃ e'' ws', negate env e' () = ⟨.ok e'', (), ws'⟩ ∧ (∀ w ∈ ws', w ∉ corruption) ∧
        e''.body.bytes = e.body.bytes ∧ eqEnt e'' e = .ok true := by
  obtain ⟨b0, rest, hb⟩ : ∃ b0 rest, e.body.bytes = b0 :: rest := by
    match h : e.body.bytes, hl with
    | b0 :: rest, _ => exact ⟨b0, rest, rfl⟩
  have hr : rest.length = 8 := by rw [hb] at hl; simpa using hl
  obtain ⟨b0', ws, hneg, hws, h1, h2, h3, h4⟩ := negate_run env e hw hno hc ht hb hr
  have hbody : e.body = ⟨e.body.mutable, b0 :: rest⟩ := by rw [← hb]
  have hw' : WF { e with body := ⟨true, b0' :: rest⟩ } :=
    { hw with length := by simp [hr] }
  have hno' : e.metaLen = [0x0D, 0x00] → ¬FlashIsLength { e with body := ⟨true, b0' :: rest⟩ } := by
    intro hm hf
    exact hno hm (by unfold FlashIsLength at hf ⊢; rw [hf, hb]; rfl)
  obtain ⟨b0'', ws', hneg', hws', k1, k2, -, -⟩ :=
    negate_run env { e with body := ⟨true, b0' :: rest⟩ } hw' hno' hc ht (b0 := b0') (rest := rest) rfl hr
  have hback : b0'' = b0 := by
    apply UInt8.toNat_inj.mp
    apply Nat.eq_of_testBit_eq
    intro i
    rcases Nat.lt_trichotomy i 7 with h | h | h
    · rw [k1 i h, h1 i h]
    · subst h; rw [k2, h2, Bool.not_not]
    · have ha := b0''.toNat_lt
      have hb := b0.toNat_lt
      rw [Nat.testBit_lt_two_pow (lt_of_lt_of_le ha (Nat.pow_le_pow_right (by omega) (by omega))),
        Nat.testBit_lt_two_pow (lt_of_lt_of_le hb (Nat.pow_le_pow_right (by omega) (by omega)))]
  subst hback
  have hne : b0' ≠ b0'' := by
    intro h; rw [h] at h2; simp at h2
  refine ⟨_, ws, hneg, hws, rfl, ?_, ?_, ?_, _, ws', hneg', hws', hb.symm, ?_⟩
  · exact eqEnt_other (by omega) (by rw [hb]; rfl) (by rw [hb]; simp [hne])
  · intro d hd
    refine realPartDecimal_neg hrad (b := e.body) ?_ hd
    intro k x hk
    rw [hbody] at hk
    exact h4 k x hk
  · have hs : ∀ b, realPartSign e.cls b = realSign b := by
      intro b; unfold realPartSign; split
      · exact absurd ‹_› hrad
      · rfl
    refine ⟨_, by rw [hs, hbody, realSign_head _ _ hr], ?_⟩
    rw [hs]
    show realSign ⟨true, b0' :: rest⟩ = _
    rw [realSign_head _ _ hr, h2]
    cases b0''.toNat.testBit 7 <;> rfl
  · unfold eqEnt
    have : Ent.bytes { e with body := ⟨true, b0'' :: rest⟩ } = e.bytes := by
      rw [← hb]; rfl
    rw [if_pos rfl, this, bytes_ok (e := e) (by unfold calcLength; omega)]
    simp

/-- C115 is false for radicals: negating any of them gives a number of the same value, sign and text, which is
nevertheless not equal. -/
theorem C115_radical_false (env : Env V) (e : Ent) (hw : WF e) (hno : e.metaLen = [0x0D, 0x00] → ¬FlashIsLength e)
    (hc : e.cls = .realRadical) (ht : e.typeId = [0x1C]) (hl : e.body.bytes.length = 9) :
    ∃ e' ws, negate env e () = ⟨.ok e', (), ws⟩ ∧
      realPartDecimal e.cls e'.body = realPartDecimal e.cls e.body ∧
      realPartSign e.cls e'.body = realPartSign e.cls e.body ∧
      realPartStr e.cls e'.body = realPartStr e.cls e.body ∧ eqEnt e' e = .ok false := by
  obtain ⟨b0, rest, hb⟩ : ∃ b0 rest, e.body.bytes = b0 :: rest := by
    match h : e.body.bytes, hl with
    | b0 :: rest, _ => exact ⟨b0, rest, rfl⟩
  have hr : rest.length = 8 := by rw [hb] at hl; simpa using hl
  obtain ⟨b0', ws, hneg, hws, h1, h2, h3, h4⟩ := negate_run env e hw hno (by rw [hc]; decide)
    (by rw [hc, ht]; rfl) hb hr
  have hf : radFields ⟨true, b0' :: rest⟩ = radFields e.body := by
    rw [show e.body = ⟨e.body.mutable, b0 :: rest⟩ by rw [← hb]]
    exact radFields_head (m := true) (x := b0') (y := b0) hr
  have hne : b0' ≠ b0 := by
    intro h; rw [h] at h2; simp at h2
  refine ⟨_, ws, hneg, ?_, ?_, ?_, ?_⟩
  · rw [hc]; simp only [realPartDecimal, radDecimal, hf]
  · rw [hc]; simp only [realPartSign, radSign, radDecimal, hf]
  · rw [hc]; simp only [realPartStr, radStr, hf]
  · exact eqEnt_other (by omega) (by rw [hb]; rfl) (by rw [hb]; simp [hne])

/-- The variable A of value 3.5. -/
def sampleThreeHalf : Ent := ⟨.real, [0x0D, 0x00], [0x00], [0x41, 0, 0, 0, 0, 0, 0, 0], [0x00], [0x00],
  ⟨false, [0x00, 0x80, 0x35, 0, 0, 0, 0, 0, 0]⟩⟩

/-- The variable A of value √2 + √3. -/
def sampleRoots : Ent := ⟨.realRadical, [0x0D, 0x00], [0x1C], [0x41, 0, 0, 0, 0, 0, 0, 0], [0x00], [0x00],
  ⟨false, [0x1C, 0x00, 0x01, 0x00, 0x10, 0x01, 0x00, 0x30, 0x02]⟩⟩

/-- The negation of 3.5 is −3.5. -/
example : (negate sampleEnv sampleThreeHalf ()).res.toOption.map (fun e => (e.name, e.body.bytes, realStr e.body)) =
    some ([0x41, 0, 0, 0, 0, 0, 0, 0], [0x80, 0x80, 0x35, 0, 0, 0, 0, 0, 0], .ok "-3.5".toList) := by decide +kernel

example : ∃ e' ws, negate sampleEnv sampleThreeHalf () = ⟨.ok e', (), ws⟩ ∧ eqEnt e' sampleThreeHalf = .ok false := by
  obtain ⟨e', ws, h, -, -, h', -⟩ := C115_negate_partial sampleEnv sampleThreeHalf
    { metaLen := .inr rfl, typeId := rfl, name := rfl, version := rfl, archived := rfl,
      flag := .inl rfl, flashless := by decide, length := by decide }
    (fun _ => by unfold FlashIsLength; decide) (by decide) (by decide) (by decide) rfl
  exact ⟨e', ws, h, h'⟩

/-- The negation of √2 + √3 is √2 + √3. -/
example : radStr sampleRoots.body = .ok "(√2+√3)/1".toList ∧
    (negate sampleEnv sampleRoots ()).res.toOption.map (fun e => (e.body.bytes.head?, radStr e.body)) =
      some (some 0x9C, .ok "(√2+√3)/1".toList) := by decide +kernel

end Verif
