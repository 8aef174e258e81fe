import Verif.Proofs.RadicalPrint

/-! C87 and C88: radicals as text. -/

namespace Verif

open Spec

/-! ### C87 -/

/-- C87, the part that holds: a sum of one or two square roots over a denominator, in any of its spellings, loads as
its value. The stored radicands are in order, the denominator is that of the text and the byte before the fields
stays. Missing: the texts that `RadText.Loads` excludes, on which the code fails. -/
theorem C87_load_partial {t : RadText} (h : t.Valid) (hm : t.Small) (hl : t.Loads) {s : Str} (hs : squash s = t.render)
    (b : Bytes) (hb : b.length = 9) :
    ∃ b' : Bytes, radLoadString s ⟨true, b⟩ = ⟨.ok (), ⟨true, b'⟩, []⟩ ∧ b'.length = 9 ∧ b'[0]? = b[0]? ∧
      ∃ (x y : Int) (m n : Nat), radFields ⟨true, b'⟩ = .ok ((t.denominator.natAbs : Int), x, (m : Int), y, (n : Int)) ∧
        (n < m ∨ n = 0 ∧ y = 0) ∧ x ≠ 0 ∧
        ((x : ℝ) * Real.sqrt m + y * Real.sqrt n) / (t.denominator.natAbs : ℝ) = t.value := by
  have hd := denominator_ne h
  have h2 : t.factor2.natAbs < 1000 ∧ t.radicand2 < 1000 := by
    unfold RadText.factor2 RadText.radicand2
    rcases hu : t.second with _ | u
    · decide
    · exact hm.second u hu
  have hlead : t.lead ≠ 0 ∧ t.lead.natAbs < 1000 := ⟨hl.lead, hm.lead⟩
  rw [← radOrder_lead] at hlead
  rcases radParse_text h hl.roots hl.denSign hs with hp | hp
  · exact radLoad_ok (render_ne h hs) hp hd hm.den hm.first.1 h2.1 hm.first.2 h2.2 hlead b hb
  · rw [radOrder_swap_fst] at hlead
    obtain ⟨b', g1, g2, g3, x, y, m, n, g4, g5, g6, g7⟩ :=
      radLoad_ok (render_ne h hs) hp hd hm.den h2.1 hm.first.1 h2.2 hm.first.2 hlead b hb
    refine ⟨b', g1, g2, g3, x, y, m, n, g4, g5, g6, ?_⟩
    rw [g7, RadText.value, add_comm]

/-- The texts excluded are refused with a `ValueError` and leave the entry as it is. -/
theorem C87_refused {t : RadText} (h : t.Valid) (hl : ¬ t.Loads) {s : Str} (hs : squash s = t.render) (b : Buf) :
    radLoadString s b = ⟨.error .valueError, b, []⟩ := by
  suffices hp : radParse s = .error .valueError by
    unfold radLoadString
    rw [if_neg (render_ne h hs), hp]
    rfl
  by_cases h1 : ∀ u, t.second = some u → t.first.root = none → u.root ≠ none
  · by_cases h2 : ∀ s d, t.second = none → t.first.root ≠ none → t.den = some (s, d) → s = .none
    · have h0 : t.lead = 0 := by
        by_contra h0
        exact hl ⟨h0, h1, h2⟩
      rw [← radOrder_lead] at h0
      rcases radParse_text h h1 h2 hs with hp | hp
      · rw [hp, radCore_zero h0]
      · rw [hp, radCore_zero (by rw [radOrder_swap_fst]; exact h0)]
    · simp only [not_forall] at h2
      obtain ⟨g, d, hu, hr, hd, hg⟩ := h2
      exact radParse_signedDen h hu hr hd hg hs
  · simp only [not_forall, not_not] at h1
    obtain ⟨u, hu, hr, hr'⟩ := h1
    exact radParse_noRoots h hu hr hr' hs

/-- `(~sqrt(2) + 3*√7) / -12` -/
def sampleRad : RadText :=
  ⟨true, ⟨.tilde, [], some ⟨false, true, true, ['2']⟩⟩, some ⟨.plus, ['3'], some ⟨true, false, false, ['7']⟩⟩,
    some (.minus, ['1', '2'])⟩

theorem sampleRad_valid : sampleRad.Valid := by
  have hd : ∀ c : Char, isDig c = true → Digits [c] := fun c hc => (digits_iff _).1 (by simp [hc])
  refine ⟨⟨by simp [Digits, sampleRad], by simp [sampleRad], ?_⟩, ?_, ?_⟩
  · intro r hr
    simp only [sampleRad, Option.some.injEq] at hr
    subst hr
    exact ⟨hd _ (by decide), by simp⟩
  · intro u hu
    simp only [sampleRad, Option.some.injEq] at hu
    subst hu
    refine ⟨⟨hd _ (by decide), by simp, ?_⟩, by simp⟩
    intro r hr
    simp only [Option.some.injEq] at hr
    subst hr
    exact ⟨hd _ (by decide), by simp⟩
  · intro g d h
    simp only [sampleRad, Option.some.injEq, Prod.mk.injEq] at h
    obtain ⟨-, rfl⟩ := h
    exact ⟨(digits_iff _).1 (by decide), by decide⟩

/-- The text is readable, and its fields are those of `(-3√7 + √2) / 12`. -/
example : squash "(~sqrt(2) + 3*√7) / -12".toList = sampleRad.render ∧ sampleRad.Small ∧ sampleRad.Loads ∧
    radFields (radLoadString "(~sqrt(2) + 3*√7) / -12".toList ⟨true, List.replicate 9 0⟩).st = .ok (12, -3, 7, 1, 2) := by
  refine ⟨by decide +kernel, ⟨by decide, ?_, by decide, by decide⟩, ⟨by decide, ?_, ?_⟩, by decide +kernel⟩
  · intro u hu
    simp only [sampleRad, Option.some.injEq] at hu
    subst hu
    decide
  · intro u _ h
    simp [sampleRad] at h
  · intro s d h
    simp [sampleRad] at h

/-- A plain number as text. -/
def plainRad (d : Str) : RadText := ⟨false, ⟨.none, d, none⟩, none, none⟩

theorem plainRad_valid {d : Str} (h : d.all isDig = true) (hne : d ≠ []) : (plainRad d).Valid :=
  ⟨⟨(digits_iff d).1 h, fun _ => hne, fun _ h => by simp [plainRad] at h⟩, fun _ h => by simp [plainRad] at h,
    fun _ _ h => by simp [plainRad] at h⟩

/-- C87 is false: `0` cannot be loaded. -/
theorem C87_load_false :
    ¬ ∀ (t : RadText), t.Valid → t.Small → (radLoadString t.render ⟨true, List.replicate 9 0⟩).res = .ok () := by
  intro h
  have := h (plainRad ['0']) (plainRad_valid (by decide) (by decide)) ⟨by decide, fun _ h => by simp [plainRad] at h, by decide, by decide⟩
  revert this
  decide +kernel

/-- Other texts that are refused: a sum without a root, and a signed denominator after a single root. -/
example : (radLoadString "3+4".toList ⟨true, List.replicate 9 0⟩).res = .error .valueError ∧
    (radLoadString "√2/-3".toList ⟨true, List.replicate 9 0⟩).res = .error .valueError ∧
    (radLoadString "0√5+3√2".toList ⟨true, List.replicate 9 0⟩).res = .error .valueError := by decide +kernel

/-- C87 is false without the bound on the numbers: a factor of 1000 is lost and a denominator of 1000 becomes zero
and turns the sign, without an error. -/
theorem C87_large_false : ∃ b1 b2 : Bytes,
    radLoadString "1000√2".toList ⟨true, List.replicate 9 0⟩ = ⟨.ok (), ⟨true, b1⟩, []⟩ ∧
    radFields ⟨true, b1⟩ = .ok (1, 0, 2, 0, 1) ∧
    radLoadString "√2/1000".toList ⟨true, List.replicate 9 0⟩ = ⟨.ok (), ⟨true, b2⟩, []⟩ ∧
    radFields ⟨true, b2⟩ = .ok (0, -1, 2, 0, 1) :=
  ⟨[0, 0x00, 0x01, 0, 0, 0, 0, 0x10, 0x02], [0, 0x10, 0x00, 0, 0, 0x01, 0, 0x10, 0x02], by decide +kernel, by decide +kernel,
    by decide +kernel, by decide +kernel⟩

/-- The empty text, which the code means to be zero, loads as one. -/
theorem C87_empty_false (b : Bytes) (hb : b.length = 9) :
    ∃ b' : Bytes, radLoadString [] ⟨true, b⟩ = ⟨.ok (), ⟨true, b'⟩, []⟩ ∧ radFields ⟨true, b'⟩ = .ok (1, 1, 1, 0, 0) :=
  radLoad_empty b hb

/-! ### C88 -/

/-- C88, the text: a radical with a denominator prints, in the short and in the full form, as a text whose value is that
of the fields. -/
theorem C88_text {b : Buf} {d m n : Nat} {x y : Int} (h : radFields b = .ok ((d : Int), x, (m : Int), y, (n : Int))) (hd : d ≠ 0) :
    ∃ t u : RadText, t.Valid ∧ radStr b = .ok t.render ∧ t.value = (x * Real.sqrt m + y * Real.sqrt n) / d ∧
      u.Valid ∧ radStrFull b = .ok u.render ∧ u.value = (x * Real.sqrt m + y * Real.sqrt n) / d :=
  ⟨textOf d x m y n, fullOf d x m y n, textOf_valid hd _ _ _ _, radStr_text h, textOf_value _ _ _ _ _, fullOf_valid hd _ _ _ _,
    radStrFull_text h, fullOf_value _ _ _ _ _⟩

/-- C88, the part that holds: if the left radicand is the larger one and its factor is not zero, the text loads into any
radical as the same value and the same text, and as the same fields unless the right part is zero; the full form loads as
the same fields. Missing: radicals without left part, such as zero. -/
theorem C88_reload_partial {b : Buf} {d m n : Nat} {x y : Int} (h : radFields b = .ok ((d : Int), x, (m : Int), y, (n : Int)))
    (hd : d ≠ 0) (hd' : d < 1000) (hx : x ≠ 0) (hx' : x.natAbs < 1000) (hy : y.natAbs < 1000) (hmn : n < m) (hm : m < 1000)
    (b0 : Bytes) (hb0 : b0.length = 9) :
    (∃ s b', radStr b = .ok s ∧ radLoadString s ⟨true, b0⟩ = ⟨.ok (), ⟨true, b'⟩, []⟩ ∧ b'[0]? = b0[0]? ∧
      radStr ⟨true, b'⟩ = .ok s ∧ ∃ (y' : Int) (n' : Nat), radFields ⟨true, b'⟩ = .ok ((d : Int), x, (m : Int), y', (n' : Int)) ∧
        (y' : ℝ) * Real.sqrt n' = y * Real.sqrt n ∧ (y ≠ 0 → n ≠ 0 → y' = y ∧ n' = n)) ∧
    ∃ s b', radStrFull b = .ok s ∧ radLoadString s ⟨true, b0⟩ = ⟨.ok (), ⟨true, b'⟩, []⟩ ∧ b'[0]? = b0[0]? ∧
      radFields ⟨true, b'⟩ = .ok ((d : Int), x, (m : Int), y, (n : Int)) := by
  obtain ⟨b1, k1, -, k3, y', n', k4, k5, k6, k7⟩ := radLoad_printed hd hd' hx hx' hy hmn hm b0 hb0
  obtain ⟨b2, l1, -, l3, l4⟩ := radLoad_full hd hd' hx hx' hy hmn hm b0 hb0
  exact ⟨⟨_, b1, radStr_text h, k1, k3, by rw [radStr_text k4, k6], y', n', k4, k5, k7⟩, _, b2, radStrFull_text h, l1, l3, l4⟩

example : radFields ⟨true, [0x1C, 0x20, 0x07, 0x99, 0x90, 0x45, 0x00, 0x20, 0x13]⟩ = .ok (7, 45, 13, -999, 2) ∧
    radStr ⟨true, [0x1C, 0x20, 0x07, 0x99, 0x90, 0x45, 0x00, 0x20, 0x13]⟩ = .ok "(45√13-999√2)/7".toList ∧
    radStr ⟨true, [0x1C, 0x10, 0x01, 0x00, 0x00, 0x01, 0x00, 0x10, 0x13]⟩ = .ok "-1√13".toList ∧
    radStrFull ⟨true, [0x1C, 0x10, 0x01, 0x00, 0x00, 0x01, 0x00, 0x10, 0x13]⟩ = .ok "(-1√13+0√1)/1".toList := by decide +kernel

/-- C88 for fields in any order: the short text loads as the same value if the fields are among `ShortReads` and is refused
otherwise; the full text loads as the same value if the factor of the larger root is not zero and is refused otherwise.
Equal roots must not add up to more than three digits. -/
theorem C88_value_partial {b : Buf} {d m n : Nat} {x y : Int} (h : radFields b = .ok ((d : Int), x, (m : Int), y, (n : Int)))
    (hd : d ≠ 0) (hd' : d < 1000) (hx : x.natAbs < 1000) (hy : y.natAbs < 1000) (hm : m < 1000) (hn : n < 1000)
    (hl : (leadFactor x m y n).natAbs < 1000) (b0 : Bytes) (hb0 : b0.length = 9) :
    ∃ s u, radStr b = .ok s ∧ radStrFull b = .ok u ∧
      (if ShortReads x m y n then ∃ (b' : Bytes) (x' y' : Int) (m' n' : Nat), radLoadString s ⟨true, b0⟩ = ⟨.ok (), ⟨true, b'⟩, []⟩ ∧
          radFields ⟨true, b'⟩ = .ok ((d : Int), x', (m' : Int), y', (n' : Int)) ∧
          (x' * Real.sqrt m' + y' * Real.sqrt n') / (d : ℝ) = (x * Real.sqrt m + y * Real.sqrt n) / d
        else radLoadString s ⟨true, b0⟩ = ⟨.error .valueError, ⟨true, b0⟩, []⟩) ∧
      (if leadFactor x m y n ≠ 0 then ∃ (b' : Bytes) (x' y' : Int) (m' n' : Nat), radLoadString u ⟨true, b0⟩ = ⟨.ok (), ⟨true, b'⟩, []⟩ ∧
          radFields ⟨true, b'⟩ = .ok ((d : Int), x', (m' : Int), y', (n' : Int)) ∧
          (x' * Real.sqrt m' + y' * Real.sqrt n') / (d : ℝ) = (x * Real.sqrt m + y * Real.sqrt n) / d
        else radLoadString u ⟨true, b0⟩ = ⟨.error .valueError, ⟨true, b0⟩, []⟩) := by
  have hv := textOf_valid hd x m y n
  have hv2 := fullOf_valid hd x m y n
  refine ⟨_, _, radStr_text h, radStrFull_text h, ?_, ?_⟩
  · split
    · next hr =>
      obtain ⟨b', k1, -, -, x', y', m', n', k4, -, -, k7⟩ := C87_load_partial hv (textOf_small hd' hx hy hm hn hl hr)
        ((textOf_loads d x m y n).2 hr) (squash_text hv) b0 hb0
      have hden : (textOf d x m y n).denominator.natAbs = d := by
        unfold textOf
        rcases hr with ⟨h1, h2⟩ | ⟨h1, h2⟩ | ⟨h1, h2, -⟩
        · rw [if_neg h1, if_pos h2, singleOf_den]; rfl
        · rw [if_pos h1, if_neg h2, singleOf_den]; rfl
        · rw [if_neg h1, if_neg h2, doubleOf_den]; rfl
      rw [hden] at k4 k7
      exact ⟨b', x', y', m', n', k1, k4, by rw [k7, textOf_value]⟩
    · next hr => exact C87_refused hv (fun hc => hr ((textOf_loads d x m y n).1 hc)) (squash_text hv) _
  · split
    · next hr =>
      obtain ⟨b', k1, -, -, x', y', m', n', k4, -, -, k7⟩ := C87_load_partial hv2 (fullOf_small hd' hx hy hm hn hl)
        ((fullOf_loads d x m y n).2 hr) (squash_text hv2) b0 hb0
      have hden : (fullOf d x m y n).denominator.natAbs = d := by rw [(fullOf_parts d x m y n).1]; rfl
      rw [hden] at k4 k7
      exact ⟨b', x', y', m', n', k1, k4, by rw [k7, fullOf_value]⟩
    · next hr => exact C87_refused hv2 (fun hc => hr ((fullOf_loads d x m y n).1 hc)) (squash_text hv2) _

/-- The radicand 2 on the left of 5: the text loads with the roots exchanged, and so as another text of the same value;
1+2 is refused. -/
example : radStr ⟨true, [0x1C, 0x00, 0x07, 0x00, 0x30, 0x04, 0x00, 0x50, 0x02]⟩ = .ok "(4√2+3√5)/7".toList ∧
    (radLoadString "(4√2+3√5)/7".toList ⟨true, [0x1C, 0, 0, 0, 0, 0, 0, 0, 0]⟩).st =
      ⟨true, [0x1C, 0x00, 0x07, 0x00, 0x40, 0x03, 0x00, 0x20, 0x05]⟩ ∧
    radStr ⟨true, [0x1C, 0x00, 0x07, 0x00, 0x40, 0x03, 0x00, 0x20, 0x05]⟩ = .ok "(3√5+4√2)/7".toList ∧
    ShortReads 4 2 3 5 ∧ ¬ ShortReads 1 1 2 1 := by decide +kernel

/-- C88 is false: zero prints as `0`, which cannot be loaded, and so does a left part of zero with a nonzero right part. -/
theorem C88_reload_false : ∃ b b' : Buf, radFields b = .ok (1, 0, 0, 0, 0) ∧ radStr b = .ok ['0'] ∧
    (radLoadString ['0'] b).res = .error .valueError ∧ radFields b' = .ok (1, 0, 5, 1, 2) ∧
    radStrFull b' = .ok "(0√5+1√2)/1".toList ∧ (radLoadString "(0√5+1√2)/1".toList b').res = .error .valueError :=
  ⟨⟨true, [0x1C, 0x00, 0x01, 0, 0, 0, 0, 0, 0]⟩, ⟨true, [0x1C, 0x00, 0x01, 0x00, 0x10, 0, 0, 0x20, 0x05]⟩, by decide +kernel, by decide +kernel,
    by decide +kernel, by decide +kernel, by decide +kernel, by decide +kernel⟩

end Verif
