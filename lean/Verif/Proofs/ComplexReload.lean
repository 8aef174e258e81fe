import Verif.Proofs.ComplexPrint
import Verif.Proofs.ElemText
import Verif.Spec.ArrayText

/-! What complex numbers with ordinary parts print as. -/

namespace Verif
open Spec

/-- The nine bytes are a number of fourteen digits, or zero, which is `c * 10 ^ e` and has at most 14 decimals. -/
def ShortNumber (v : Bytes) (c e : Int) : Prop :=
  v.length = 9 ∧ (v.headD 0).toNat % 64 = 0x0C ∧ AllDigits (v.drop 2) ∧ realDecimal ⟨true, v⟩ = .ok (c, e) ∧
  (c = 0 ∨ 10 ^ 13 ≤ c.natAbs) ∧ ∃ n : Int, (c : ℚ) * 10 ^ e * 10 ^ 14 = n

/-- The text, up to spaces. -/
theorem complex_squash {e : Ent} {re im : Bytes} (hb : e.body = ⟨true, re ++ im⟩) {c x c' x' : Int}
    (h1 : ShortNumber re c x) (h2 : ShortNumber im c' x') :
    ∃ s, e.complexStr = .ok s ∧ squash s = (printed c c' (printLit c x) (printLit c' x')).render := by
  obtain ⟨a1, a2, a3, a4, a5, n, a6⟩ := h1
  obtain ⟨b1, b2, b3, b4, b5, n', b6⟩ := h2
  obtain ⟨r1, r2, r3⟩ := realDecimal_bounds a1 a3 a4
  obtain ⟨s1, s2, s3⟩ := realDecimal_bounds b1 b3 b4
  have hl := printLit_spec c x
  have hl' := printLit_spec c' x'
  have hval := printLit_value a6
  have hval' := printLit_value b6
  have hrg := printLit_range a5 r1 r2 r3 a6
  have hrg' := printLit_range b5 s1 s2 s3 b6
  have hzero : c = 0 → (printLit c x).render = ['0'] := by intro h; unfold printLit; rw [if_pos h]; rfl
  have hzero' : c' = 0 → (printLit c' x').render = ['0'] := by intro h; unfold printLit; rw [if_pos h]; rfl
  have hnz : c ≠ 0 → (printLit c x).render ≠ ['0'] := fun h => hl.ne_zero (by
    rw [hval]; exact mul_ne_zero (by exact_mod_cast h) (ten_zpow_pos x).ne')
  have hnz' : c' ≠ 0 → (printLit c' x').render ≠ ['0'] := fun h => hl'.ne_zero (by
    rw [hval']; exact mul_ne_zero (by exact_mod_cast h) (ten_zpow_pos x').ne')
  have hstr : realStr ⟨true, re⟩ = .ok (printLit c x).render := printLit_str a4
  have hstr' : realStr ⟨true, im⟩ = .ok (printLit c' x').render := printLit_str b4
  generalize hL : printLit c x = l at *
  generalize hL' : printLit c' x' = l' at *
  -- what is printed
  have hget : e.getReal = .ok (.real, re) ∧ e.getImag = .ok (.real, im) := by
    obtain ⟨k1, k2⟩ := class_of hb a1 b1 a2 b2
    unfold Ent.getReal Ent.getImag
    rw [k1, k2, Ent.partView_get_real hb a1 b1, Ent.partView_get_imag hb a1 b1]
    exact ⟨rfl, rfl⟩
  unfold Ent.complexStr
  rw [hget.1, hget.2]
  simp only [bind, Except.bind, realPartStr, hstr, hstr']
  unfold printed
  by_cases hc' : c' = 0
  · rw [if_pos hc']
    by_cases hc : c = 0
    · rw [if_pos ⟨hzero hc, hzero' hc'⟩]
      exact ⟨_, rfl, by rw [show (ComplexText.re l).render = l.render from rfl, hzero hc]; decide⟩
    · rw [if_neg fun h => hnz hc h.1, if_pos (hzero' hc')]
      exact ⟨_, rfl, squash_render _ hl.valid⟩
  · rw [if_neg hc', if_neg fun h => hnz' hc' h.2, if_neg (hnz' hc')]
    by_cases hc : c = 0
    · rw [if_pos hc, if_pos (hzero hc)]
      refine ⟨_, rfl, ?_⟩
      show squash (l'.render ++ ['i']) = l'.render ++ unitStr false .i
      rw [squash_append, squash_render _ hl'.valid]; rfl
    · rw [if_neg hc, if_neg (hnz hc)]
      refine ⟨_, rfl, ?_⟩
      show squash (replaceStr _ _ (replaceStr _ _ (l.render ++ [' ', '+', ' '] ++ (l'.render ++ ['i'])))) = _
      rw [both_text hl hl']
      by_cases h1 : l'.int ++ l'.fracStr = ['1']
      · rw [if_pos h1, if_pos h1, squash_append, squash_append, squash_append, squash_render _ hl.valid]
        show _ = l.render ++ Sign.str _ ++ unitStr false .i
        congr 1
        cases l'.sign.isNeg <;> simp [Sign.str] <;> decide
      · rw [if_neg h1, if_neg h1, squash_append, squash_append, squash_append, squash_render _ hl.valid, hl'.squash]
        show _ = l.render ++ (resign _ l').render ++ unitStr false .i
        have : (resign (if l'.sign.isNeg then .minus else .plus) l').render =
            Sign.str (if l'.sign.isNeg then .minus else .plus) ++ (l'.int ++ l'.fracStr) := by
          have : l'.expStr = [] := by unfold Literal.expStr; rw [hl'.exp]
          show Sign.str _ ++ l'.int ++ l'.fracStr ++ l'.expStr = _
          rw [this, List.append_nil, List.append_assoc]; rfl
        rw [this]
        rw [show squash ['i'] = ['i'] from rfl]
        cases l'.sign.isNeg <;> simp [Sign.str, unitStr, ImagUnit.str] <;> rfl

theorem complex_printed {e : Ent} {re im : Bytes} (hb : e.body = ⟨true, re ++ im⟩) {c x c' x' : Int}
    (h1 : ShortNumber re c x) (h2 : ShortNumber im c' x') (hne : c = 0 ∨ (c' : ℚ) * 10 ^ x' ≠ -1) :
    ∃ s, e.complexStr = .ok s ∧ squash s = (printed c c' (printLit c x) (printLit c' x')).render ∧
      (printed c c' (printLit c x) (printLit c' x')).Valid ∧ (printed c c' (printLit c x) (printLit c' x')).Safe ∧
      (printed c c' (printLit c x) (printLit c' x')).reValue = (c : ℚ) * 10 ^ x ∧
      (printed c c' (printLit c x) (printLit c' x')).imValue = (c' : ℚ) * 10 ^ x' ∧ Undelimited s := by
  have hprint := complex_squash hb h1 h2
  obtain ⟨a1, a2, a3, a4, a5, n, a6⟩ := h1
  obtain ⟨b1, b2, b3, b4, b5, n', b6⟩ := h2
  obtain ⟨r1, r2, r3⟩ := realDecimal_bounds a1 a3 a4
  obtain ⟨s1, s2, s3⟩ := realDecimal_bounds b1 b3 b4
  have hl := printLit_spec c x
  have hl' := printLit_spec c' x'
  have hval := printLit_value a6
  have hval' := printLit_value b6
  have hrg := printLit_range a5 r1 r2 r3 a6
  have hrg' := printLit_range b5 s1 s2 s3 b6
  have hzero : c = 0 → (printLit c x).render = ['0'] := by intro h; unfold printLit; rw [if_pos h]; rfl
  have hzero' : c' = 0 → (printLit c' x').render = ['0'] := by intro h; unfold printLit; rw [if_pos h]; rfl
  have hnz : c ≠ 0 → (printLit c x).render ≠ ['0'] := fun h => hl.ne_zero (by
    rw [hval]; exact mul_ne_zero (by exact_mod_cast h) (ten_zpow_pos x).ne')
  have hnz' : c' ≠ 0 → (printLit c' x').render ≠ ['0'] := fun h => hl'.ne_zero (by
    rw [hval']; exact mul_ne_zero (by exact_mod_cast h) (ten_zpow_pos x').ne')
  have hstr : realStr ⟨true, re⟩ = .ok (printLit c x).render := printLit_str a4
  have hstr' : realStr ⟨true, im⟩ = .ok (printLit c' x').render := printLit_str b4
  generalize hL : printLit c x = l at *
  generalize hL' : printLit c' x' = l' at *
  -- its parts
  have hneg1 : l'.int ++ l'.fracStr = ['1'] → l'.sign.isNeg = true → l'.value = -1 := by
    intro h hn
    have hm := hl'.single h
    unfold Literal.value Literal.sgn
    rw [hn, hm, if_pos rfl, show ('1'.toNat - 48 : Nat) = 1 from rfl]
    norm_num
  have hpos1 : l'.int ++ l'.fracStr = ['1'] → l'.sign.isNeg = false → l'.value = 1 := by
    intro h hn
    have hm := hl'.single h
    unfold Literal.value Literal.sgn
    rw [hn, hm, show ('1'.toNat - 48 : Nat) = 1 from rfl]
    norm_num
  have hresign : ∀ b : Sign, b.isNeg = l'.sign.isNeg → (resign b l').value = l'.value := by
    intro b hb'
    unfold Literal.value Literal.sgn
    show ((if b.isNeg then (-1 : Int) else 1 : Int) : ℚ) * l'.magnitude = _
    rw [hb']
  have hparts : (printed c c' l l').Valid ∧ (printed c c' l l').Safe ∧ (printed c c' l l').reValue = (c : ℚ) * 10 ^ x ∧
      (printed c c' l l').imValue = (c' : ℚ) * 10 ^ x' := by
    unfold printed
    by_cases hc' : c' = 0
    · rw [if_pos hc']
      exact ⟨hl.proper, hl.safe hrg, hval, by rw [hc']; simp [ComplexText.imValue]⟩
    · rw [if_neg hc']
      by_cases hc : c = 0
      · rw [if_pos hc]
        exact ⟨hl'.proper, hl'.safe hrg', by rw [hc]; simp [ComplexText.reValue], hval'⟩
      · rw [if_neg hc]
        by_cases h1 : l'.int ++ l'.fracStr = ['1']
        · rw [if_pos h1]
          have hs : l'.sign.isNeg = false := by
            by_contra h
            exact (hne.resolve_left hc) (hval' ▸ hneg1 h1 (by simpa using h))
          rw [hs]
          refine ⟨⟨hl.proper, trivial, Or.inl rfl⟩, ⟨hl.safe hrg, rfl⟩, hval, ?_⟩
          rw [← hval', hpos1 h1 hs]; rfl
        · rw [if_neg h1]
          have hsg : (if l'.sign.isNeg then Sign.minus else Sign.plus).isNeg = l'.sign.isNeg := by
            cases l'.sign.isNeg <;> rfl
          refine ⟨⟨hl.proper, hl'.proper, ?_⟩, ⟨hl.safe hrg, ?_⟩, hval, ?_⟩
          · show (if l'.sign.isNeg then Sign.minus else Sign.plus) = .plus ∨ _
            cases l'.sign.isNeg
            · exact Or.inl rfl
            · exact Or.inr rfl
          · exact hl'.safe hrg'
          · show (resign _ l').value = _
            rw [hresign _ hsg, hval']
  obtain ⟨s, hs, hsq⟩ := hprint
  refine ⟨s, hs, hsq, hparts.1, hparts.2.1, hparts.2.2.1, hparts.2.2.2, ?_⟩
  intro d hd hdel
  have hsp : isSpaceChar d = false := by rcases hdel with rfl | rfl | rfl | rfl | rfl <;> decide
  have hdig : isDig d = false := by rcases hdel with rfl | rfl | rfl | rfl | rfl <;> decide
  have hdot : d ≠ '.' ∧ d ≠ '-' ∧ d ≠ '+' ∧ d ≠ 'i' := by rcases hdel with rfl | rfl | rfl | rfl | rfl <;> decide
  have hm := mem_squash hsp hd
  rw [hsq] at hm
  have hsign : ∀ s : Sign, s = .none ∨ s = .minus ∨ s = .plus → d ∉ s.str := by
    rintro s (rfl | rfl | rfl) <;> simp [Sign.str, hdot]
  have hlit : ∀ {m : Literal}, Printed m → d ∉ m.render := by
    intro m hm' hmem
    rw [hm'.render] at hmem
    rcases List.mem_append.1 hmem with hmem | hmem
    · exact hsign _ (hm'.sign.imp id Or.inl) hmem
    · exact hm'.not_mem hdig hdot.1 hmem
  have hpm : (if l'.sign.isNeg then Sign.minus else Sign.plus) = .none ∨ (if l'.sign.isNeg then Sign.minus else Sign.plus) = .minus ∨
      (if l'.sign.isNeg then Sign.minus else Sign.plus) = .plus := by cases l'.sign.isNeg <;> simp
  have hunit : d ∉ unitStr false .i := by
    show d ∉ ['i']
    simp [hdot]
  unfold printed at hm
  split at hm
  · exact hlit hl hm
  · split at hm
    · rcases List.mem_append.1 (show d ∈ l'.render ++ unitStr false .i from hm) with hm | hm
      · exact hlit hl' hm
      · exact hunit hm
    · split at hm
      · rcases List.mem_append.1 (show d ∈ l.render ++ Sign.str _ ++ unitStr false .i from hm) with hm | hm
        · rcases List.mem_append.1 hm with hm | hm
          · exact hlit hl hm
          · exact hsign _ hpm hm
        · exact hunit hm
      · rcases List.mem_append.1 (show d ∈ l.render ++ (resign _ l').render ++ unitStr false .i from hm) with hm | hm
        · rcases List.mem_append.1 hm with hm | hm
          · exact hlit hl hm
          · have : (resign (if l'.sign.isNeg then .minus else .plus) l').render =
                Sign.str (if l'.sign.isNeg then .minus else .plus) ++ (l'.int ++ l'.fracStr) := by
              have : l'.expStr = [] := by unfold Literal.expStr; rw [hl'.exp]
              show Sign.str _ ++ l'.int ++ l'.fracStr ++ l'.expStr = _
              rw [this, List.append_nil, List.append_assoc]; rfl
            rw [this] at hm
            rcases List.mem_append.1 hm with hm | hm
            · exact hsign _ hpm hm
            · exact hl'.not_mem hdig hdot.1 hm
        · exact hunit hm

end Verif
