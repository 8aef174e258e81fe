import Verif.Proofs.GdbOut

/-! Helper lemmas for loading back the dictionaries of graph databases. -/

namespace Verif
open Spec
namespace Ent
variable {V : Type} [LinearOrder V]

theorem style_code : ∀ n : Nat, n < 7 → ∃ m ∈ graphStyles, (graphStyles[n]?).map String.toList = some m.toList ∧
    codeIn graphStyles (some (some m.toList)) = UInt8.ofNat n := by decide +kernel

theorem color_code : ∀ n : Nat, n < 16 → ∃ m ∈ graphColors, (graphColors[n]?).map String.toList = some m.toList ∧
    codeIn graphColors (some (some m.toList)) = UInt8.ofNat n := by decide +kernel

theorem line_code : ∀ n : Nat, n < 4 → ∃ m ∈ lineStyles, (lineStyles[n]?).map String.toList = some m.toList ∧
    codeIn lineStyles (some (some m.toList)) = UInt8.ofNat n := by decide +kernel

theorem flags_code : ∀ n : Nat, n < 256 → n % 32 = 3 → eqFlagByte ⟨some (n.testBit 5), some (n.testBit 6),
    some (n.testBit 7)⟩ = UInt8.ofNat n := by decide +kernel

theorem ext_code : ∀ n : Nat, n < 2 → extByte (some (n.testBit 0 == false)) none = UInt8.ofNat n ∧
    (if some (n.testBit 0 == false) = some false then (1 : UInt8) else 0) = UInt8.ofNat n := by decide +kernel

/-- The equations of a plain database. -/
theorem plain_equation {p : Plot} {c : Cls} (hc : c ∈ plotClasses) (hp : PlainPlot c p) {k : Nat}
    (hk : k < equationCount c) : ∃ st co fl : UInt8, p.styles[k / sharing c]? = some st ∧
      p.eqs[k]? = some ⟨fl, []⟩ ∧ (∀ t, p.tail = some t → t.colors[k / sharing c]? = some co) ∧
      (plotEquations p c)[k]? = some ⟨[st], [co], [fl, 0, 0]⟩ ∧
      st.toNat < 7 ∧ 1 ≤ co.toNat ∧ co.toNat < 16 ∧ fl.toNat % 32 = 3 := by
  obtain ⟨t, ht, -, hcol, -⟩ := hp.tail
  obtain ⟨-, -, -, -, hsh, hcount, -⟩ := plot_counts hc
  have hlt : k / sharing c < styleCount c := by
    rw [Nat.div_lt_iff_lt_mul hsh, ← hcount]; exact hk
  have hs : k / sharing c < p.styles.length := by rw [hp.fits.styles]; exact hlt
  have hct : k / sharing c < t.colors.length := by rw [(hp.fits.tail t ht).2.1]; exact hlt
  have he : k < p.eqs.length := by rw [hp.fits.eqs]; exact hk
  obtain ⟨htok, hfl⟩ := hp.eqs _ (List.getElem_mem he)
  have hq : p.eqs[k] = ⟨p.eqs[k].flags, []⟩ := by rw [← htok]
  have hcc := hcol _ (List.getElem_mem hct)
  refine ⟨p.styles[k / sharing c], t.colors[k / sharing c], p.eqs[k].flags, List.getElem?_eq_getElem hs, ?_, ?_, ?_,
    hp.styles _ (List.getElem_mem hs), hcc.1, hcc.2, hfl⟩
  · rw [List.getElem?_eq_getElem he, ← hq]
  · intro u hu
    rw [ht] at hu
    obtain rfl := Option.some.inj hu
    exact List.getElem?_eq_getElem hct
  · rw [plotEquations_at, if_pos hk]
    simp only [List.getD_eq_getElem?_getD, List.getElem?_eq_getElem hs, plotColor, ht, List.getElem?_eq_getElem hct,
      List.getElem?_map, List.getElem?_eq_getElem he, Option.getD_some, Option.map_some]
    rw [hq, empty_bytes]

theorem dict_known {J : Type} {c : Cls} {p : Plot} {js : String → J} {g a l b d : UInt8} (hc : c ∈ backClasses)
    (hp : PlainPlot c p) (hg : g.toNat < 16) (ha : a.toNat < 16) (hl : l.toNat < 4) (hb : 1 ≤ b.toNat ∧ b.toNat ≤ 4) :
    KnownGdb c (dictOf c p js (colorOf g a l b d)) where
  mode := rfl
  format := (formatOut_table _ (show (p.head.getD 4 0).toNat < 256 from (p.head.getD 4 0).toNat_lt)).2.1
  form := by rintro s ⟨⟩
  numbers := by
    intro kv hkv
    simp only [dictOf, numbersOf, ← List.map_append, List.take_append_drop, List.mem_map] at hkv
    obtain ⟨n, hn, rfl⟩ := hkv
    exact ⟨n, hn, rfl⟩
  curves := by
    have hc' := back_plot hc
    obtain ⟨hnames, -, hlen⟩ := names_table c hc'
    intro kv hkv
    obtain ⟨k, hk⟩ := List.mem_iff_getElem?.mp hkv
    simp only [dictOf] at hk
    have hk' := hk
    rw [List.getElem?_zip_eq_some] at hk'
    obtain ⟨h1, h2⟩ := hk'
    rw [hnames, List.getElem?_map, Option.map_eq_some_iff] at h1
    obtain ⟨n, hn, hkn⟩ := h1
    refine ⟨⟨n, List.mem_of_getElem? hn, hkn.symm⟩, ?_⟩
    have hlt : k < equationCount c := by
      rw [← hlen]; exact (List.getElem?_eq_some_iff.mp hn).1
    obtain ⟨st, co, fl, -, -, -, hq, hst, hco1, hco2, -⟩ := plain_equation hc' hp hlt
    rw [List.getElem?_map, hq, Option.map_some, Option.some.injEq] at h2
    rw [← h2]
    obtain ⟨m, hm, h1, -⟩ := style_code _ hst
    obtain ⟨m', hm', h2, -⟩ := color_code _ hco2
    have hne : co ≠ 0x00 := by rintro rfl; simp at hco1
    exact ⟨⟨m, hm, by simp only [emptyDict, List.headD_cons, h1]⟩,
      ⟨m', hm', by simp only [emptyDict, List.headD_cons, if_neg hne, h2]⟩, by simp [emptyDict], by simp [emptyDict]⟩
  colors := by
    rintro cd ⟨⟩
    obtain ⟨m1, hm1, h1, -⟩ := color_code _ hg
    obtain ⟨m2, hm2, h2, -⟩ := color_code _ ha
    obtain ⟨m3, hm3, h3, -⟩ := line_code _ hl
    refine ⟨back_colored hc, fun _ => ⟨m1, hm1, by simp only [colorOf, h1]⟩, fun _ => ⟨m2, hm2, by simp only [colorOf, h2]⟩,
      fun _ => ⟨m3, hm3, by simp only [colorOf, h3]⟩, ?_⟩
    rintro n ⟨⟩
    omega

/-- Two heads with the same bytes of modes and the same fields. -/
theorem head_ext {h h' : Bytes} {k : Nat} (hl : h.length = 7 + 9 * k) (hl' : h'.length = 7 + 9 * k)
    (h7 : ∀ i < 7, h.getD i 0 = h'.getD i 0)
    (hf : ∀ i < k, (h.drop (7 + 9 * i)).take 9 = (h'.drop (7 + 9 * i)).take 9) : h = h' := by
  apply List.ext_getElem (by omega)
  intro j h1 h2
  by_cases hj : j < 7
  · have := h7 j hj
    rw [List.getD_eq_getElem?_getD, List.getD_eq_getElem?_getD, List.getElem?_eq_getElem h1,
      List.getElem?_eq_getElem h2] at this
    exact this
  · have hi : (j - 7) / 9 < k := by omega
    have := congrArg (fun l => l[(j - 7) % 9]?) (hf _ hi)
    simp only [List.getElem?_take, show (j - 7) % 9 < 9 by omega, if_true, List.getElem?_drop] at this
    rw [show 7 + 9 * ((j - 7) / 9) + (j - 7) % 9 = j by omega, List.getElem?_eq_getElem h1,
      List.getElem?_eq_getElem h2] at this
    exact Option.some.inj this

theorem lastFor_equations {J : Type} {c : Cls} (hc : c ∈ plotClasses) (p : Plot) (js : String → J) (cd : ColorDict)
    {i : Nat} {n : String} {q : GEq} (hi : (curveNames c)[i]? = some n) (hq : (plotEquations p c)[i]? = some q) :
    lastFor n.toList (dictOf c p js cd).equations = some (emptyDict q) := by
  obtain ⟨hnames, hnd, -⟩ := names_table c hc
  refine lastFor_zip (i := i) hnd _ ?_ ?_
  · rw [hnames, List.getElem?_map, hi]; rfl
  · rw [List.getElem?_map, hq]; rfl

theorem says_back {J : Type} {c : Cls} {p p' : Plot} {js : String → J} {val : J → Bytes} {tok : Str → Bytes}
    {t : ColorPart} {g a l b d : UInt8} (hc : c ∈ backClasses) (hp : PlainPlot c p) (htok : tok [] = [])
    (hnum : ∀ (i : Nat) (n : String), (fieldNames c)[i]? = some n → val (js n) = fieldBytes c i p.head)
    (ht : p.tail = some t) (hset : t.settings = [g, a, l, b, d]) (hg : g.toNat < 16) (ha : a.toNat < 16)
    (hl : l.toNat < 4) (hd : d.toNat < 2)
    (hs : Says c (dictOf c p js (colorOf g a l b d)) val tok p') : p' = p := by
  have hc' := back_plot hc
  obtain ⟨-, -, -, -, hsh, hcount, -⟩ := plot_counts hc'
  obtain ⟨hnames, hnd, hlen⟩ := names_table c hc'
  have h7 : firstField c = 7 := (by decide : ∀ c ∈ plotClasses, firstField c = 7) _ hc'
  have hcurve : ∀ i, i < equationCount c → ∃ n, (curveNames c)[i]? = some n := by
    intro i hi
    rw [← hlen] at hi
    exact ⟨_, List.getElem?_eq_getElem hi⟩
  have hhead : p'.head = p.head := by
    have e1 := hs.fits.head
    have e2 := hp.fits.head
    simp only [fieldStart, h7] at e1 e2
    refine head_ext (k := (fieldNames c).length) e1 e2 ?_ ?_
    · have h4 : p'.head.take 4 = p.head.take 4 := by rw [hs.start, hp.start]
      intro i hi
      by_cases hi4 : i < 4
      · have := congrArg (fun l => l[i]?) h4
        simp only [List.getElem?_take, hi4, if_true] at this
        rw [List.getD_eq_getElem?_getD, List.getD_eq_getElem?_getD, this]
      · obtain rfl | rfl | rfl : i = 4 ∨ i = 5 ∨ i = 6 := by omega
        · refine byte_ext fun k hk => ?_
          rw [hs.format k hk]
          exact (formatOut_table _ (show (p.head.getD 4 0).toNat < 256 from (p.head.getD 4 0).toNat_lt)).2.2
            hp.format k hk
        · rw [hs.seq, hp.seq]
          rfl
        · rw [hs.ext]
          have := (ext_code _ hp.ext).1
          rw [UInt8.ofNat_toNat] at this
          exact this
    · intro i hi
      have hi' := List.getElem?_eq_getElem hi
      have h1 := hs.numbers i _ hi'
      have h2 := hnum i _ hi'
      have hlast : lastFor ((fieldNames c)[i]).toList ((dictOf c p js (colorOf g a l b d)).window ++
          (dictOf c p js (colorOf g a l b d)).settings) = some (js (fieldNames c)[i]) := by
        simp only [dictOf, numbersOf, ← List.map_append, List.take_append_drop]
        exact lastFor_numbers js (List.getElem_mem hi)
      rw [hlast] at h1
      simp only [Option.map_some, Option.getD_some, h2] at h1
      simpa only [fieldBytes, fieldStart, h7] using h1
  have heqs : p'.eqs = p.eqs := by
    apply List.ext_getElem?
    intro i
    by_cases hi : i < equationCount c
    · obtain ⟨n, hn⟩ := hcurve i hi
      obtain ⟨st, co, fl, -, h2, -, h4, -, -, -, hfl⟩ := plain_equation hc' hp hi
      rw [hs.curves i n hn, lastFor_equations hc' p js _ hn h4, h2]
      simp only [Option.map_some, Option.getD_some, saidCurve, emptyDict, List.headD_cons, htok,
        flags_code _ (show fl.toNat < 256 from fl.toNat_lt) hfl, UInt8.ofNat_toNat]
    · rw [List.getElem?_eq_none (by rw [hs.fits.eqs]; omega), List.getElem?_eq_none (by rw [hp.fits.eqs]; omega)]
  have hshare : ∀ i, i < styleCount c → i * sharing c < equationCount c ∧ i * sharing c / sharing c = i := by
    intro i hi
    rw [hcount]
    exact ⟨Nat.mul_lt_mul_of_pos_right hi hsh, Nat.mul_div_cancel _ hsh⟩
  have hstyles : p'.styles = p.styles := by
    apply List.ext_getElem?
    intro i
    by_cases hi : i < styleCount c
    · obtain ⟨hi', hdiv⟩ := hshare i hi
      obtain ⟨n, hn⟩ := hcurve _ hi'
      obtain ⟨st, co, fl, h1, -, -, h4, hst, -, -, -⟩ := plain_equation hc' hp hi'
      obtain ⟨m, -, h5, h6⟩ := style_code _ hst
      rw [hdiv] at h1
      rw [hs.styles i n hn, lastFor_equations hc' p js _ hn h4, h1]
      simp only [Option.map_some, Option.getD_some, emptyDict, List.headD_cons, h5, h6, UInt8.ofNat_toNat]
    · rw [List.getElem?_eq_none (by rw [hs.fits.styles]; omega), List.getElem?_eq_none (by rw [hp.fits.styles]; omega)]
  have htail : p'.tail = p.tail := by
    obtain ⟨t', ht', hmagic, hsettings, hcolors⟩ := hs.colors (back_colored hc)
    obtain ⟨u, hu, hmagic', hk, -⟩ := hp.tail
    rw [ht] at hu
    obtain rfl := Option.some.inj hu
    have e1 : t'.settings = t.settings := by
      obtain ⟨m1, -, h1, h1'⟩ := color_code _ hg
      obtain ⟨m2, -, h2, h2'⟩ := color_code _ ha
      obtain ⟨m3, -, h3, h3'⟩ := line_code _ hl
      rw [hsettings, hset]
      simp only [dictOf, colorBytes, colorOf, h1, h1', h2, h2', h3, h3', UInt8.ofNat_toNat, Option.getD_some,
        Int.toNat_natCast, (ext_code _ hd).2]
    have e2 : t'.colors = t.colors := by
      apply List.ext_getElem?
      intro i
      by_cases hi : i < styleCount c
      · obtain ⟨hi', hdiv⟩ := hshare i hi
        obtain ⟨n, hn⟩ := hcurve _ hi'
        obtain ⟨st, co, fl, -, -, h3, h4, -, hco1, hco2, -⟩ := plain_equation hc' hp hi'
        obtain ⟨m, -, h5, h6⟩ := color_code _ hco2
        have hne : co ≠ 0x00 := by rintro rfl; simp at hco1
        have h3 := h3 t ht
        rw [hdiv] at h3
        rw [hcolors i n hn, lastFor_equations hc' p js _ hn h4, h3]
        simp only [Option.map_some, Option.getD_some, emptyDict, List.headD_cons, if_neg hne, h5, h6,
          UInt8.ofNat_toNat]
      · rw [List.getElem?_eq_none (by rw [(hs.fits.tail t' ht').2.1]; omega),
          List.getElem?_eq_none (by rw [(hp.fits.tail t ht).2.1]; omega)]
    rw [ht', ht]
    obtain ⟨a1, a2, a3⟩ := t
    obtain ⟨b1, b2, b3⟩ := t'
    simp only at hmagic hmagic' e1 e2
    rw [hmagic, hmagic', e1, e2]
  obtain ⟨a1, a2, a3, a4⟩ := p
  obtain ⟨b1, b2, b3, b4⟩ := p'
  simp only at hhead heqs hstyles htail
  rw [hhead, heqs, hstyles, htail]

end Ent
end Verif
