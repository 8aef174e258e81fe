import Verif.Proofs.GdbDict
import Verif.Props.Settings

/-! Helper lemmas for loading dictionaries into graph databases. -/

namespace Verif
open Spec
namespace Ent
variable {V : Type} [LinearOrder V]

/-! ### Format settings -/

theorem updFun_lookup (s : FlagItems) (hnd : (s.map Prod.fst).Nodup) (f : Nat → Bool) (k : Nat) :
    updFun f s k = (s.lookup k).getD (f k) := by
  induction s generalizing f with
  | nil => rfl
  | cons kv s ih =>
    obtain ⟨j, v⟩ := kv
    simp only [List.map_cons, List.nodup_cons] at hnd
    show updFun (fun i => if i = j then v else f i) s k = _
    rw [ih hnd.2, List.lookup_cons]
    by_cases hk : k = j
    · subst hk
      have : s.lookup k = none := by
        rw [List.lookup_eq_none_iff]
        intro p hp
        have : p.1 ≠ k := fun h => hnd.1 (h ▸ List.mem_map_of_mem (f := Prod.fst) hp)
        simpa using fun h => this h.symm
      simp [this]
    · simp [hk, beq_eq_false_iff_ne.mpr hk]

theorem format_table : ∀ f ∈ formatBits, modeNames.lookup f.1.toList = some f.2 ∧
    (formatBits.find? fun g => g.1.toList = f.1.toList) = some f ∧ (f.2.map Prod.fst).Nodup ∧
    ∀ kv ∈ f.2, kv.1 < 8 := by decide +kernel

theorem loadFormat_run {p : Plot} {e : Ent} (hc : e.cls ∈ plotClasses) (hp : p.Fits e.cls) {s : Str}
    (hs : ∃ f ∈ formatBits, s = f.1.toList) :
    ∃ b : UInt8, loadFormat s (onPlot e p) = ⟨.ok (), onPlot e { p with head := p.head.set 4 b }, []⟩ ∧
      ∀ k < 8, b.toNat.testBit k = (formatSays s k).getD ((p.head.getD 4 0).toNat.testBit k) := by
  obtain ⟨f, hf, rfl⟩ := hs
  obtain ⟨h1, h2, h3, h4⟩ := format_table f hf
  obtain ⟨b, hb1, hb2⟩ := orFlags_head hc hp (k := 4) (by omega) h4
  refine ⟨b, ?_, ?_⟩
  · unfold loadFormat
    rw [h1]
    exact hb1
  · intro k hk
    rw [hb2 k hk, updFun_lookup _ h3]
    unfold formatSays
    rw [h2]

theorem formats_run {e : Ent} (hc : e.cls ∈ plotClasses) (ss : List Str) (hs : ∀ s ∈ ss, ∃ f ∈ formatBits, s = f.1.toList)
    (p : Plot) (hp : p.Fits e.cls) :
    ∃ b : UInt8, eachM loadFormat ss (onPlot e p) = ⟨.ok (), onPlot e { p with head := p.head.set 4 b }, []⟩ ∧
      ∀ k < 8, b.toNat.testBit k = formatBit k ss ((p.head.getD 4 0).toNat.testBit k) := by
  have h61 := length_plot_head hc hp
  induction ss generalizing p with
  | nil =>
    refine ⟨p.head.getD 4 0, ?_, fun _ _ => rfl⟩
    have : p.head.set 4 (p.head.getD 4 0) = p.head := by
      rw [List.getD_eq_getElem?_getD, List.getElem?_eq_getElem (by omega)]
      exact List.set_getElem_self _
    rw [this]
    rfl
  | cons s ss ih =>
    obtain ⟨b, h1, h2⟩ := loadFormat_run hc hp (hs s (by simp))
    obtain ⟨b', h3, h4⟩ := ih (fun s h => hs s (List.mem_cons_of_mem _ h)) { p with head := p.head.set 4 b }
      (head_fits hp (by simp)) (by simpa using h61)
    refine ⟨b', ?_, ?_⟩
    · unfold eachM
      rw [PyM.bind_ok h1, h3]
      simp
    · intro k hk
      rw [h4 k hk]
      simp only [formatBit]
      rw [← h2 k hk]
      simp [List.getD_eq_getElem?_getD, show 4 < p.head.length by omega]

/-! ### Numbers -/

theorem plot_gdb {c : Cls} (h : c ∈ plotClasses) : c ∈ settingsClasses ++ gdbClasses :=
  (by decide : ∀ c ∈ plotClasses, c ∈ settingsClasses ++ gdbClasses) c h

theorem fieldNames_nodup {c : Cls} (h : c ∈ plotClasses) : (fieldNames c).Nodup :=
  (by decide : ∀ c ∈ plotClasses, (fieldNames c).Nodup) c h

/-- Every field holds a real number. -/
def HoldsReals (c : Cls) (d : Bytes) : Prop :=
  ∀ (i : Nat) (n : String), (fieldNames c)[i]? = some n → ∃ x, RealElem x ∧ fieldBytes c i d = x.body.bytes

theorem field_lt {c : Cls} {i : Nat} {n : String} (hi : (fieldNames c)[i]? = some n) :
    fieldStart c i + 9 ≤ fieldStart c (fieldNames c).length := by
  have h1 : i < (fieldNames c).length := by
    rw [List.getElem?_eq_some_iff] at hi; exact hi.1
  simp only [fieldStart]
  omega

/-- The bytes of a field are in the head. -/
theorem fieldBytes_head {p : Plot} {c : Cls} (hp : p.Fits c) {i : Nat} {n : String}
    (hi : (fieldNames c)[i]? = some n) : fieldBytes c i p.bytes = fieldBytes c i p.head := by
  have h := field_lt hi
  rw [← hp.head] at h
  unfold fieldBytes Plot.bytes
  simp only [List.append_assoc]
  rw [List.drop_append_of_le_length (by omega), List.take_append_of_le_length (by simp; omega)]

theorem loadNumber_run (env : Env V) (nm : Bytes) {J : Type} {io : NumIO J} {val : J → Ent} {e : Ent} {p : Plot}
    (hc : e.cls ∈ plotClasses) (hp : p.Fits e.cls) (hr : HoldsReals e.cls p.head) {kv : Str × J} {i : Nat} {n : String}
    (hi : (fieldNames e.cls)[i]? = some n) (hk : kv.1 = n.toList) (hj : Converts io val kv.2) :
    ∃ h : Bytes, loadNumber env nm io kv (onPlot e p) =
        ⟨.ok (), onPlot e { p with head := h }, numberWarns io val kv⟩ ∧
      h.length = p.head.length ∧ h.take 7 = p.head.take 7 ∧
      ∀ j, fieldBytes e.cls j h = if j = i then (val kv.2).body.bytes else fieldBytes e.cls j p.head := by
  obtain ⟨key, j⟩ := kv
  simp only at hk
  subst hk
  have hlt := field_lt hi
  rw [← hp.head] at hlt
  have hle : p.head.length ≤ p.bytes.length := by simp only [Plot.bytes, List.length_append]; omega
  obtain ⟨⟨n', w⟩, hnum⟩ := hj.num
  have hlen := hj.elem.2.1
  refine ⟨p.head.take (fieldStart e.cls i) ++ (val j).body.bytes ++ p.head.drop (fieldStart e.cls i + 9), ?_, ?_, ?_,
    fieldBytes_splice hlt hlen⟩
  · obtain ⟨x, hx, hf⟩ := hr i n hi
    obtain ⟨y, hy, -⟩ := C58_read env nm (onPlot e p) x i n (plot_gdb hc) hi hx
      (by rw [← hf]; exact fieldBytes_head hp hi)
    have hset := setField_ok (num := io.num) (e := onPlot e p) (v := val j) (plot_gdb hc) hi rfl
      (Nat.le_trans hlt hle) hlen (fieldCheck_ok n hnum)
    unfold loadNumber
    rw [PyM.bind_ok (PyM.get_run _)]
    have hlook : (graphFields (onPlot e p).cls).lookup n.toList = some (fieldStart e.cls i, kindOf n) :=
      lookup_field (plot_gdb hc) hi
    simp only [hlook, List.nil_append]
    rw [PyM.bind_ok (a := y) (w := []) (by rw [PyM.lift_run, hy]),
      PyM.bind_ok (a := val j) (w := []) (by rw [PyM.lift_run, hj.real]), hset]
    simp only [List.nil_append, numberWarns, hnum, String.ofList_toList]
    congr 1
    unfold onPlot
    simp only [Ent.mk.injEq, true_and, Buf.mk.injEq]
    show p.bytes.take (fieldStart e.cls i) ++ _ ++ p.bytes.drop (fieldStart e.cls i + 9) = _
    unfold Plot.bytes
    simp only [List.append_assoc]
    rw [List.take_append_of_le_length (by omega), List.drop_append_of_le_length (by omega)]
  · simp [hlen]; omega
  · have : 7 ≤ fieldStart e.cls i := by
      have : firstField e.cls = 7 := (by decide : ∀ c ∈ plotClasses, firstField c = 7) _ hc
      simp only [fieldStart]; omega
    rw [List.append_assoc, List.take_append_of_le_length (by simp; omega), List.take_take, Nat.min_eq_left this]

theorem numbers_run (env : Env V) (nm : Bytes) {J : Type} {io : NumIO J} {val : J → Ent} {e : Ent}
    (hc : e.cls ∈ plotClasses) (xs : List (Str × J))
    (hx : ∀ kv ∈ xs, (∃ n ∈ fieldNames e.cls, kv.1 = n.toList) ∧ Converts io val kv.2)
    (p : Plot) (hp : p.Fits e.cls) (hr : HoldsReals e.cls p.head) :
    ∃ h : Bytes, eachM (loadNumber env nm io) xs (onPlot e p) =
        ⟨.ok (), onPlot e { p with head := h }, xs.flatMap (numberWarns io val)⟩ ∧
      h.length = p.head.length ∧ h.take 7 = p.head.take 7 ∧ HoldsReals e.cls h ∧
      ∀ (i : Nat) (n : String), (fieldNames e.cls)[i]? = some n → fieldBytes e.cls i h =
        ((lastFor n.toList xs).map fun j => (val j).body.bytes).getD (fieldBytes e.cls i p.head) := by
  induction xs generalizing p with
  | nil => exact ⟨p.head, rfl, rfl, rfl, hr, fun _ _ _ => rfl⟩
  | cons kv xs ih =>
    obtain ⟨⟨n, hn, hk⟩, hj⟩ := hx kv (by simp)
    obtain ⟨i, hi⟩ := List.mem_iff_getElem?.mp hn
    obtain ⟨h, h1, h2, h3, h4⟩ := loadNumber_run env nm hc hp hr hi hk hj
    have hr' : HoldsReals e.cls h := by
      intro k m hm
      rw [h4 k]
      by_cases hki : k = i
      · rw [if_pos hki]; exact ⟨_, hj.elem, rfl⟩
      · rw [if_neg hki]; exact hr k m hm
    obtain ⟨h', g1, g2, g3, g4, g5⟩ := ih (fun kv h => hx kv (List.mem_cons_of_mem _ h)) { p with head := h }
      (head_fits hp h2) hr'
    refine ⟨h', ?_, by rw [g2, h2], by rw [g3, h3], g4, ?_⟩
    · unfold eachM
      rw [PyM.bind_ok h1, g1]
      simp
    · intro k m hm
      rw [g5 k m hm]
      obtain ⟨key, j⟩ := kv
      simp only at hk
      simp only [lastFor]
      rcases hl : lastFor m.toList xs with _ | j'
      · simp only [Option.map_none, Option.getD_none, Option.none_or]
        rw [h4 k]
        by_cases hki : k = i
        · have : m = n := by rw [hki, hi] at hm; exact (Option.some.inj hm).symm
          rw [if_pos hki, if_pos (by rw [hk, this])]
          rfl
        · have hne : n ≠ m := by
            rintro rfl
            have hlt : k < (fieldNames e.cls).length := (List.getElem?_eq_some_iff.mp hm).1
            exact hki ((List.getElem?_inj hlt (fieldNames_nodup hc)).mp (by rw [hm, hi]))
          rw [if_neg hki, if_neg (by rw [hk]; exact fun h => hne (String.toList_inj.mp h))]
          rfl
      · simp

/-! ### Equations -/

theorem curveNames_nodup {c : Cls} (h : c ∈ plotClasses) : (curveNames c).Nodup :=
  (by decide : ∀ c ∈ plotClasses, (curveNames c).Nodup) c h

theorem curve_table : ∀ c ∈ plotClasses, (curveNames c).length = equationCount c ∧
    ∀ i ∈ List.range (curveNames c).length,
      (equationNames c).idxOf? ((curveNames c).getD i "").toList = some i := by decide +kernel

theorem curve_index {c : Cls} (hc : c ∈ plotClasses) {i : Nat} {n : String} (hi : (curveNames c)[i]? = some n) :
    i < equationCount c ∧ (equationNames c).idxOf? n.toList = some i := by
  have h1 : i < (curveNames c).length := by
    rw [List.getElem?_eq_some_iff] at hi; exact hi.1
  obtain ⟨h2, h3⟩ := curve_table c hc
  have := h3 i (List.mem_range.2 h1)
  rw [List.getD_eq_getElem?_getD, hi] at this
  exact ⟨h2 ▸ h1, this⟩

theorem freshEquation_body : freshEquation.body ≠ [] := by decide +kernel

theorem loadEntry_run {eq : Str → PyM Unit Ent} {tok : Str → Bytes} {ws : Str → List Warn} {e : Ent} {p : Plot}
    (hc : e.cls ∈ plotClasses) (hp : p.Fits e.cls) {kv : Str × EqDict} {i : Nat} {n : String}
    (hi : (curveNames e.cls)[i]? = some n) (hk : kv.1 = n.toList) (hq : KnownEq kv.2)
    (heq : ∀ t, kv.2.expr = some t → Parses eq tok ws t) :
    loadEntry eq kv (onPlot e p) = ⟨.ok (), onPlot e (p.replace e.cls i (saidCurve tok kv.2)
      (codeIn graphStyles kv.2.style) (codeIn graphColors kv.2.color)), ws (kv.2.expr.getD [])⟩ ∧
    (saidCurve tok kv.2).tokens.length < 65536 := by
  obtain ⟨key, q⟩ := kv
  simp only at hk
  subst hk
  obtain ⟨hlt, hidx⟩ := curve_index hc hi
  constructor
  · have hload := loadEqDict_run hq (fun t ht => by
      obtain ⟨s, h1, h2, -⟩ := heq t ht
      exact ⟨s, h1, h2⟩) freshEquation_body
    have hset := setEquation_plot (e := onPlot e p) hc hp rfl hlt (saidCurve tok q) (codeIn graphStyles q.style)
      (codeIn graphColors q.color)
    unfold loadEntry
    rw [PyM.bind_ok (PyM.get_run _)]
    have hidx' : (equationNames (onPlot e p).cls).idxOf? n.toList = some i := hidx
    simp only [hidx', List.nil_append]
    rw [PyM.bind_run, PyM.lift_run]
    simp only [hload]
    rw [hset]
    simp only [List.append_nil]
    rfl
  · obtain ⟨t, ht⟩ := Option.ne_none_iff_exists'.mp hq.expr
    obtain ⟨s, -, -, h⟩ := heq t ht
    simp only at ht
    simpa [saidCurve, ht] using h

/-- The colours of the curves. -/
def tailColors (p : Plot) : List UInt8 :=
  match p.tail with
  | some t => t.colors
  | none => []

/-- The settings of colours. -/
def tailSettings (p : Plot) : Bytes :=
  match p.tail with
  | some t => t.settings
  | none => []

theorem equations_run {eq : Str → PyM Unit Ent} {tok : Str → Bytes} {ws : Str → List Warn} {e : Ent}
    (hc : e.cls ∈ plotClasses) (xs : List (Str × EqDict))
    (hx : ∀ kv ∈ xs, ((∃ n ∈ curveNames e.cls, kv.1 = n.toList) ∧ KnownEq kv.2) ∧
      ∀ t, kv.2.expr = some t → Parses eq tok ws t)
    (p : Plot) (hp : p.Fits e.cls) :
    ∃ p' : Plot, eachM (loadEntry eq) xs (onPlot e p) =
        ⟨.ok (), onPlot e p', xs.flatMap fun kv => ws (kv.2.expr.getD [])⟩ ∧
      p'.Fits e.cls ∧ p'.head = p.head ∧ (p'.tail.isSome = p.tail.isSome) ∧ tailSettings p' = tailSettings p ∧
      (∀ (i : Nat) (n : String), (curveNames e.cls)[i]? = some n →
        p'.eqs[i]? = ((lastFor n.toList xs).map (saidCurve tok)).or p.eqs[i]?) ∧
      (∀ (i : Nat) (n : String), (curveNames e.cls)[i * sharing e.cls]? = some n →
        p'.styles[i]? = ((lastFor n.toList xs).map fun q => codeIn graphStyles q.style).or p.styles[i]?) ∧
      (∀ (i : Nat) (n : String), (curveNames e.cls)[i * sharing e.cls]? = some n → p.tail.isSome →
        (tailColors p')[i]? = ((lastFor n.toList xs).map fun q => codeIn graphColors q.color).or
          (tailColors p)[i]?) := by
  induction xs generalizing p with
  | nil => exact ⟨p, rfl, hp, rfl, rfl, rfl, fun _ _ _ => by simp [lastFor], fun _ _ _ => by simp [lastFor],
      fun _ _ _ _ => by simp [lastFor]⟩
  | cons kv xs ih =>
    obtain ⟨⟨⟨n, hn, hk⟩, hq⟩, hj⟩ := hx kv (by simp)
    obtain ⟨i, hi⟩ := List.mem_iff_getElem?.mp hn
    obtain ⟨hrun, htok⟩ := loadEntry_run hc hp hi hk hq hj
    obtain ⟨hlt, -⟩ := curve_index hc hi
    obtain ⟨-, -, -, -, hsh, hcount, -⟩ := plot_counts hc
    have his : i / sharing e.cls < styleCount e.cls := by
      rw [Nat.div_lt_iff_lt_mul hsh, ← hcount]; exact hlt
    obtain ⟨r, hr⟩ : ∃ r, r = p.replace e.cls i (saidCurve tok kv.2)
      (codeIn graphStyles kv.2.style) (codeIn graphColors kv.2.color) := ⟨_, rfl⟩
    have hfit := replace_fits hp i _ htok (codeIn graphStyles kv.2.style) (codeIn graphColors kv.2.color)
    rw [← hr] at hrun hfit
    obtain ⟨p', g1, g2, g3, g4, g5, g6, g7, g8⟩ :=
      ih (fun kv h => hx kv (List.mem_cons_of_mem _ h)) r hfit
    have hrt : r.tail.isSome = p.tail.isSome := by
      rw [hr]; rcases ht : p.tail with _ | t <;> simp [Plot.replace, ht]
    have hrs : tailSettings r = tailSettings p := by
      rw [hr]; rcases ht : p.tail with _ | t <;> simp [Plot.replace, tailSettings, ht]
    obtain ⟨key, q⟩ := kv
    simp only at hk
    subst hk
    -- what a name says about an index
    have hname : ∀ (k : Nat) (m : String), (curveNames e.cls)[k]? = some m → (n.toList = m.toList ↔ k = i) := by
      intro k m hm
      have hklt : k < (curveNames e.cls).length := (List.getElem?_eq_some_iff.mp hm).1
      constructor
      · intro h
        have : n = m := String.toList_inj.mp h
        exact (List.getElem?_inj hklt (curveNames_nodup hc)).mp (by rw [hm, hi, this])
      · rintro rfl
        rw [hi] at hm
        rw [Option.some.inj hm]
    refine ⟨p', ?_, g2, by rw [g3, hr]; rfl, by rw [g4, hrt], by rw [g5, hrs], ?_, ?_, ?_⟩
    · unfold eachM
      rw [PyM.bind_ok hrun, g1]
      simp
    · intro k m hm
      rw [g6 k m hm]
      simp only [lastFor]
      rcases hl : lastFor m.toList xs with _ | q'
      · simp only [Option.map_none, Option.none_or]
        have hre : r.eqs[k]? = if i = k then some (saidCurve tok q) else p.eqs[k]? := by
          rw [hr]
          simp only [Plot.replace, List.getElem?_set, hp.eqs, hlt, if_true]
        rw [hre]
        by_cases hki : k = i
        · rw [if_pos hki.symm, if_pos ((hname k m hm).mpr hki)]; rfl
        · rw [if_neg (fun h => hki h.symm), if_neg (fun h => hki ((hname k m hm).mp h))]; rfl
      · simp
    · intro k m hm
      rw [g7 k m hm]
      simp only [lastFor]
      rcases hl : lastFor m.toList xs with _ | q'
      · simp only [Option.map_none, Option.none_or]
        have hre : r.styles[k]? = if k * sharing e.cls = i then some (codeIn graphStyles q.style)
            else p.styles[k]? := by
          rw [hr]
          simp only [Plot.replace]
          by_cases hki : k * sharing e.cls = i
          · have hd : i / sharing e.cls = k := by rw [← hki, Nat.mul_div_cancel _ hsh]
            rw [if_pos hki, if_pos (by rw [← hki]; exact Nat.mul_mod_left _ _), hd,
              List.getElem?_set_self (by rw [hp.styles, ← hd]; exact his)]
          · rw [if_neg hki]
            split
            · next hmod =>
              have hne : i / sharing e.cls ≠ k := by
                rintro rfl
                exact hki (Nat.div_mul_cancel (Nat.dvd_of_mod_eq_zero hmod))
              rw [List.getElem?_set_ne hne]
            · rfl
        rw [hre]
        by_cases hki : k * sharing e.cls = i
        · rw [if_pos hki, if_pos ((hname _ m hm).mpr hki)]; rfl
        · rw [if_neg hki, if_neg (fun h => hki ((hname _ m hm).mp h))]; rfl
      · simp
    · intro k m hm hsome
      rw [g8 k m hm (by rw [hrt]; exact hsome)]
      simp only [lastFor]
      rcases hl : lastFor m.toList xs with _ | q'
      · simp only [Option.map_none, Option.none_or]
        obtain ⟨t, ht⟩ := Option.isSome_iff_exists.mp hsome
        have hre : (tailColors r)[k]? = if k * sharing e.cls = i then some (codeIn graphColors q.color)
            else t.colors[k]? := by
          rw [hr]
          simp only [Plot.replace, tailColors, ht]
          by_cases hki : k * sharing e.cls = i
          · have hd : i / sharing e.cls = k := by rw [← hki, Nat.mul_div_cancel _ hsh]
            rw [if_pos hki, if_pos (by rw [← hki]; exact Nat.mul_mod_left _ _), hd,
              List.getElem?_set_self (by rw [(hp.tail t ht).2.1, ← hd]; exact his)]
          · rw [if_neg hki]
            split
            · next hmod =>
              have hne : i / sharing e.cls ≠ k := by
                rintro rfl
                exact hki (Nat.div_mul_cancel (Nat.dvd_of_mod_eq_zero hmod))
              rw [List.getElem?_set_ne hne]
            · rfl
        rw [hre]
        simp only [tailColors, ht]
        by_cases hki : k * sharing e.cls = i
        · rw [if_pos hki, if_pos ((hname _ m hm).mpr hki)]; rfl
        · rw [if_neg hki, if_neg (fun h => hki ((hname _ m hm).mp h))]; rfl
      · simp

end Ent
end Verif
