import Verif.Spec.Picture
import Verif.Proofs.Array
import Mathlib.Tactic.Linarith

/-! Lemmas about pictures. -/

namespace Verif
open Spec

theorem oneByte_ok {n : Nat} (h : n ≤ 255) : oneByte n = .ok [UInt8.ofNat n] := by
  simp [oneByte, h]

/-! ### Black and white -/

theorem l1_bits (a b c d e f g h : Bool) :
    l1Get [UInt8.ofNat ([a, b, c, d, e, f, g, h].foldl (fun acc bit => 2 * acc + bit.toNat) 0)] =
      .ok ([a, b, c, d, e, f, g, h].map fun bit => if bit then 0 else 255) ∧
    [a, b, c, d, e, f, g, h].foldl (fun acc bit => 2 * acc + bit.toNat) 0 ≤ 255 := by
  revert a b c d e f g h
  decide +kernel

theorem l1Set_eight {l : List Int} (h : l.length = 8) : ∃ b : UInt8, l1Set l = .ok [b] ∧
    l1Get [b] = .ok (l.map fun p => if p = 0 then 0 else 255) := by
  have hne : l ≠ [] := by rintro rfl; simp at h
  have hfold : ∀ (l : List Int) (acc : Nat),
      l.foldl (fun acc bit => 2 * acc + if bit ≠ 0 then 0 else 1) acc =
      (l.map fun p => decide (p = 0)).foldl (fun acc bit => 2 * acc + bit.toNat) acc := by
    intro l
    induction l with
    | nil => intro; rfl
    | cons p l ih =>
      intro acc
      simp only [List.foldl_cons, List.map_cons]
      rw [← ih]
      congr 1
      by_cases hp : p = 0 <;> simp [hp]
  obtain ⟨p0, p1, p2, p3, p4, p5, p6, p7, rfl⟩ := length_eight h
  have hb := l1_bits (decide (p0 = 0)) (decide (p1 = 0)) (decide (p2 = 0)) (decide (p3 = 0))
    (decide (p4 = 0)) (decide (p5 = 0)) (decide (p6 = 0)) (decide (p7 = 0))
  refine ⟨UInt8.ofNat ([decide (p0 = 0), decide (p1 = 0), decide (p2 = 0), decide (p3 = 0),
    decide (p4 = 0), decide (p5 = 0), decide (p6 = 0), decide (p7 = 0)].foldl
    (fun acc bit => 2 * acc + bit.toNat) 0), ?_, ?_⟩
  · unfold l1Set
    rw [if_neg hne, hfold]
    exact oneByte_ok hb.2
  · refine hb.1.trans ?_
    simp

/-! ### The palette -/

theorem minBy_spec {α : Type} (key : α → Int) (l : List α) (best : α) :
    minBy key best l ∈ best :: l ∧ ∀ x ∈ best :: l, key (minBy key best l) ≤ key x := by
  induction l generalizing best with
  | nil => simp [minBy]
  | cons y l ih =>
    unfold minBy
    obtain ⟨h1, h2⟩ := ih (if key y < key best then y else best)
    have hb := h2 _ (List.mem_cons_self)
    refine ⟨?_, ?_⟩
    · rcases List.mem_cons.1 h1 with h | h
      · rw [h]; split <;> simp
      · simp [h]
    · intro x hx
      rcases List.mem_cons.1 hx with rfl | hx
      · refine Int.le_trans hb ?_
        split <;> omega
      · rcases List.mem_cons.1 hx with rfl | hx
        · refine Int.le_trans hb ?_
          split <;> omega
        · exact h2 x (by simp [hx])

theorem palette_colours (c : RGB) : c ∈ palette ↔ c ∈ colours := by
  have h1 : ∀ c ∈ palette, c ∈ colours := by decide
  have h2 : ∀ c ∈ colours, c ∈ palette := by decide
  exact ⟨h1 c, h2 c⟩

theorem dist2_nonneg (p q : RGB) : 0 ≤ dist2 p q := by
  have h1 := mul_self_nonneg (p.1 - q.1)
  have h2 := mul_self_nonneg (p.2.1 - q.2.1)
  have h3 := mul_self_nonneg (p.2.2 - q.2.2)
  unfold dist2
  omega

theorem dist2_eq_zero {p q : RGB} (h : dist2 p q ≤ 0) : p = q := by
  have h1 := mul_self_nonneg (p.1 - q.1)
  have h2 := mul_self_nonneg (p.2.1 - q.2.1)
  have h3 := mul_self_nonneg (p.2.2 - q.2.2)
  unfold dist2 at h
  have e1 : p.1 - q.1 = 0 := mul_self_eq_zero.1 (by omega)
  have e2 : p.2.1 - q.2.1 = 0 := mul_self_eq_zero.1 (by omega)
  have e3 : p.2.2 - q.2.2 = 0 := mul_self_eq_zero.1 (by omega)
  obtain ⟨a, b, c⟩ := p
  obtain ⟨d, e, f⟩ := q
  simp only at e1 e2 e3
  have : a = d ∧ b = e ∧ c = f := ⟨by omega, by omega, by omega⟩
  simp [this]

/-- What `nearest` gives. -/
theorem nearest_run (p : RGB) : ∃ c, IsNearest p c ∧
    nearest p () = ⟨.ok c, (), if p ∈ colours then [] else [.paletteApprox]⟩ ∧
    (p ∈ colours → c = p) := by
  have hs := minBy_spec (fun x : RGB => (x.1 - p.1) ^ 2 + (x.2.1 - p.2.1) ^ 2 + (x.2.2 - p.2.2) ^ 2)
    palette.tail (palette.headD (0, 0, 0))
  have hp : palette.headD (0, 0, 0) :: palette.tail = palette := rfl
  rw [hp] at hs
  obtain ⟨c, hc⟩ : ∃ c, c = minBy (fun x : RGB => (x.1 - p.1) ^ 2 + (x.2.1 - p.2.1) ^ 2 +
      (x.2.2 - p.2.2) ^ 2) (palette.headD (0, 0, 0)) palette.tail := ⟨_, rfl⟩
  rw [← hc] at hs
  have hd : ∀ x ∈ palette, dist2 c p ≤ dist2 x p := by
    intro x hx
    have := hs.2 x hx
    simp only [pow_two] at this
    exact this
  have hn : IsNearest p c := ⟨(palette_colours c).1 hs.1, fun d hd' => hd d ((palette_colours d).2 hd')⟩
  have heq : p ∈ colours → c = p := by
    intro h
    have := hn.2 p h
    have h0 : dist2 p p = 0 := by simp [dist2]
    exact dist2_eq_zero (by omega)
  refine ⟨c, hn, ?_, heq⟩
  unfold nearest
  rw [← hc]
  by_cases h : p ∈ colours
  · simp [h, heq h]
  · have : c ≠ p := by rintro rfl; exact h hn.1
    simp [PyM.bind_run, h, this]

theorem palette_idxOf {c : RGB} (h : c ∈ colours) :
    palette.idxOf c ≤ 15 ∧ palette.getD (palette.idxOf c) (0, 0, 0) = c := by
  have : ∀ c ∈ colours, palette.idxOf c ≤ 15 ∧ palette.getD (palette.idxOf c) (0, 0, 0) = c := by
    decide
  exact this c h

theorem nibbles {i j : Nat} (hi : i ≤ 15) (hj : j ≤ 15) : (i <<< 4) + j ≤ 255 ∧
    (UInt8.ofNat ((i <<< 4) + j)).toNat >>> 4 = i ∧ (UInt8.ofNat ((i <<< 4) + j)).toNat &&& 15 = j := by
  have hn : ∀ i ≤ 15, ∀ j ≤ 15, (i <<< 4) + j ≤ 255 ∧ (UInt8.ofNat ((i <<< 4) + j)).toNat >>> 4 = i ∧
      (UInt8.ofNat ((i <<< 4) + j)).toNat &&& 15 = j := by decide +kernel
  exact hn i hi j hj

/-- What `RGBPalette.set` gives. -/
theorem paletteSet_run (p q : RGB) : ∃ (b : UInt8) (c d : RGB),
    paletteSet (p, q) () = ⟨.ok [b], (), (if p ∈ colours then [] else [.paletteApprox]) ++
      if q ∈ colours then [] else [.paletteApprox]⟩ ∧
    paletteGet [b] = .ok [c, d] ∧ IsNearest p c ∧ IsNearest q d ∧ (p ∈ colours → c = p) ∧
    (q ∈ colours → d = q) := by
  obtain ⟨c, hc, hcr, hcp⟩ := nearest_run p
  obtain ⟨d, hd, hdr, hdq⟩ := nearest_run q
  obtain ⟨hc1, hc2⟩ := palette_idxOf hc.1
  obtain ⟨hd1, hd2⟩ := palette_idxOf hd.1
  obtain ⟨i, hi⟩ : ∃ i, i = palette.idxOf c := ⟨_, rfl⟩
  obtain ⟨j, hj⟩ : ∃ j, j = palette.idxOf d := ⟨_, rfl⟩
  rw [← hi] at hc1 hc2
  rw [← hj] at hd1 hd2
  obtain ⟨h1, h2, h3⟩ := nibbles hc1 hd1
  refine ⟨UInt8.ofNat ((i <<< 4) + j), c, d, ?_, ?_, hc, hd, hcp, hdq⟩
  · simp [paletteSet, PyM.bind_run, hcr, hdr, ← hi, ← hj, oneByte_ok h1]
  · simp only [paletteGet, h2, h3, hc2, hd2]

/-! ### RGB565 -/

theorem five_bits {r : Nat} (h : r < 32) : r * 255 / 31 / 8 = r := by omega

theorem six_bits {g : Nat} (h : g < 64) : g * 255 / 63 / 4 = g := by omega

/-- Packing the top five, six and five bits. -/
theorem rgb565Set_run {r g b : Nat} (hr : r < 256) (hg : g < 256) (hb : b < 256) :
    rgb565Set ((r : Int), (g : Int), (b : Int)) =
      .ok [UInt8.ofNat (g / 4 % 8 * 32 + b / 8), UInt8.ofNat (r / 8 * 8 + g / 4 / 8)] := by
  have hlo : ∀ x < 8, ∀ b < 32, x <<< 5 ||| b = x * 32 + b := by decide
  have hhi : ∀ r < 32, ∀ y < 8, r <<< 3 ||| y = r * 8 + y := by decide
  have hand : ∀ g < 64, g &&& 7 = g % 8 := by decide
  show (match oneByte _ with
    | .error x => _
    | .ok lo => _) = _
  have e1 : g >>> 2 = g / 4 := Nat.shiftRight_eq_div_pow g 2
  have e2 : g >>> 5 = g / 4 / 8 := by rw [Nat.shiftRight_eq_div_pow, Nat.div_div_eq_div_mul]
  have e3 : r >>> 3 = r / 8 := Nat.shiftRight_eq_div_pow r 3
  have e4 : b >>> 3 = b / 8 := Nat.shiftRight_eq_div_pow b 3
  rw [e1, e2, e3, e4, hand _ (by omega), hlo _ (by omega) _ (by omega), hhi _ (by omega) _ (by omega),
    oneByte_ok (by omega)]
  simp only
  rw [oneByte_ok (by omega)]
  rfl

theorem rgb565Get_bits {r g b : Nat} (hr : r < 32) (hg : g < 64) (hb : b < 32) (rest : Bytes) :
    rgb565Get (UInt8.ofNat (g % 8 * 32 + b) :: UInt8.ofNat (r * 8 + g / 8) :: rest) =
      .ok (scale565 r g b) := by
  have h1 : (UInt8.ofNat (g % 8 * 32 + b)).toNat = g % 8 * 32 + b := by simp; omega
  have h2 : (UInt8.ofNat (r * 8 + g / 8)).toNat = r * 8 + g / 8 := by simp; omega
  have e1 : (r * 8 + g / 8) >>> 3 = r := by rw [Nat.shiftRight_eq_div_pow]; omega
  have e2 : (g % 8 * 32 + b) >>> 5 = g % 8 := by rw [Nat.shiftRight_eq_div_pow]; omega
  have e3 : ((r * 8 + g / 8) &&& 7) = g / 8 := by
    rw [show (7 : Nat) = 2 ^ 3 - 1 from rfl, Nat.and_two_pow_sub_one_eq_mod]; omega
  have e4 : ((g % 8 * 32 + b) &&& 31) = b := by
    rw [show (31 : Nat) = 2 ^ 5 - 1 from rfl, Nat.and_two_pow_sub_one_eq_mod]; omega
  have e5 : ∀ x < 8, ∀ y < 8, x <<< 3 ||| y = x * 8 + y := by decide
  simp only [rgb565Get, h1, h2, e1, e2, e3, e4]
  rw [e5 _ (by omega) _ (by omega), show g / 8 * 8 + g % 8 = g by omega]
  rfl

/-- Every pair of bytes is packed bits. -/
theorem bytes565 (lo hi : UInt8) : ∃ r g b, r < 32 ∧ g < 64 ∧ b < 32 ∧
    lo = UInt8.ofNat (g % 8 * 32 + b) ∧ hi = UInt8.ofNat (r * 8 + g / 8) := by
  have h1 := lo.toNat_lt
  have h2 := hi.toNat_lt
  refine ⟨hi.toNat / 8, hi.toNat % 8 * 8 + lo.toNat / 32, lo.toNat % 32, by omega, by omega, by omega,
    ?_, ?_⟩
  · apply UInt8.toNat_inj.1
    simp
    omega
  · apply UInt8.toNat_inj.1
    simp
    omega

/-! ### Arrays -/

namespace Ent

theorem mapE_ok {α β : Type} {f : α → Except PyErr β} (g : α → β) (l : List α)
    (h : ∀ a ∈ l, f a = .ok (g a)) : mapE f l = .ok (l.map g) := by
  induction l with
  | nil => rfl
  | cons a as ih => simp [mapE, h a (by simp), ih fun b hb => h b (by simp [hb])]

theorem joinE_ok {α : Type} {f : α → Except PyErr Bytes} (g : α → Bytes) (l : List α)
    (h : ∀ a ∈ l, f a = .ok (g a)) : joinE f l = .ok (l.flatMap g) := by
  simp [joinE, mapE_ok g l h, List.flatMap_def]

theorem flatMap_slice {α β : Type} {n : Nat} (f : α → List β) (l : List α)
    (h : ∀ x ∈ l, (f x).length = n) (i : Nat) (hi : i < l.length) (rest : List β) :
    ∃ more, (l.flatMap f ++ rest).drop (n * i) = f l[i] ++ more := by
  induction l generalizing i with
  | nil => simp at hi
  | cons x xs ih =>
    cases i with
    | zero => exact ⟨xs.flatMap f ++ rest, by simp⟩
    | succ i =>
      obtain ⟨more, hm⟩ := ih (fun y hy => h y (by simp [hy])) i (by simpa using hi)
      refine ⟨more, ?_⟩
      have hx := h x (by simp)
      rw [List.flatMap_cons, List.append_assoc, show n * (i + 1) = (f x).length + n * i by
        rw [hx, Nat.mul_add]; omega]
      rw [List.drop_append, List.drop_eq_nil_of_le (by omega), List.nil_append,
        show (f x).length + n * i - (f x).length = n * i by omega]
      exact hm

/-- The bytes of the item in row `i` and column `j`. -/
theorem grid_slice {β : Type} {rows : List (List β)} {enc : β → Bytes} {k m n : Nat}
    (hs : Shape m n rows) (hl : ∀ row ∈ rows, ∀ x ∈ row, (enc x).length = k)
    {i j : Nat} (hi : i < n) (hj : j < m) :
    ∃ x, (rows[i]?.bind (·[j]?)) = some x ∧ x ∈ (rows.getD i []) ∧
      (((rows.flatMap fun row => row.flatMap enc).drop (k * (m * i + j))).take k) = enc x := by
  have hi' : i < rows.length := by rw [hs.rows]; exact hi
  have hrow := hs.cols rows[i] (List.getElem_mem hi')
  obtain ⟨more, hm⟩ := flatMap_slice (n := k * m) (fun row : List β => row.flatMap enc) rows (by
    intro row hr
    rw [length_flatMap_const enc row (hl row hr), hs.cols row hr, Nat.mul_comm]) i hi' []
  have hj' : j < rows[i].length := by rw [hrow]; exact hj
  obtain ⟨more2, hm2⟩ := flatMap_slice enc rows[i] (hl _ (List.getElem_mem hi')) j hj' more
  have hx := hl _ (List.getElem_mem hi') _ (List.getElem_mem hj')
  refine ⟨rows[i][j], ?_, ?_, ?_⟩
  · rw [List.getElem?_eq_getElem hi', Option.bind_some, List.getElem?_eq_getElem hj']
  · rw [List.getD_eq_getElem?_getD, List.getElem?_eq_getElem hi']
    exact List.getElem_mem hj'
  · rw [List.append_nil] at hm
    rw [Nat.mul_add, ← List.drop_drop, ← Nat.mul_assoc, hm, hm2, List.take_left' hx]

/-- Reading a grid item by item. -/
theorem grid_read {β γ : Type} {rows : List (List β)} {enc : β → Bytes} {get : Bytes → Except PyErr γ}
    {dec : β → γ} {k m m' n : Nat} (hs : Shape m n rows) (hm : m' ≤ m)
    (hl : ∀ row ∈ rows, ∀ x ∈ row, (enc x).length = k)
    (hg : ∀ row ∈ rows, ∀ x ∈ row, get (enc x) = .ok (dec x)) (off : Nat → Nat → Nat)
    (ho : ∀ i j, off i j = k * (m * i + j)) :
    mapE (fun i => mapE (fun j => get
      (((rows.flatMap fun row => row.flatMap enc).drop (off i j)).take k)) (List.range m'))
      (List.range n) = .ok (rows.map fun row => (row.take m').map dec) := by
  have hrow : ∀ i ∈ List.range n, mapE (fun j => get
      (((rows.flatMap fun row => row.flatMap enc).drop (off i j)).take k)) (List.range m') =
      .ok (((rows.getD i []).take m').map dec) := by
    intro i hi
    have hi := List.mem_range.1 hi
    have hi' : i < rows.length := by rw [hs.rows]; exact hi
    have hmem : rows.getD i [] ∈ rows := by
      rw [List.getD_eq_getElem?_getD, List.getElem?_eq_getElem hi']
      exact List.getElem_mem hi'
    have hlen := hs.cols _ hmem
    rcases Nat.eq_zero_or_pos m' with h0 | h0
    · subst h0; rfl
    · obtain ⟨x0, hx0, -⟩ := grid_slice hs hl hi (j := 0) (by omega)
      have hcol : ∀ j ∈ List.range m', get
          (((rows.flatMap fun row => row.flatMap enc).drop (off i j)).take k) =
          .ok (dec ((rows.getD i []).getD j x0)) := by
        intro j hj
        have hj := List.mem_range.1 hj
        obtain ⟨x, hx1, hx2, hx3⟩ := grid_slice hs hl hi (j := j) (by omega)
        rw [ho, hx3, hg _ hmem x hx2]
        congr 2
        rw [List.getElem?_eq_getElem hi', Option.bind_some] at hx1
        rw [List.getD_eq_getElem?_getD, List.getD_eq_getElem?_getD, List.getElem?_eq_getElem hi',
          Option.getD_some, hx1]
        rfl
      rw [mapE_ok _ _ hcol]
      congr 1
      apply List.ext_getElem
      · rw [List.length_map, List.length_map, List.length_range, List.length_take, hlen]; omega
      · intro j h1 h2
        simp at h1
        simp [List.getD_eq_getElem?_getD, List.getElem?_eq_getElem hi']
        rw [List.getElem?_eq_getElem (by
          have : (rows.getD i []).length = rows[i].length := by
            rw [List.getD_eq_getElem?_getD, List.getElem?_eq_getElem hi']; rfl
          omega)]
        rfl
  rw [mapE_ok _ _ hrow]
  congr 1
  apply List.ext_getElem
  · simp [hs.rows]
  · intro i h1 h2
    simp at h1
    have hi' : i < rows.length := by rw [hs.rows]; exact h1
    simp [List.getD_eq_getElem?_getD, List.getElem?_eq_getElem hi']

theorem mapE_flatten {α β : Type} {f : α → Except PyErr (List (List β))} {l : List α}
    {ls : List (List (List β))} (h : mapE f l = .ok ls) :
    mapE (fun a => flattenE (f a)) l = .ok (ls.map List.flatten) := by
  induction l generalizing ls with
  | nil => injection h with h; subst h; rfl
  | cons a as ih =>
    unfold mapE at h
    rcases ha : f a with x | b
    · rw [ha] at h; cases h
    · rw [ha] at h
      rcases hb : mapE f as with x | bs
      · rw [hb] at h; cases h
      · rw [hb] at h
        injection h with h
        subst h
        have := ih hb
        simp only [mapE, ha, this]
        rfl

theorem exists_groups {α : Type} {n : Nat} (m : Nat) (l : List α) (h : l.length = n * m) :
    ∃ gs : List (List α), gs.length = m ∧ (∀ g ∈ gs, g.length = n) ∧ l = gs.flatten := by
  induction m generalizing l with
  | zero => exact ⟨[], rfl, by simp, by simpa using h⟩
  | succ m ih =>
    rw [Nat.mul_succ] at h
    obtain ⟨gs, h1, h2, h3⟩ := ih (l.drop n) (by rw [List.length_drop]; omega)
    refine ⟨l.take n :: gs, by simp [h1], ?_, ?_⟩
    · intro g hg
      rcases List.mem_cons.1 hg with rfl | hg
      · rw [List.length_take]; omega
      · exact h2 g hg
    · rw [List.flatten_cons, ← h3, List.take_append_drop]

theorem chunks_spec {α : Type} {n : Nat} (hn : 0 < n) {m : Nat} {l : List α} (h : l.length = n * m) :
    (chunks n l).length = m ∧ (∀ g ∈ chunks n l, g.length = n) ∧ (chunks n l).flatten = l := by
  obtain ⟨gs, h1, h2, rfl⟩ := exists_groups m l h
  have := chunks_flatMap hn id gs h2
  simp only [List.flatMap_id, List.map_id] at this
  rw [this]
  exact ⟨h1, h2, rfl⟩

theorem mapW_warns {α β : Type} {f : α → PyM Unit β} (g : α → β) (w : α → List Warn) (l : List α)
    (h : ∀ a ∈ l, f a () = ⟨.ok (g a), (), w a⟩) :
    mapW f l () = ⟨.ok (l.map g), (), l.flatMap w⟩ := by
  induction l with
  | nil => rfl
  | cons a as ih =>
    simp [mapW, PyM.bind_run, h a (by simp), ih fun b hb => h b (by simp [hb])]

/-- `zip(row[::2], row[1::2])`. -/
def pairs {α : Type} (row : List α) : List (α × α) := (every2 row).zip (every2 (row.drop 1))

theorem pairs_cons {α : Type} (a b : α) (l : List α) : pairs (a :: b :: l) = (a, b) :: pairs l := by
  cases l with
  | nil => rfl
  | cons c l => cases l <;> rfl

theorem pairs_spec {α : Type} (m : Nat) (l : List α) (h : l.length = 2 * m) :
    (pairs l).length = m ∧ (pairs l).flatMap (fun p => [p.1, p.2]) = l := by
  induction m generalizing l with
  | zero =>
    have : l = [] := by simpa using h
    subst this
    exact ⟨rfl, rfl⟩
  | succ m ih =>
    match l, h with
    | a :: b :: l, h =>
      obtain ⟨h1, h2⟩ := ih l (by simp at h; omega)
      rw [pairs_cons]
      exact ⟨by simp [h1], by simp [h2]⟩
    | [_], h => simp at h; omega
    | [], h => simp at h

/-! ### Storing -/

theorem getVersion_picture {V : Type} [LinearOrder V] (env : Env V) {e : Ent} (d : Bytes)
    (h : e.cls = .monoPicture ∨ e.cls = .picture ∨ e.cls = .image) :
    getVersion env e d = ([], .ok (e.cls.versions.headD 0)) := by
  rw [getVersion_eq]
  unfold getVersionN
  rcases h with h | h | h <;> simp [h]

/-- Assigning data to a sized entry whose data starts after some leading bytes. -/
theorem setData_lead {gv : GetVersion} {value : Bytes} {e : Ent} {d : Bytes} {ws : List Warn} {v : Nat}
    (hz : e.cls.isSized = true) (h1 : lengthStart e.cls = 0) (h2 : 2 ≤ dataStart e.cls)
    (hb : e.body = ⟨true, d⟩) (hd : dataStart e.cls ≤ d.length) (hn : value.length < 65536)
    (hg : gv { e with body := ⟨true, toLE 2 value.length ++ d.drop 2⟩ } value = (ws, .ok v)) :
    setData gv value e = ⟨.ok (),
      { e with
        version := [UInt8.ofNat v]
        body := ⟨true, toLE 2 value.length ++ (d.drop 2).take (dataStart e.cls - 2) ++ value⟩ },
      ws ++ if e.metaLength = 11 then [.flashlessVersion] else []⟩ := by
  have hp := dataPut_ok (e := { e with
      version := [UInt8.ofNat v]
      body := ⟨true, toLE 2 value.length ++ d.drop 2⟩ }) (value := value) rfl
      (by simp; omega) e.cls rfl
  have ht : (toLE 2 value.length ++ d.drop 2).take (dataStart e.cls) =
      toLE 2 value.length ++ (d.drop 2).take (dataStart e.cls - 2) := by
    rw [List.take_append, List.take_of_length_le (by rw [length_toLE]; exact h2), length_toLE]
  simp only [ht] at hp
  have hm : ({ e with body := ⟨true, toLE 2 value.length ++ d.drop 2⟩ } : Ent).metaLength =
      e.metaLength := rfl
  simp only [setData, PyM.bind_run, PyM.get_run, hz, if_true, setLength_ok h1 hb (by omega) hn,
    updateVersion_ok hg, hm]
  rw [hp]
  simp

end Ent
end Verif
