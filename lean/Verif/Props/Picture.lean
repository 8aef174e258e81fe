import Verif.Proofs.Picture
import Verif.Spec.Sample

/-! Property theorems about pictures (C54–C57, C71). -/

namespace Verif
open Spec Ent
variable {V : Type} [LinearOrder V]

/-! ### C54 – pixel converters -/

/-- C54, black and white: every byte reads as eight pixels in {0, 255} that are stored as the same
byte. -/
theorem C54_l1 (b : UInt8) : ∃ l, l1Get [b] = .ok l ∧ l.length = 8 ∧ (∀ p ∈ l, IsBW p) ∧
    l1Set l = .ok [b] := by
  have h : ∀ n : Fin 256, ∃ l, l1Get [UInt8.ofNat n] = .ok l ∧ l.length = 8 ∧
      (∀ p ∈ l, p = 0 ∨ p = 255) ∧ l1Set l = .ok [UInt8.ofNat n] := by
    have : ∀ n : Fin 256, (match l1Get [UInt8.ofNat n] with
      | .ok l => decide (l.length = 8) && l.all (fun p => p = 0 || p = 255) &&
          decide (l1Set l = .ok [UInt8.ofNat n])
      | .error _ => false) = true := by decide +kernel
    intro n
    have := this n
    split at this
    · rename_i l hl
      simp only [Bool.and_eq_true, decide_eq_true_eq, List.all_eq_true, Bool.or_eq_true] at this
      exact ⟨l, hl, this.1.1, this.1.2, this.2⟩
    · cases this
  have := h ⟨b.toNat, b.toNat_lt⟩
  simpa [IsBW] using this

/-- C54, black and white, the other direction: eight pixels in {0, 255} are stored in one byte and
read back. -/
theorem C54_l1_pixels (l : List Int) (hl : l.length = 8) (hp : ∀ p ∈ l, IsBW p) :
    ∃ b, l1Set l = .ok [b] ∧ l1Get [b] = .ok l := by
  obtain ⟨b, h1, h2⟩ := l1Set_eight hl
  refine ⟨b, h1, h2.trans ?_⟩
  congr 1
  rw [List.map_congr_left (g := id) (fun p hp' => by rcases hp p hp' with rfl | rfl <;> simp),
    List.map_id]

example : l1Get [0xA1] = .ok [0, 255, 0, 255, 255, 255, 255, 0] ∧
    l1Set [0, 255, 0, 255, 255, 255, 255, 0] = .ok [0xA1] := by decide

/-- C54, RGB565: every pair of bytes reads as a colour that is stored as the same bytes. -/
theorem C54_rgb565 (lo hi : UInt8) : ∃ p, rgb565Get [lo, hi] = .ok p ∧ Is565 p ∧
    rgb565Set p = .ok [lo, hi] := by
  obtain ⟨r, g, b, hr, hg, hb, rfl, rfl⟩ := bytes565 lo hi
  refine ⟨_, rgb565Get_bits hr hg hb [], ⟨r, g, b, hr, hg, hb, rfl⟩, ?_⟩
  have := rgb565Set_run (r := r * 255 / 31) (g := g * 255 / 63) (b := b * 255 / 31) (by omega)
    (by omega) (by omega)
  rw [five_bits hr, six_bits hg, five_bits hb] at this
  exact this

example : rgb565Get [0x1F, 0xF9] = .ok (255, 32, 255) ∧ rgb565Set (255, 32, 255) = .ok [0x1F, 0xF9] := by
  decide

/-- C54, palette: every byte reads as the two colours of the calculator with the numbers in its upper and lower half,
which are stored without a warning as a byte that reads as the same two colours. -/
theorem C54_palette (b : UInt8) : ∃ p q b', paletteGet [b] = .ok [p, q] ∧ p = colourOf (b.toNat / 16) ∧ q = colourOf (b.toNat % 16) ∧
    p ∈ colours ∧ q ∈ colours ∧ paletteSet (p, q) () = ⟨.ok [b'], (), []⟩ ∧ paletteGet [b'] = .ok [p, q] := by
  have hno : ∀ i < 16, palette.getD i (0, 0, 0) = colourOf i := by decide
  have hall : ∀ i < 16, palette.getD i (0, 0, 0) ∈ colours := by decide
  have h1 : b.toNat >>> 4 < 16 := by
    have := b.toNat_lt
    rw [Nat.shiftRight_eq_div_pow]; omega
  have h2 : b.toNat &&& 15 < 16 := by
    rw [show (15 : Nat) = 2 ^ 4 - 1 from rfl, Nat.and_two_pow_sub_one_eq_mod]; omega
  obtain ⟨b', c, d, hs, hg, -, -, hc, hd⟩ := paletteSet_run (palette.getD (b.toNat >>> 4) (0, 0, 0))
    (palette.getD (b.toNat &&& 15) (0, 0, 0))
  rw [hc (hall _ h1), hd (hall _ h2)] at hg
  refine ⟨_, _, b', rfl, (hno _ h1).trans ?_, (hno _ h2).trans ?_, hall _ h1, hall _ h2, ?_, hg⟩
  · rw [Nat.shiftRight_eq_div_pow]
  · rw [show (15 : Nat) = 2 ^ 4 - 1 from rfl, Nat.and_two_pow_sub_one_eq_mod]
  rw [hs, if_pos (hall _ h1), if_pos (hall _ h2)]
  rfl

/-- White has two numbers in the palette: the byte may change, the colours do not. -/
example : paletteGet [0xB2] = .ok [(255, 255, 255), (255, 0, 0)] ∧
    paletteSet ((255, 255, 255), (255, 0, 0)) () = ⟨.ok [0x02], (), []⟩ := by decide +kernel

/-! ### C55 – the nearest colour -/

/-- C55. For every triple of integers the colour chosen is one of the calculator's and none of them is
closer; the warning is emitted exactly when the triple is not itself such a colour, and
otherwise the triple is chosen. -/
theorem C55_nearest (p : RGB) : ∃ c ws, nearest p () = ⟨.ok c, (), ws⟩ ∧ IsNearest p c ∧
    (ws = [.paletteApprox] ∨ ws = []) ∧ (.paletteApprox ∈ ws ↔ p ∉ colours) ∧
    (p ∈ colours → c = p) := by
  obtain ⟨c, h1, h2, h3⟩ := nearest_run p
  refine ⟨c, _, h2, h1, ?_, ?_, h3⟩
  · split <;> simp
  · split <;> simp [*]

example : nearest (200, 40, -20) () = ⟨.ok (182, 32, 0), (), [.paletteApprox]⟩ ∧
    nearest (0, 158, 0) () = ⟨.ok (0, 158, 0), (), []⟩ := by decide +kernel

/-! ### C56 – arrays -/

/-- The encoded pixels of a row of a mono picture. -/
theorem mono_enc : ∃ enc : List Int → Bytes, ∀ l, l.length = 8 → l1Set l = .ok (enc l) ∧
    (enc l).length = 1 ∧ l1Get (enc l) = .ok (l.map fun p => if p = 0 then 0 else 255) := by
  refine ⟨fun l => match l1Set l with
    | .ok b => b
    | .error _ => [], fun l hl => ?_⟩
  obtain ⟨b, h1, h2⟩ := l1Set_eight hl
  simp only [h1]
  exact ⟨trivial, rfl, h2⟩

theorem map_flatten_take {α β : Type} {f : α → β} {gs : List (List α)} {n : Nat} (h : gs.length ≤ n) :
    ((gs.take n).map (List.map f)).flatten = gs.flatten.map f := by
  rw [List.take_of_length_le h, List.map_flatten]

/-- C56, mono pictures: an array of 63 rows of 96 pixels is stored in 756 bytes, as the length field
says, and reads back with every nonzero pixel white; in particular an array of pixels in {0, 255} reads back
unchanged. -/
theorem C56_mono (env : Env V) (e : Ent) (arr : List (List Int)) (hc : e.cls = .monoPicture)
    (hm : e.body.mutable = true) (hb : 2 ≤ e.body.bytes.length) (hs : Shape 96 63 arr) :
    ∃ e' ws, loadMono env arr e = ⟨.ok (), e', ws⟩ ∧ e'.cls = e.cls ∧ e'.name = e.name ∧
      e'.typeId = e.typeId ∧ e'.metaLen = e.metaLen ∧ e'.archived = e.archived ∧ e'.version = [0x00] ∧
      e'.body.mutable = true ∧ e'.body.bytes.length = 758 ∧ fromLE (e'.body.bytes.take 2) = 756 ∧
      monoArray e' = .ok (arr.map fun row => row.map fun p => if p = 0 then 0 else 255) ∧
      ((∀ row ∈ arr, ∀ p ∈ row, IsBW p) → monoArray e' = .ok arr) := by
  obtain ⟨enc, henc⟩ := mono_enc
  have hch : ∀ row ∈ arr, (chunks 8 row).length = 12 ∧ (∀ g ∈ chunks 8 row, g.length = 8) ∧
      (chunks 8 row).flatten = row := fun row hr => chunks_spec (by omega) (hs.cols row hr)
  have hs' : Shape 12 63 (arr.map (chunks 8)) := by
    refine ⟨by rw [List.length_map]; exact hs.rows, ?_⟩
    intro r hr
    obtain ⟨row, hrow, rfl⟩ := List.mem_map.1 hr
    exact (hch row hrow).1
  have h8 : ∀ r ∈ arr.map (chunks 8), ∀ g ∈ r, g.length = 8 := by
    intro r hr
    obtain ⟨row, hrow, rfl⟩ := List.mem_map.1 hr
    exact (hch row hrow).2.1
  have hd : joinE monoRow arr =
      .ok ((arr.map (chunks 8)).flatMap fun row => row.flatMap enc) := by
    rw [joinE_ok (fun row => (chunks 8 row).flatMap enc) arr, List.flatMap_map]
    intro row hr
    have : row.length % 8 = 0 := by rw [hs.cols row hr]
    simp only [monoRow, strictChunks, this, if_true]
    exact joinE_ok enc _ fun g hg => (henc g ((hch row hr).2.1 g hg)).1
  obtain ⟨d, hdd⟩ : ∃ d, d = (arr.map (chunks 8)).flatMap fun row => row.flatMap enc := ⟨_, rfl⟩
  have hlen : d.length = 756 := by
    rw [hdd, length_flatMap_const (n := 12) _ _ (fun r hr => by
      rw [length_flatMap_const (n := 1) _ _ fun g hg => (henc g (h8 r hr g hg)).2.1, hs'.cols r hr]),
      hs'.rows]
  have hset := setData_ok (gv := getVersion env) (value := d) (e := e) (d := e.body.bytes)
    (by rw [hc]; decide) (by rw [hc]; decide) (by rw [hc]; decide) (by rw [← hm]) hb (by omega)
    (getVersion_picture env d (Or.inl hc))
  have hread := grid_read (m' := 12) hs' (Nat.le_refl _)
    (fun r hr g hg => (henc g (h8 r hr g hg)).2.1) (fun r hr g hg => (henc g (h8 r hr g hg)).2.2)
    (fun i j => 12 * i + j) (fun i j => by simp)
  rw [← hdd] at hread hd
  have hread2 := mapE_flatten hread
  have harr : ∀ e' : Ent, e'.cls = .monoPicture → e'.body.bytes = toLE 2 d.length ++ d →
      monoArray e' = .ok (arr.map fun row => row.map fun p => if p = 0 then 0 else 255) := by
    intro e' hc' hb'
    have hdata : e'.data = d := by
      unfold data
      rw [hc', hb', show dataStart .monoPicture = 2 by decide]
      exact List.drop_left' (length_toLE 2 _)
    unfold monoArray
    rw [hdata]
    refine hread2.trans ?_
    rw [List.map_map, List.map_map]
    congr 1
    apply List.map_congr_left
    intro row hr
    have hrow := hch row hr
    simp only [Function.comp_apply]
    rw [map_flatten_take (by omega), hrow.2.2]
  have hrun : loadMono env arr e = setData (getVersion env) d e := by
    unfold loadMono
    rw [hd, PyM.bind_run, PyM.ofExcept_run]
    simp
  rw [hset] at hrun
  refine ⟨_, _, hrun, rfl, rfl, rfl, rfl, rfl, by rw [hc]; rfl, rfl, ?_, ?_, harr _ hc rfl, ?_⟩
  · simp [hlen]
  · show fromLE ((toLE 2 d.length ++ d).take 2) = 756
    rw [List.take_left' (length_toLE 2 _), hlen]
    decide
  · intro hbw
    rw [harr { e with
      version := [UInt8.ofNat (e.cls.versions.headD 0)]
      body := ⟨true, toLE 2 d.length ++ d⟩ } hc rfl]
    congr 1
    rw [List.map_congr_left (g := id) (fun row hr => ?_), List.map_id]
    rw [List.map_congr_left (g := id) (fun p hp => ?_), List.map_id]
    · rfl
    · rcases hbw row hr p hp with rfl | rfl <;> simp

/-- A small mono picture is not accepted. -/
example : loadMono sampleEnv [[0, 255, 0]] ⟨.monoPicture, [0x0D, 0x00], [0x07], [0x60, 0, 0, 0, 0, 0, 0, 0], [0],
    [0x80], ⟨true, [0, 0]⟩⟩ = ⟨.error .valueError, ⟨.monoPicture, [0x0D, 0x00], [0x07], [0x60, 0, 0, 0, 0, 0, 0, 0],
    [0], [0x80], ⟨true, [0, 0]⟩⟩, []⟩ := by decide +kernel

/-- A picture with a black column is an array of the required shape, and how one of its rows is stored. -/
example : Shape 96 63 (List.replicate 63 (0 :: List.replicate 95 (255 : Int))) ∧
    monoRow (0 :: List.replicate 95 255) = .ok (0x80 :: List.replicate 11 0x00) := by
  refine ⟨⟨by simp, fun row h => ?_⟩, by decide +kernel⟩
  rw [List.eq_of_mem_replicate h]
  rfl

/-- The encoded pairs of colours. -/
theorem picture_enc : ∃ (enc : RGB × RGB → Bytes) (dec : RGB → RGB), (∀ p, IsNearest p (dec p)) ∧
    (∀ p ∈ colours, dec p = p) ∧ ∀ p q, (enc (p, q)).length = 1 ∧
    paletteGet (enc (p, q)) = .ok [dec p, dec q] ∧
    paletteSet (p, q) () = ⟨.ok (enc (p, q)), (), (if p ∈ colours then [] else [.paletteApprox]) ++
      if q ∈ colours then [] else [.paletteApprox]⟩ := by
  refine ⟨fun x => match (paletteSet x ()).res with
    | .ok b => b
    | .error _ => [], fun p => match (nearest p ()).res with
    | .ok c => c
    | .error _ => p, fun p => ?_, fun p hp => ?_, fun p q => ?_⟩
  · obtain ⟨c, h1, h2, h3⟩ := nearest_run p
    simp only [h2]
    exact h1
  · obtain ⟨c, h1, h2, h3⟩ := nearest_run p
    simp only [h2]
    exact h3 hp
  · obtain ⟨c, hc, hcr, hcp⟩ := nearest_run p
    obtain ⟨d, hd, hdr, hdq⟩ := nearest_run q
    obtain ⟨hc1, hc2⟩ := palette_idxOf hc.1
    obtain ⟨hd1, hd2⟩ := palette_idxOf hd.1
    obtain ⟨h1, h2, h3⟩ := nibbles hc1 hd1
    have hs : paletteSet (p, q) () = ⟨.ok [UInt8.ofNat ((palette.idxOf c <<< 4) + palette.idxOf d)], (),
        (if p ∈ colours then [] else [.paletteApprox]) ++
          if q ∈ colours then [] else [.paletteApprox]⟩ := by
      simp [paletteSet, PyM.bind_run, hcr, hdr, oneByte_ok h1]
    simp only [hs, hcr, hdr]
    refine ⟨rfl, ?_, trivial⟩
    simp only [paletteGet, h2, h3, hc2, hd2]

theorem flatMap_pair {α β : Type} (f : α → β) (l : List (α × α)) :
    (l.map fun p => [f p.1, f p.2]).flatten = (l.flatMap fun p => [p.1, p.2]).map f := by
  induction l with
  | nil => rfl
  | cons p l ih => simp [ih]

theorem mapE_valueError {α β : Type} {f : α → Except PyErr β} {l : List α} (h : ∀ a ∈ l, (∃ b, f a = .ok b) ∨ f a = .error .valueError)
    {a : α} (ha : a ∈ l) (hf : f a = .error .valueError) : mapE f l = .error .valueError := by
  induction l with
  | nil => cases ha
  | cons x xs ih =>
    rcases h x List.mem_cons_self with ⟨b, hb⟩ | hx
    · rcases List.mem_cons.1 ha with rfl | ha
      · rw [hf] at hb; cases hb
      · simp [mapE, hb, ih (fun a h' => h a (List.mem_cons_of_mem _ h')) ha]
    · simp [mapE, hx]

/-- C56, mono pictures: an array with a row whose length is no multiple of eight is refused. -/
theorem C56_mono_uneven (env : Env V) (e : Ent) (arr : List (List Int)) {row : List Int} (hr : row ∈ arr)
    (hl : row.length % 8 ≠ 0) : loadMono env arr e = ⟨.error .valueError, e, []⟩ := by
  have hrow : ∀ r : List Int, (∃ b, monoRow r = .ok b) ∨ monoRow r = .error .valueError := by
    intro r
    by_cases h : r.length % 8 = 0
    · obtain ⟨enc, henc⟩ := mono_enc
      left
      have hc := chunks_spec (l := r) (n := 8) (m := r.length / 8) (by omega) (by omega)
      refine ⟨(chunks 8 r).flatMap enc, ?_⟩
      · simp only [monoRow, strictChunks, h, if_true]
        exact joinE_ok enc _ fun g hg => (henc g (hc.2.1 g hg)).1
    · right; simp [monoRow, strictChunks, h]
  have := mapE_valueError (f := monoRow) (fun a _ => hrow a) hr (by simp [monoRow, strictChunks, hl])
  simp [loadMono, joinE, this, PyM.bind_run, PyM.ofExcept_run]

example : loadMono sampleEnv [List.replicate 96 0, List.replicate 95 0] sampleAppVar = ⟨.error .valueError, sampleAppVar, []⟩ :=
  C56_mono_uneven _ _ _ (List.mem_cons_of_mem _ List.mem_cons_self) (by decide)

/-- C56, colour pictures: an array of 165 rows of 266 pixels is stored in 21945 bytes, as the length
field says, and reads back with every pixel replaced by a nearest colour of the calculator; a warning is
emitted exactly if some pixel is not such a colour, and otherwise the array reads back unchanged. -/
theorem C56_picture (env : Env V) (e : Ent) (arr : List (List RGB)) (hc : e.cls = .picture)
    (hm : e.body.mutable = true) (hb : 2 ≤ e.body.bytes.length) (hs : Shape 266 165 arr) :
    ∃ e' ws out, loadPicture env arr e = ⟨.ok (), e', ws⟩ ∧ e'.cls = e.cls ∧ e'.name = e.name ∧
      e'.typeId = e.typeId ∧ e'.metaLen = e.metaLen ∧ e'.archived = e.archived ∧ e'.version = [0x0A] ∧
      e'.body.mutable = true ∧ e'.body.bytes.length = 21947 ∧ fromLE (e'.body.bytes.take 2) = 21945 ∧
      pictureArray e' = .ok out ∧ List.Forall₂ (List.Forall₂ IsNearest) arr out ∧
      (.paletteApprox ∈ ws ↔ ∃ row ∈ arr, ∃ p ∈ row, p ∉ colours) ∧
      ((∀ row ∈ arr, ∀ p ∈ row, p ∈ colours) → out = arr) := by
  obtain ⟨enc, dec, hdec, hdec2, henc⟩ := picture_enc
  have hch : ∀ row ∈ arr, (pairs row).length = 133 ∧
      (pairs row).flatMap (fun p => [p.1, p.2]) = row := fun row hr => pairs_spec 133 row (hs.cols row hr)
  have hs' : Shape 133 165 (arr.map pairs) := by
    refine ⟨by rw [List.length_map]; exact hs.rows, ?_⟩
    intro r hr
    obtain ⟨row, hrow, rfl⟩ := List.mem_map.1 hr
    exact (hch row hrow).1
  obtain ⟨d, hdd⟩ : ∃ d, d = (arr.map pairs).flatMap fun row => row.flatMap enc := ⟨_, rfl⟩
  have hlen : d.length = 21945 := by
    rw [hdd, length_flatMap_const (n := 133) _ _ (fun r hr => by
      rw [length_flatMap_const (n := 1) _ _ fun g _ => (henc g.1 g.2).1, hs'.cols r hr]),
      hs'.rows]
  have hwarn := mapW_warns (f := paletteSet) enc (fun g => (if g.1 ∈ colours then [] else [.paletteApprox]) ++
      if g.2 ∈ colours then [] else [.paletteApprox]) (arr.flatMap pairs)
    (fun g _ => by obtain ⟨p, q⟩ := g; exact (henc p q).2.2)
  have hset := setData_ok (gv := getVersion env) (value := d) (e := e) (d := e.body.bytes)
    (by rw [hc]; decide) (by rw [hc]; decide) (by rw [hc]; decide) (by rw [← hm]) hb (by omega)
    (getVersion_picture env d (Or.inr (Or.inl hc)))
  have hread := mapE_flatten (grid_read (m' := 133) (get := paletteGet) (dec := fun g => [dec g.1, dec g.2]) hs'
    (Nat.le_refl _) (fun r _ g _ => (henc g.1 g.2).1) (fun r _ g _ => (henc g.1 g.2).2.1)
    (fun i j => 133 * i + j) (fun i j => by simp))
  rw [← hdd] at hread
  have harr : ∀ e' : Ent, e'.cls = .picture → e'.body.bytes = toLE 2 d.length ++ d →
      pictureArray e' = .ok (arr.map fun row => row.map dec) := by
    intro e' hc' hb'
    have hdata : e'.data = d := by
      unfold data
      rw [hc', hb', show dataStart .picture = 2 by decide]
      exact List.drop_left' (length_toLE 2 _)
    unfold pictureArray
    rw [hdata]
    refine hread.trans ?_
    rw [List.map_map, List.map_map]
    congr 1
    apply List.map_congr_left
    intro row hr
    have hrow := hch row hr
    simp only [Function.comp_apply]
    rw [List.take_of_length_le (by omega), flatMap_pair, hrow.2]
  have hflat : ((arr.flatMap pairs).map enc).flatten = d := by
    rw [hdd, ← List.flatMap_def, List.flatMap_assoc, List.flatMap_map]
  have hrun : loadPicture env arr e = ⟨(setData (getVersion env) d e).res, (setData (getVersion env) d e).st,
      ((arr.flatMap pairs).flatMap fun g => (if g.1 ∈ colours then [] else [.paletteApprox]) ++
      if g.2 ∈ colours then [] else [.paletteApprox]) ++ (setData (getVersion env) d e).warns⟩ := by
    unfold loadPicture
    have : (arr.flatMap fun row => (every2 row).zip (every2 (row.drop 1))) = arr.flatMap pairs := rfl
    rw [this, hwarn]
    simp [PyM.bind_run, hflat]
  rw [hset] at hrun
  refine ⟨_, _, _, hrun, rfl, rfl, rfl, rfl, rfl, by rw [hc]; rfl, rfl, ?_, ?_, harr _ hc rfl, ?_, ?_, ?_⟩
  · simp [hlen]
  · show fromLE ((toLE 2 d.length ++ d).take 2) = 21945
    rw [List.take_left' (length_toLE 2 _), hlen]
    decide
  · rw [List.forall₂_map_right_iff]
    apply List.forall₂_same.2
    intro row _
    rw [List.forall₂_map_right_iff]
    exact List.forall₂_same.2 fun p _ => hdec p
  · constructor
    · intro h
      rcases List.mem_append.1 h with h | h
      · obtain ⟨g, hg, hw⟩ := List.mem_flatMap.1 h
        obtain ⟨row, hr, hg⟩ := List.mem_flatMap.1 hg
        have hmem : ∀ p ∈ [g.1, g.2], p ∈ row := by
          intro p hp
          rw [← (hch row hr).2]
          exact List.mem_flatMap.2 ⟨g, hg, hp⟩
        rcases List.mem_append.1 hw with hw | hw
        · exact ⟨row, hr, g.1, hmem _ (by simp), by intro hcol; simp [hcol] at hw⟩
        · exact ⟨row, hr, g.2, hmem _ (by simp), by intro hcol; simp [hcol] at hw⟩
      · simp at h
    · rintro ⟨row, hr, p, hp, hcol⟩
      rw [← (hch row hr).2] at hp
      obtain ⟨g, hg, hp⟩ := List.mem_flatMap.1 hp
      refine List.mem_append_left _ (List.mem_flatMap.2 ⟨g, List.mem_flatMap.2 ⟨row, hr, hg⟩, ?_⟩)
      simp only [List.mem_cons, List.not_mem_nil, or_false] at hp
      rcases hp with rfl | rfl <;> simp [hcol]
  · intro hcol
    rw [List.map_congr_left (g := id) (fun row hr => ?_), List.map_id]
    rw [List.map_congr_left (g := id) (fun p hp => hdec2 p (hcol row hr p hp)), List.map_id]
    rfl

/-- A pixel that is not in the palette is approximated. -/
example : (mapW paletteSet (pairs [(255, 0, 0), (250, 0, 0), (0, 158, 0), (0, 0, 0)]) ()) =
    ⟨.ok [[0x22], [0x53]], (), [.paletteApprox]⟩ := by decide +kernel

/-- The encoded colours of an image. -/
theorem image_enc : ∃ (enc : RGB → Bytes) (dec : RGB → RGB), ∀ p, IsByteColour p →
    rgb565Set p = .ok (enc p) ∧ (enc p).length = 2 ∧ rgb565Get (enc p) = .ok (dec p) ∧
      Trunc565 p (dec p) ∧ (Is565 p → dec p = p) := by
  refine ⟨fun p => match rgb565Set p with
    | .ok b => b
    | .error _ => [], fun p => scale565 (p.1.toNat / 8) (p.2.1.toNat / 4) (p.2.2.toNat / 8), ?_⟩
  rintro ⟨r, g, b⟩ ⟨⟨hr, hr2⟩, ⟨hg, hg2⟩, hb, hb2⟩
  simp only at hr hr2 hg hg2 hb hb2
  obtain ⟨r, rfl⟩ := Int.eq_ofNat_of_zero_le hr
  obtain ⟨g, rfl⟩ := Int.eq_ofNat_of_zero_le hg
  obtain ⟨b, rfl⟩ := Int.eq_ofNat_of_zero_le hb
  have hset := rgb565Set_run (r := r) (g := g) (b := b) (by omega) (by omega) (by omega)
  have hget := rgb565Get_bits (r := r / 8) (g := g / 4) (b := b / 8) (by omega) (by omega) (by omega) []
  simp only [hset, Int.toNat_natCast]
  refine ⟨trivial, rfl, hget, ⟨r, g, b, by omega, by omega, by omega, rfl, rfl⟩, ?_⟩
  rintro ⟨r', g', b', h1, h2, h3, h4⟩
  simp only [scale565, Prod.mk.injEq] at h4
  obtain ⟨h5, h6, h7⟩ := h4
  have h5 : r = r' * 255 / 31 := by exact_mod_cast h5
  have h6 : g = g' * 255 / 63 := by exact_mod_cast h6
  have h7 : b = b' * 255 / 31 := by exact_mod_cast h7
  have e1 : r / 8 = r' := by rw [h5]; exact five_bits h1
  have e2 : g / 4 = g' := by rw [h6]; exact six_bits h2
  have e3 : b / 8 = b' := by rw [h7]; exact five_bits h3
  rw [e1, e2, e3, h5, h6, h7]
  rfl

theorem is565_byte {p : RGB} (h : Is565 p) : IsByteColour p := by
  obtain ⟨r, g, b, h1, h2, h3, rfl⟩ := h
  unfold IsByteColour scale565
  simp only
  omega

/-- What loading an array into an image does. -/
theorem image_store (env : Env V) (e : Ent) (arr : List (List RGB)) (hc : e.cls = .image)
    (hm : e.body.mutable = true) (hb : 3 ≤ e.body.bytes.length) (hs : Shape 133 83 arr)
    (hp : ∀ row ∈ arr, ∀ p ∈ row, IsByteColour p) :
    ∃ d out, loadImage env arr e = ⟨.ok (), { e with
        version := [0x00]
        body := ⟨true, toLE 2 22244 ++ (e.body.bytes.drop 2).take 1 ++ d⟩ },
        if e.metaLength = 11 then [.flashlessVersion] else []⟩ ∧ d.length = 22244 ∧
      (∀ e' : Ent, e'.cls = .image → e'.body.bytes.drop 3 = d → imageArray e' = .ok out) ∧
      List.Forall₂ (List.Forall₂ Trunc565) arr out ∧
      ((∀ row ∈ arr, ∀ p ∈ row, Is565 p) → out = arr) := by
  obtain ⟨enc, dec, henc⟩ := image_enc
  have hrows : ∀ row ∈ (arr.reverse.map (· ++ [((0, 0, 0) : RGB)])), row.length = 134 ∧
      ∀ p ∈ row, IsByteColour p := by
    intro r hr
    obtain ⟨row, hrow, rfl⟩ := List.mem_map.1 hr
    have hrow := List.mem_reverse.1 hrow
    refine ⟨by simp [hs.cols row hrow], ?_⟩
    intro p hp'
    rcases List.mem_append.1 hp' with h | h
    · exact hp row hrow p h
    · simp only [List.mem_singleton] at h
      subst h
      simp [IsByteColour]
  have hs' : Shape 134 83 (arr.reverse.map (· ++ [((0, 0, 0) : RGB)])) :=
    ⟨by simp [hs.rows], fun r hr => (hrows r hr).1⟩
  obtain ⟨d, hdd⟩ : ∃ d, d = (arr.reverse.map (· ++ [((0, 0, 0) : RGB)])).flatMap
      fun row => row.flatMap enc := ⟨_, rfl⟩
  have hd : joinE (fun row => joinE rgb565Set (row ++ [(0, 0, 0)])) arr.reverse = .ok d := by
    rw [joinE_ok (fun row => (row ++ [((0, 0, 0) : RGB)]).flatMap enc) arr.reverse, hdd, List.flatMap_map]
    intro row hr
    exact joinE_ok enc _ fun p hp' => (henc p ((hrows _ (List.mem_map.2 ⟨row, hr, rfl⟩)).2 p hp')).1
  have hlen : d.length = 22244 := by
    rw [hdd, length_flatMap_const (n := 268) _ _ (fun r hr => by
      rw [length_flatMap_const (n := 2) _ _ fun p hp' => (henc p ((hrows r hr).2 p hp')).2.1, (hrows r hr).1]),
      hs'.rows]
  have hds : dataStart e.cls = 3 := by rw [hc]; decide
  have hset := setData_lead (gv := getVersion env) (value := d) (e := e) (d := e.body.bytes)
    (by rw [hc]; decide) (by rw [hc]; decide) (by omega) (by rw [← hm]) (by omega) (by omega)
    (getVersion_picture env d (Or.inr (Or.inr hc)))
  have hread := grid_read (m' := 133) (get := rgb565Get) (dec := dec) hs' (by omega)
    (fun r hr p hp' => (henc p ((hrows r hr).2 p hp')).2.1)
    (fun r hr p hp' => (henc p ((hrows r hr).2 p hp')).2.2.1)
    (fun i j => 268 * i + 2 * j) (fun i j => by omega)
  rw [← hdd] at hread
  refine ⟨d, arr.map fun row => row.map dec, ?_, hlen, ?_, ?_, ?_⟩
  · unfold loadImage
    rw [hd, PyM.bind_run, PyM.ofExcept_run]
    simp only [List.nil_append]
    rw [hset, hlen, hds]
    simp [hc, Cls.versions]
  · intro e' hc' hb'
    unfold imageArray data
    rw [hc', show dataStart .image = 3 by decide, hb', hread]
    simp only [Except.ok.injEq]
    rw [List.map_map, List.map_reverse, List.reverse_reverse]
    apply List.map_congr_left
    intro row hr
    have hl := hs.cols row hr
    simp only [Function.comp_apply]
    rw [List.take_left' hl]
  · rw [List.forall₂_map_right_iff]
    apply List.forall₂_same.2
    intro row hr
    rw [List.forall₂_map_right_iff]
    exact List.forall₂_same.2 fun p hp' => (henc p (hp row hr p hp')).2.2.2.1
  · intro h5
    rw [List.map_congr_left (g := id) (fun row hr => ?_), List.map_id]
    rw [List.map_congr_left (g := id) (fun p hp' => (henc p (hp row hr p hp')).2.2.2.2 (h5 row hr p hp')),
      List.map_id]
    rfl

/-- C56, images: an array of 83 rows of 133 pixels with components 0-255 is stored in 22244 bytes after the
magic byte, which is kept, and reads back with the components cut to five, six and five bits; in particular an array
of colours that RGB565 can represent reads back unchanged. -/
theorem C56_image (env : Env V) (e : Ent) (arr : List (List RGB)) (hc : e.cls = .image)
    (hm : e.body.mutable = true) (hb : 3 ≤ e.body.bytes.length) (hs : Shape 133 83 arr)
    (hp : ∀ row ∈ arr, ∀ p ∈ row, IsByteColour p) :
    ∃ e' ws out, loadImage env arr e = ⟨.ok (), e', ws⟩ ∧ e'.cls = e.cls ∧ e'.name = e.name ∧
      e'.typeId = e.typeId ∧ e'.metaLen = e.metaLen ∧ e'.archived = e.archived ∧
      e'.body.bytes.length = 22247 ∧ e'.body.bytes[2]? = e.body.bytes[2]? ∧
      imageArray e' = .ok out ∧ List.Forall₂ (List.Forall₂ Trunc565) arr out ∧
      ((∀ row ∈ arr, ∀ p ∈ row, Is565 p) → out = arr) := by
  obtain ⟨d, out, hrun, hlen, hread, h1, h2⟩ := image_store env e arr hc hm hb hs hp
  have hmid : ((e.body.bytes.drop 2).take 1).length = 1 := by
    rw [List.length_take, List.length_drop]; omega
  refine ⟨_, _, out, hrun, rfl, rfl, rfl, rfl, rfl, ?_, ?_, hread _ hc ?_, h1, h2⟩
  · simp [hlen]; omega
  · show (toLE 2 22244 ++ (e.body.bytes.drop 2).take 1 ++ d)[2]? = _
    rw [List.getElem?_append_left (by rw [List.length_append, length_toLE, hmid]; omega),
      List.getElem?_append_right (by rw [length_toLE]), length_toLE]
    simp [List.getElem?_drop]
  · show (toLE 2 22244 ++ (e.body.bytes.drop 2).take 1 ++ d).drop 3 = d
    exact List.drop_left' (by rw [List.length_append, length_toLE, hmid])

/-- A row of an image: its pixels and a black one. -/
example : joinE rgb565Set ([(255, 32, 255), (8, 8, 8)] ++ [(0, 0, 0)]) = .ok [0x1F, 0xF9, 0x41, 0x08, 0, 0] := by
  decide

/-! ### C57 – the length of an image -/

/-- Loading the bytes of an image whose length field says 22244. -/
theorem image_reload (env : Env V) {e : Ent} (hw : WF e) (hc : e.cls = .image) (ht : e.typeId = [0x1A])
    (hv : e.version = [0x00]) (hl : e.body.bytes.length = 22247)
    (h2 : fromLE (e.body.bytes.take 2) = 22244) {b : Bytes} (hb : e.bytes = .ok b) :
    load env b (Ent.fresh env) = ⟨.ok (), { e with body := ⟨true, e.body.bytes⟩ },
      .pictureLength :: loadWarnings .image e.metaLen e.version⟩ := by
  have hno : e.metaLen = [0x0D, 0x00] → ¬FlashIsLength e := by
    intro _ h
    unfold FlashIsLength at h
    rw [hv, hl] at h
    rcases hw.flag with hf | hf <;> rw [hf] at h <;> simp [fromLE] at h
  have hsz : ({ e with cls := .image, body := ⟨true, e.body.bytes⟩ } : Ent).sizedLength = 22244 := by
    unfold sizedLength
    simp only
    rw [show lengthStart .image = 0 by decide]
    have := getSlice_nat (a := 0) (b := 2) (d := e.body.bytes) (by omega) (by omega)
    rw [List.drop_zero] at this
    exact (congrArg fromLE this).trans h2
  have hco : coerce env { e with cls := .entry, body := ⟨true, e.body.bytes⟩ } =
      ⟨.ok (), { e with cls := .image, body := ⟨true, e.body.bytes⟩ }, [.pictureLength]⟩ := by
    refine (coerce_base env (e := { e with cls := .entry, body := ⟨true, e.body.bytes⟩ }) (c := .image) rfl ht
      rfl).trans ?_
    unfold coerceTyped
    simp only [PyM.bind_run, PyM.get_run]
    unfold coercePicture
    simp only [PyM.bind_run, PyM.get_run, hsz]
    simp
  have hload : load env b (Ent.fresh env) = loadBase env b (Ent.fresh env) := by
    simp [load, PyM.bind_run, Ent.fresh]
  rw [hload, loadBase_bytes env hw hno hb]
  show after (checkType (Ent.fresh env) _) (finish env { e with cls := .entry, body := ⟨true, e.body.bytes⟩ }) = _
  rw [finish_of_coerce env hco hv (metaLen_iff (show e.metaLen.length = 2 from metaLen_length hw.toSections))]
  simp [after, checkType, Ent.fresh, Cls.typeId, ← hc]

/-- C57 is false of the code for every image and every full-size array: the length field does not
count the magic byte, and loading the saved image warns of an unexpected length. -/
theorem C57_image_length_false (env : Env V) (e : Ent) (arr : List (List RGB)) (hc : e.cls = .image)
    (hw : WF e) (ht : e.typeId = [0x1A]) (hm : e.body.mutable = true) (hb : 3 ≤ e.body.bytes.length)
    (hs : Shape 133 83 arr) (hp : ∀ row ∈ arr, ∀ p ∈ row, IsByteColour p) :
    ∃ e' ws b e'' ws', loadImage env arr e = ⟨.ok (), e', ws⟩ ∧
      fromLE (e'.body.bytes.take 2) + 1 = (e'.body.bytes.drop 2).length ∧ ¬InStep e' ∧
      e'.bytes = .ok b ∧ load env b (Ent.fresh env) = ⟨.ok (), e'', ws'⟩ ∧ .pictureLength ∈ ws' := by
  obtain ⟨d, out, hrun, hlen, hread, h1, h2⟩ := image_store env e arr hc hm hb hs hp
  have hmid : ((e.body.bytes.drop 2).take 1).length = 1 := by
    rw [List.length_take, List.length_drop]; omega
  have hl : (toLE 2 22244 ++ (e.body.bytes.drop 2).take 1 ++ d).length = 22247 := by
    rw [List.length_append, List.length_append, length_toLE, hmid, hlen]
  have h22 : fromLE ((toLE 2 22244 ++ (e.body.bytes.drop 2).take 1 ++ d).take 2) = 22244 := by
    rw [List.append_assoc, List.take_left' (length_toLE 2 _)]; decide
  have hw' : WF { e with version := [0x00], body := ⟨true, toLE 2 22244 ++ (e.body.bytes.drop 2).take 1 ++ d⟩ } :=
    { metaLen := hw.metaLen, typeId := hw.typeId, name := hw.name, version := rfl, archived := hw.archived,
      flag := hw.flag, flashless := fun h => ⟨rfl, (hw.flashless h).2⟩, length := by rw [hl]; omega }
  have hby := Ent.bytes_ok (e := { e with
      version := [0x00]
      body := ⟨true, toLE 2 22244 ++ (e.body.bytes.drop 2).take 1 ++ d⟩ }) hw'.length
  refine ⟨_, _, _, _, _, hrun, ?_, ?_, hby, image_reload env hw' hc ht rfl hl h22 hby, by simp⟩
  · rw [h22, List.length_drop, hl]
  · rintro ⟨-, h⟩
    rw [h22, List.length_drop, hl] at h
    omega

/-- C57, the part that holds: the length field is one less than the number of bytes that follow, and
saving and loading the image keeps the pixels and everything else, with that one warning about the length (and
the one for an image without flash bytes). Missing: the length field itself. -/
theorem C57_image_length_partial (env : Env V) (e : Ent) (arr : List (List RGB)) (hc : e.cls = .image)
    (hw : WF e) (ht : e.typeId = [0x1A]) (hm : e.body.mutable = true) (hb : 3 ≤ e.body.bytes.length)
    (hs : Shape 133 83 arr) (hp : ∀ row ∈ arr, ∀ p ∈ row, IsByteColour p) :
    ∃ e' ws b, loadImage env arr e = ⟨.ok (), e', ws⟩ ∧
      fromLE (e'.body.bytes.take 2) + 1 = (e'.body.bytes.drop 2).length ∧
      e'.bytes = .ok b ∧ load env b (Ent.fresh env) = ⟨.ok (), e',
        if e.metaLen = [0x0B, 0x00] then [.pictureLength, .flashlessLoad] else [.pictureLength]⟩ ∧
      ∃ out, imageArray e' = .ok out ∧ ((∀ row ∈ arr, ∀ p ∈ row, Is565 p) → out = arr) := by
  obtain ⟨d, out, hrun, hlen, hread, h1, h2⟩ := image_store env e arr hc hm hb hs hp
  have hmid : ((e.body.bytes.drop 2).take 1).length = 1 := by
    rw [List.length_take, List.length_drop]; omega
  have hl : (toLE 2 22244 ++ (e.body.bytes.drop 2).take 1 ++ d).length = 22247 := by
    rw [List.length_append, List.length_append, length_toLE, hmid, hlen]
  have h22 : fromLE ((toLE 2 22244 ++ (e.body.bytes.drop 2).take 1 ++ d).take 2) = 22244 := by
    rw [List.append_assoc, List.take_left' (length_toLE 2 _)]; decide
  have hw' : WF { e with version := [0x00], body := ⟨true, toLE 2 22244 ++ (e.body.bytes.drop 2).take 1 ++ d⟩ } :=
    { metaLen := hw.metaLen, typeId := hw.typeId, name := hw.name, version := rfl, archived := hw.archived,
      flag := hw.flag, flashless := fun h => ⟨rfl, (hw.flashless h).2⟩, length := by rw [hl]; omega }
  have hby := Ent.bytes_ok (e := { e with
      version := [0x00]
      body := ⟨true, toLE 2 22244 ++ (e.body.bytes.drop 2).take 1 ++ d⟩ }) hw'.length
  refine ⟨_, _, _, hrun, ?_, hby, ?_, out, hread _ hc (List.drop_left' (by
    rw [List.length_append, length_toLE, hmid])), h2⟩
  · rw [h22, List.length_drop, hl]
  · rw [image_reload env hw' hc ht rfl hl h22 hby]
    by_cases h11 : e.metaLen = [0x0B, 0x00] <;> simp [loadWarnings, h11, Cls.versions, Cls.flashOnly]

/-- A new image satisfies the conditions. -/
example : ∃ e : Ent, e.cls = .image ∧ WF e ∧ e.typeId = [0x1A] ∧ e.body.mutable = true ∧
    3 ≤ e.body.bytes.length ∧ InStep e := by
  have hl : (toLE 2 22245 ++ (0x81 :: List.replicate 22244 (0 : UInt8))).length = 22247 := by
    rw [List.length_append, length_toLE, List.length_cons, List.length_replicate]
  refine ⟨⟨.image, [0x0D, 0x00], [0x1A], [0x3C, 0, 0, 0, 0, 0, 0, 0], [0x00], [0x80],
    ⟨true, toLE 2 22245 ++ (0x81 :: List.replicate 22244 0)⟩⟩, rfl,
    { metaLen := Or.inr rfl, typeId := rfl, name := rfl, version := rfl, archived := rfl, flag := Or.inr rfl,
      flashless := fun h => absurd h (by decide)
      length := hl ▸ by decide }, rfl, rfl, hl ▸ by decide, ⟨hl ▸ by decide, ?_⟩⟩
  show fromLE ((toLE 2 22245 ++ _).take 2) = ((toLE 2 22245 ++ _).drop 2).length
  rw [List.take_left' (length_toLE 2 _), List.drop_left' (length_toLE 2 _), List.length_cons, List.length_replicate]
  decide

/-! ### C71 – image names -/

/-- C71 is false of the code: `Image0` cannot be set, and the name that is read for the tenth image cannot be
set either, the first image being taken instead. -/
theorem C71_image_name_false :
    imageName.set "Image0".toList (some 8) [] () = ⟨.error .valueError, (), []⟩ ∧
    imageName.get [0x3C, 9] = .ok "Image10".toList ∧
    imageName.set "Image10".toList (some 8) [] () = ⟨.ok [0x3C, 0], (), [.imageName]⟩ := by decide

/-- C71, the part that holds: the names `Image1` to `Image9` are accepted and read back, with or without the
word. Missing: the tenth image. -/
theorem C71_image_name_partial (n : Nat) (h1 : 1 ≤ n) (h9 : n ≤ 9) (cur pad : Bytes) :
    ∃ b, imageName.set ("Image".toList ++ natRepr n) (some 8) cur () = ⟨.ok b, (), []⟩ ∧
      imageName.set (natRepr n) (some 8) cur () = ⟨.ok b, (), []⟩ ∧
      imageName.get (b ++ pad) = .ok ("Image".toList ++ natRepr n) ∧ b.length = 2 := by
  have : n = 1 ∨ n = 2 ∨ n = 3 ∨ n = 4 ∨ n = 5 ∨ n = 6 ∨ n = 7 ∨ n = 8 ∨ n = 9 := by omega
  rcases this with rfl | rfl | rfl | rfl | rfl | rfl | rfl | rfl | rfl <;>
    exact ⟨_, rfl, rfl, rfl, rfl⟩

/-- C71, other names: anything else but a digit is replaced by the first image, with a warning. -/
theorem C71_image_name_default (value : Str) (cur : Bytes)
    (h : ∀ d, isDig d = true → value ≠ [d] ∧ value ≠ "Image".toList ++ [d]) :
    imageName.set value (some 8) cur () = ⟨.ok [0x3C, 0x00], (), [.imageName]⟩ := by
  have hn : isImageName value = false := by
    unfold isImageName
    split
    · rename_i d
      rcases hd : isDig d with _ | _
      · rfl
      · exact absurd rfl (h d hd).1
    · rename_i d
      rcases hd : isDig d with _ | _
      · rfl
      · exact absurd rfl (h d hd).2
    · rfl
  simp [imageName, hn, PyM.bind_run]

example : imageName.set "Image3".toList (some 8) [] () = ⟨.ok [0x3C, 2], (), []⟩ ∧
    imageName.get [0x3C, 2, 0, 0, 0, 0, 0, 0] = .ok "Image3".toList := by decide

end Verif
