import Verif.Model.Iterate
import Verif.Spec.Layout
import Verif.Props.Picture

/-
C139: which bits of the data each pixel of a picture is read from, and the order in which pictures are gone through.
-/

namespace Verif
open Spec Ent
variable {V : Type} [LinearOrder V]

theorem take_one {d : Bytes} {k : Nat} (h : k < d.length) : (d.drop k).take 1 = [d.getD k 0] := by
  rw [List.drop_eq_getElem_cons h, List.take_succ_cons, List.take_zero]
  simp [h]

theorem take_two {d : Bytes} {k : Nat} (h : k + 1 < d.length) : (d.drop k).take 2 = [d.getD k 0, d.getD (k + 1) 0] := by
  rw [List.drop_eq_getElem_cons (by omega), List.take_succ_cons, List.drop_eq_getElem_cons h, List.take_succ_cons, List.take_zero]
  simp [h, show k < d.length by omega]

theorem mapE_fault {α β : Type} {f : α → Except PyErr β} {x : PyErr} {l : List α} (h : ∃ a ∈ l, f a = .error x)
    (ho : ∀ a ∈ l, ∀ y, f a = .error y → y = x) : mapE f l = .error x := by
  induction l with
  | nil => simp at h
  | cons a as ih =>
    unfold mapE
    cases hf : f a with
    | error y => rw [ho a (List.mem_cons_self ..) y hf]
    | ok b =>
      rcases h with ⟨c, hc, he⟩
      rcases List.mem_cons.1 hc with rfl | hc
      · rw [hf] at he; cases he
      · simp only
        rw [ih ⟨c, hc, he⟩ fun c hc => ho c (List.mem_cons_of_mem _ hc)]

/-- An error of `mapE` is one of its elements. -/
theorem mapE_origin {α β : Type} {f : α → Except PyErr β} {x : PyErr} {l : List α} (h : mapE f l = .error x) :
    ∃ a ∈ l, f a = .error x := by
  induction l with
  | nil => cases h
  | cons a as ih =>
    unfold mapE at h
    cases hf : f a with
    | error y => rw [hf] at h; simp only [Except.error.injEq] at h; exact ⟨a, List.mem_cons_self .., by rw [hf, h]⟩
    | ok b =>
      rw [hf] at h
      simp only at h
      cases hm : mapE f as with
      | error y =>
        rw [hm] at h
        simp only [Except.error.injEq] at h
        obtain ⟨c, hc, he⟩ := ih (by rw [hm, h])
        exact ⟨c, List.mem_cons_of_mem _ hc, he⟩
      | ok bs => rw [hm] at h; cases h

/-- A table of pixels has them in its rows. -/
theorem shows_table {α : Type} (w h : Nat) (px : Nat → Nat → α) :
    Shows w h px ((List.range h).map fun y => (List.range w).map fun x => px x y) := by
  refine ⟨⟨by simp, fun row hr => ?_⟩, fun y hy x hx => ⟨(List.range w).map fun x => px x y, ?_, ?_⟩⟩
  · obtain ⟨y, -, rfl⟩ := List.mem_map.1 hr
    simp
  · simp [hy]
  · simp [hx]

/-- Going through an array row by row. -/
theorem shows_pixels {α : Type} {w h : Nat} {px : Nat → Nat → α} {arr : List (List α)} (hs : Shows w h px arr) :
    ∃ l, pixels (.ok arr) = .ok l ∧ ReadsOut w h px l := by
  have hfl : ∀ row : List α, (row.flatMap fun col => [col]) = row := fun row => by simp
  refine ⟨arr.flatten, by simp only [pixels, hfl, List.flatMap_id'], ?_⟩
  have key : ∀ (arr : List (List α)), (∀ row ∈ arr, row.length = w) → ∀ y x row, arr[y]? = some row → x < w →
      arr.flatten[w * y + x]? = row[x]? := by
    intro arr
    induction arr with
    | nil => intro _ y x row hr; simp at hr
    | cons r rs ih =>
      intro hc y x row hr hx
      have hrl := hc r (List.mem_cons_self ..)
      cases y with
      | zero =>
        simp only [List.getElem?_cons_zero, Option.some.injEq] at hr
        subst hr
        rw [List.flatten_cons, List.getElem?_append_left (by omega)]
        simp
      | succ y =>
        simp only [List.getElem?_cons_succ] at hr
        rw [List.flatten_cons, List.getElem?_append_right (by rw [hrl, Nat.mul_succ]; omega), hrl,
          show w * (y + 1) + x - w = w * y + x by rw [Nat.mul_succ]; omega]
        exact ih (fun row h => hc row (List.mem_cons_of_mem _ h)) y x row hr hx
  refine ⟨?_, fun y hy x hx => ?_⟩
  · rw [show arr.flatten = arr.flatMap fun row => row by simp, length_flatMap_const (n := w) _ _ fun row hr => hs.1.cols row hr, hs.1.rows, Nat.mul_comm]
  · obtain ⟨row, h1, h2⟩ := hs.2 y hy x hx
    rw [key arr hs.1.cols y x row h1 hx, h2]

/-! ### Black and white -/

theorem l1_pixels (b : UInt8) : l1Get [b] = .ok ((List.range 8).map fun i => if b.toNat.testBit (7 - i) then 0 else 255) := by
  have : ∀ n : Fin 256, l1Get [UInt8.ofNat n] = .ok ((List.range 8).map fun i => if (UInt8.ofNat n).toNat.testBit (7 - i) then 0 else 255) := by
    decide +kernel
  have := this ⟨b.toNat, b.toNat_lt⟩
  simpa using this

/-- C139, black and white: the array of a picture with all its data has 63 rows of 96 pixels, each from its bit. Going through the picture
gives them in reading order. With fewer data both raise `IndexError`. -/
theorem C139_mono (e : Ent) :
    (756 ≤ e.data.length → ∃ arr l, monoArray e = .ok arr ∧ Shows 96 63 (monoPixel e.data) arr ∧
      pixels (monoArray e) = .ok l ∧ ReadsOut 96 63 (monoPixel e.data) l) ∧
    (e.data.length < 756 → monoArray e = .error .indexError ∧ pixels (monoArray e) = .error .indexError) := by
  constructor
  · intro h
    have harr : monoArray e = .ok ((List.range 63).map fun y => (List.range 96).map fun x => monoPixel e.data x y) := by
      unfold monoArray
      refine mapE_ok _ _ fun y hy => ?_
      rw [List.mem_range] at hy
      rw [mapE_ok (fun col => (List.range 8).map fun i => monoPixel e.data (8 * col + i) y) _ fun col hc => ?_]
      · simp only [flattenE, Except.ok.injEq]
        rw [show List.range 96 = (List.range 12).flatMap fun c => (List.range 8).map fun i => 8 * c + i by decide, List.map_flatMap, ← List.flatMap_def]
        simp only [List.map_map]
        rfl
      · rw [List.mem_range] at hc
        rw [take_one (by omega), l1_pixels]
        simp only [Except.ok.injEq]
        refine List.map_congr_left fun i hi => ?_
        rw [List.mem_range] at hi
        simp only [monoPixel, show (8 * col + i) / 8 = col by omega, show (8 * col + i) % 8 = i by omega]
    have hs := shows_table 96 63 (monoPixel e.data)
    obtain ⟨l, hl, hr⟩ := shows_pixels hs
    exact ⟨_, l, harr, hs, by rw [harr]; exact hl, hr⟩
  · intro h
    suffices hm : monoArray e = .error .indexError from ⟨hm, by rw [hm]; rfl⟩
    have hone : ∀ b x, l1Get b = .error x → x = .indexError := by
      intro b x hx
      cases b with
      | nil => simpa [l1Get] using hx.symm
      | cons => cases hx
    have hrow : ∀ row x, flattenE (mapE (fun col => l1Get ((e.data.drop (12 * row + col)).take 1)) (List.range 12)) = .error x → x = .indexError := by
      intro row x hx
      cases hm : mapE (fun col => l1Get ((e.data.drop (12 * row + col)).take 1)) (List.range 12) with
      | ok l => rw [hm] at hx; cases hx
      | error y =>
        rw [hm] at hx
        simp only [flattenE, Except.error.injEq] at hx
        obtain ⟨c, -, hc⟩ := mapE_origin hm
        rw [← hx]; exact hone _ _ hc
    unfold monoArray
    refine mapE_fault ⟨62, by decide, ?_⟩ fun a _ y hy => hrow a y hy
    rw [mapE_fault (x := .indexError) ⟨11, by decide, ?_⟩ fun a _ y hy => hone _ y hy]
    · rfl
    · rw [List.drop_eq_nil_of_le (by omega)]; rfl

/-! ### Colours by number -/

theorem palette_pixels (b : UInt8) : paletteGet [b] = .ok [colourOf (b.toNat / 16), colourOf (b.toNat % 16)] := by
  obtain ⟨p, q, b', h, hp, hq, -⟩ := C54_palette b
  rw [h, hp, hq]

/-- C139, colour pictures. -/
theorem C139_picture (e : Ent) :
    (21945 ≤ e.data.length → ∃ arr l, pictureArray e = .ok arr ∧ Shows 266 165 (palettePixel e.data) arr ∧
      pixels (pictureArray e) = .ok l ∧ ReadsOut 266 165 (palettePixel e.data) l) ∧
    (e.data.length < 21945 → pictureArray e = .error .indexError ∧ pixels (pictureArray e) = .error .indexError) := by
  constructor
  · intro h
    have harr : pictureArray e = .ok ((List.range 165).map fun y => (List.range 266).map fun x => palettePixel e.data x y) := by
      unfold pictureArray
      refine mapE_ok _ _ fun y hy => ?_
      rw [List.mem_range] at hy
      rw [mapE_ok (fun col => (List.range 2).map fun i => palettePixel e.data (2 * col + i) y) _ fun col hc => ?_]
      · simp only [flattenE, Except.ok.injEq]
        rw [show List.range 266 = (List.range 133).flatMap fun c => (List.range 2).map fun i => 2 * c + i by decide +kernel, List.map_flatMap,
          ← List.flatMap_def]
        simp only [List.map_map]
        rfl
      · rw [List.mem_range] at hc
        rw [take_one (by omega), palette_pixels]
        simp only [Except.ok.injEq, show List.range 2 = [0, 1] from rfl, List.map_cons, List.map_nil, palettePixel, Nat.add_zero,
          show (2 * col) / 2 = col by omega, show (2 * col) % 2 = 0 by omega, show (2 * col + 1) / 2 = col by omega,
          show (2 * col + 1) % 2 = 1 by omega]
        simp
    have hs := shows_table 266 165 (palettePixel e.data)
    obtain ⟨l, hl, hr⟩ := shows_pixels hs
    exact ⟨_, l, harr, hs, by rw [harr]; exact hl, hr⟩
  · intro h
    suffices hm : pictureArray e = .error .indexError from ⟨hm, by rw [hm]; rfl⟩
    have hone : ∀ b x, paletteGet b = .error x → x = .indexError := by
      intro b x hx
      cases b with
      | nil => simpa [paletteGet] using hx.symm
      | cons => cases hx
    have hrow : ∀ row x, flattenE (mapE (fun col => paletteGet ((e.data.drop (133 * row + col)).take 1)) (List.range 133)) = .error x →
        x = .indexError := by
      intro row x hx
      cases hm : mapE (fun col => paletteGet ((e.data.drop (133 * row + col)).take 1)) (List.range 133) with
      | ok l => rw [hm] at hx; cases hx
      | error y =>
        rw [hm] at hx
        simp only [flattenE, Except.error.injEq] at hx
        obtain ⟨c, -, hc⟩ := mapE_origin hm
        rw [← hx]; exact hone _ _ hc
    unfold pictureArray
    refine mapE_fault ⟨164, by simp, ?_⟩ fun a _ y hy => hrow a y hy
    rw [mapE_fault (x := .indexError) ⟨132, by simp, ?_⟩ fun a _ y hy => hone _ y hy]
    · rfl
    · rw [List.drop_eq_nil_of_le (by omega)]; rfl

/-! ### Images -/

theorem rgb565_pixel (lo hi : UInt8) : rgb565Get [lo, hi] =
    .ok (scale565 ((lo.toNat + 256 * hi.toNat) / 2048) ((lo.toNat + 256 * hi.toNat) / 32 % 64) ((lo.toNat + 256 * hi.toNat) % 32)) := by
  obtain ⟨r, g, b, hr, hg, hb, rfl, rfl⟩ := bytes565 lo hi
  rw [rgb565Get_bits hr hg hb []]
  have h1 : (UInt8.ofNat (g % 8 * 32 + b)).toNat = g % 8 * 32 + b := by simp; omega
  have h2 : (UInt8.ofNat (r * 8 + g / 8)).toNat = r * 8 + g / 8 := by simp; omega
  rw [h1, h2]
  congr 2 <;> omega

/-- C139, images. The last two bytes of each row are not read, so that the last row needs 266 of its 268 bytes only. -/
theorem C139_image (e : Ent) :
    (22242 ≤ e.data.length → ∃ arr l, imageArray e = .ok arr ∧ Shows 133 83 (imagePixel e.data) arr ∧
      pixels (imageArray e) = .ok l ∧ ReadsOut 133 83 (imagePixel e.data) l) ∧
    (e.data.length < 22242 → imageArray e = .error .indexError ∧ pixels (imageArray e) = .error .indexError) := by
  constructor
  · intro h
    have harr : imageArray e = .ok ((List.range 83).map fun y => (List.range 133).map fun x => imagePixel e.data x y) := by
      unfold imageArray
      rw [mapE_ok (fun row => (List.range 133).map fun x => imagePixel e.data x (82 - row)) _ fun row hr => ?_]
      · simp only [Except.ok.injEq]
        rw [← List.map_reverse, show (List.range 83).reverse = (List.range 83).map fun y => 82 - y by decide, List.map_map]
        refine List.map_congr_left fun y hy => ?_
        rw [List.mem_range] at hy
        simp only [Function.comp_apply, show 82 - (82 - y) = y by omega]
      · rw [List.mem_range] at hr
        refine mapE_ok _ _ fun col hc => ?_
        rw [List.mem_range] at hc
        rw [take_two (by omega), rgb565_pixel]
        simp only [imagePixel, show 82 - (82 - row) = row by omega]
    have hs := shows_table 133 83 (imagePixel e.data)
    obtain ⟨l, hl, hr⟩ := shows_pixels hs
    exact ⟨_, l, harr, hs, by rw [harr]; exact hl, hr⟩
  · intro h
    suffices hm : imageArray e = .error .indexError from ⟨hm, by rw [hm]; rfl⟩
    have hone : ∀ b x, rgb565Get b = .error x → x = .indexError := by
      intro b x hx
      rcases b with _ | ⟨a, _ | ⟨c, b⟩⟩
      · simpa [rgb565Get] using hx.symm
      · simpa [rgb565Get] using hx.symm
      · cases hx
    unfold imageArray
    rw [mapE_fault (f := fun row => mapE (fun col => rgb565Get ((e.data.drop (268 * row + 2 * col)).take 2)) (List.range 133))
      (x := .indexError) ⟨82, by decide, mapE_fault ⟨132, by simp, ?_⟩ fun a _ y hy => hone _ y hy⟩ fun row _ y hy => ?_]
    rotate_left
    · obtain ⟨c, -, hc⟩ := mapE_origin hy
      exact hone _ _ hc
    · have hl : ((e.data.drop (268 * 82 + 2 * 132)).take 2).length < 2 := by
        rw [List.length_take, List.length_drop]; omega
      revert hl
      rcases (e.data.drop (268 * 82 + 2 * 132)).take 2 with _ | ⟨a, _ | ⟨c, b⟩⟩
      · intro _; rfl
      · intro _; rfl
      · intro hl; simp at hl; omega

/-- Only the first pixel of this picture is black. -/
example : monoPixel (0x80 :: List.replicate 755 0) 0 0 = 0 ∧ monoPixel (0x80 :: List.replicate 755 0) 1 0 = 255 ∧
    monoPixel (0x80 :: List.replicate 755 0) 0 1 = 255 := by decide +kernel

/-- The pixels of one byte, and the lower left pixel of an image, which comes first in its data. -/
example : palettePixel [0x23] 0 0 = (255, 0, 0) ∧ palettePixel [0x23] 1 0 = (0, 0, 0) ∧
    imagePixel [0x1F, 0xF8] 0 82 = (255, 0, 255) ∧ imagePixel [0x1F, 0xF8] 0 0 = (0, 0, 0) := by decide +kernel

/-! ### What is written -/

/-- C139: an array loaded into a black and white picture puts every pixel where calculators look for it, white unless it is 0. -/
theorem C139_mono_written (env : Env V) (e : Ent) (arr : List (List Int)) (hc : e.cls = .monoPicture)
    (hm : e.body.mutable = true) (hb : 2 ≤ e.body.bytes.length) (hs : Shape 96 63 arr) :
    ∃ e' ws, loadMono env arr e = ⟨.ok (), e', ws⟩ ∧ e'.data.length = 756 ∧
      ∀ y < 63, ∀ x < 96, ∃ row p, arr[y]? = some row ∧ row[x]? = some p ∧ monoPixel e'.data x y = if p = 0 then 0 else 255 := by
  obtain ⟨e', ws, h, hc', -, -, -, -, -, -, hl, -, ha, -⟩ := C56_mono env e arr hc hm hb hs
  have hdl : e'.data.length = 756 := by
    unfold data
    rw [hc', hc, show dataStart .monoPicture = 2 by decide, List.length_drop, hl]
  refine ⟨e', ws, h, hdl, fun y hy x hx => ?_⟩
  obtain ⟨arr', -, ha', hsh, -⟩ := (C139_mono e').1 (by omega)
  rw [ha] at ha'
  simp only [Except.ok.injEq] at ha'
  subst ha'
  obtain ⟨row', h1, h2⟩ := hsh.2 y hy x hx
  rw [List.getElem?_map] at h1
  cases hr : arr[y]? with
  | none => rw [hr] at h1; cases h1
  | some row =>
    rw [hr] at h1
    simp only [Option.map_some, Option.some.injEq] at h1
    subst h1
    rw [List.getElem?_map] at h2
    cases hp : row[x]? with
    | none => rw [hp] at h2; cases h2
    | some p =>
      rw [hp] at h2
      simp only [Option.map_some, Option.some.injEq] at h2
      exact ⟨row, p, rfl, hp, h2.symm⟩

/-- Related arrays are related at every place. -/
theorem forall₂_at {α β : Type} {R : α → β → Prop} {l : List α} {m : List β} (h : List.Forall₂ R l m) :
    ∀ (i : Nat) (b : β), m[i]? = some b → ∃ a, l[i]? = some a ∧ R a b := by
  induction h with
  | nil => intro i b hb; simp at hb
  | cons hr _ ih =>
    intro i b hb
    cases i with
    | zero => simp only [List.getElem?_cons_zero, Option.some.injEq] at hb ⊢; subst hb; exact ⟨_, rfl, hr⟩
    | succ i => simp only [List.getElem?_cons_succ] at hb ⊢; exact ih i b hb

/-- C139: an array loaded into a colour picture puts next to every pixel's place a colour of the calculator that no other one is closer
than. -/
theorem C139_picture_written (env : Env V) (e : Ent) (arr : List (List RGB)) (hc : e.cls = .picture)
    (hm : e.body.mutable = true) (hb : 2 ≤ e.body.bytes.length) (hs : Shape 266 165 arr) :
    ∃ e' ws, loadPicture env arr e = ⟨.ok (), e', ws⟩ ∧ e'.data.length = 21945 ∧
      ∀ y < 165, ∀ x < 266, ∃ row p, arr[y]? = some row ∧ row[x]? = some p ∧ IsNearest p (palettePixel e'.data x y) := by
  obtain ⟨e', ws, out, h, hc', -, -, -, -, -, -, hl, -, ha, hf, -⟩ := C56_picture env e arr hc hm hb hs
  have hdl : e'.data.length = 21945 := by
    unfold data
    rw [hc', hc, show dataStart .picture = 2 by decide, List.length_drop, hl]
  refine ⟨e', ws, h, hdl, fun y hy x hx => ?_⟩
  obtain ⟨arr', -, ha', hsh, -⟩ := (C139_picture e').1 (by omega)
  rw [ha] at ha'
  simp only [Except.ok.injEq] at ha'
  subst ha'
  obtain ⟨row', h1, h2⟩ := hsh.2 y hy x hx
  obtain ⟨row, hr, hrf⟩ := forall₂_at hf y row' h1
  obtain ⟨p, hp, hn⟩ := forall₂_at hrf x _ h2
  exact ⟨row, p, hr, hp, hn⟩

/-- C139: an array loaded into an image puts every pixel, cut to five, six and five bits, in its place. -/
theorem C139_image_written (env : Env V) (e : Ent) (arr : List (List RGB)) (hc : e.cls = .image)
    (hm : e.body.mutable = true) (hb : 3 ≤ e.body.bytes.length) (hs : Shape 133 83 arr)
    (hp : ∀ row ∈ arr, ∀ p ∈ row, IsByteColour p) :
    ∃ e' ws, loadImage env arr e = ⟨.ok (), e', ws⟩ ∧ e'.data.length = 22244 ∧
      ∀ y < 83, ∀ x < 133, ∃ row p, arr[y]? = some row ∧ row[x]? = some p ∧ Trunc565 p (imagePixel e'.data x y) := by
  obtain ⟨e', ws, out, h, hc', -, -, -, -, hl, -, ha, hf, -⟩ := C56_image env e arr hc hm hb hs hp
  have hdl : e'.data.length = 22244 := by
    unfold data
    rw [hc', hc, show dataStart .image = 3 by decide, List.length_drop, hl]
  refine ⟨e', ws, h, hdl, fun y hy x hx => ?_⟩
  obtain ⟨arr', -, ha', hsh, -⟩ := (C139_image e').1 (by omega)
  rw [ha] at ha'
  simp only [Except.ok.injEq] at ha'
  subst ha'
  obtain ⟨row', h1, h2⟩ := hsh.2 y hy x hx
  obtain ⟨row, hr, hrf⟩ := forall₂_at hf y row' h1
  obtain ⟨p, hp, hn⟩ := forall₂_at hrf x _ h2
  exact ⟨row, p, hr, hp, hn⟩

/-- An image of the shape the theorem asks for. -/
example : Shape 133 83 (List.replicate 83 (List.replicate 133 ((255, 0, 255) : RGB))) ∧ IsByteColour (255, 0, 255) :=
  ⟨⟨by simp, fun row h => by rw [List.eq_of_mem_replicate h]; simp⟩, by unfold IsByteColour; decide⟩

end Verif
