import Verif.Props.TextFile
import Verif.Props.Real
import Verif.Props.Array
import Verif.Props.Picture

/-! C142: numbers, lists, matrices and pictures stored in an entry, saved in a file and opened again. -/

namespace Verif
open Spec Ent
variable {V : Type} [LinearOrder V]

/-- What every entry of these classes has before anything is stored in it. -/
structure Ready (e : Ent) : Prop where
  wf : WF e
  flash : e.metaLen = [0x0D, 0x00]
  typed : e.cls.typeId = some (fromLE e.typeId)
  writable : e.body.mutable = true

/-- Saving and opening an entry into which bytes were stored. -/
theorem stored_open (env : OsEnv V) (ord : Model → Nat) {e e' : Ent} {wc : List Warn} (name filename : Str) (nm : Bytes) (fs : Files)
    (hr : Ready e) (hc : e'.cls = e.cls) (hm : e'.metaLen = e.metaLen) (ht : e'.typeId = e.typeId) (hn : e'.name = e.name)
    (ha : e'.archived = e.archived) (hv : e'.version.length = 1) (hmut : e'.body.mutable = true)
    (hlen : e'.body.bytes.length + 17 < 65536) (hne : e'.body.bytes ≠ [])
    (hno : fromLE (e'.version ++ e'.archived) ≠ e'.body.bytes.length) (hq : e.cls ≠ .graphedEquation)
    (hco : coerce env.toEnv e' = ⟨.ok (), e', wc⟩) (hwc : ∀ w ∈ wc, w ∉ corruption) (hdot : '.' ∉ filename) :
    ∃ fs' ws, e'.save env ord name filename none none fs = ⟨.ok (), fs', ws⟩ ∧
      (∀ n, n ≠ pathOf name filename e.cls.extensions.1 → fs' n = fs n) ∧
      ∃ ws', openAs env.toEnv e.cls nm (pathOf name filename e.cls.extensions.1) fs' = ⟨.ok e', fs', ws'⟩ ∧
        (∀ w ∈ ws', w ∉ corruption) ∧ ∀ w ∈ wc, w ∈ ws' := by
  have hmeta : e'.metaLen = [0x0D, 0x00] := hm.trans hr.flash
  have hw : WF e' := by
    refine ⟨⟨Or.inr hmeta, by rw [ht]; exact hr.wf.typeId, by rw [hn]; exact hr.wf.name, hv, by rw [ha]; exact hr.wf.archived⟩,
      by rw [ha]; exact hr.wf.flag, fun h => ?_, by omega⟩
    rw [hmeta] at h
    exact absurd h (by decide)
  have hl : e'.len < 65536 := by
    unfold Ent.len Ent.metaLength Ent.calcLength
    rw [hmeta]
    simp [fromLE]
    omega
  have hsame : ({ e' with body := ⟨true, e'.body.bytes⟩ } : Ent) = e' := by
    rw [← hmut]
  have := save_open_coerced env ord name filename nm fs hw (fun _ => hno) (by rw [hc, ht]; exact hr.typed) (by rw [hc]; exact hq)
    (by rw [hsame]; exact hco) rfl rfl hwc hne hl hdot
  rw [hc] at this
  exact this

/-- Stored bytes of a class that is kept on loading. -/
theorem settled_coerce (env : Env V) {e e' : Ent} (hr : Ready e) (ht : e'.typeId = e.typeId) (hs : Settled env e') :
    coerce env e' = ⟨.ok (), e', []⟩ := by
  obtain ⟨t, h⟩ := length_one hr.wf.typeId
  exact coerce_settled env (ht.trans h) hs

/-- **C142, numbers**: a decimal literal in range loaded into a real number of version zero, saved and opened, is its value cut
to fourteen digits. -/
theorem C142_real (env : OsEnv V) (ord : Model → Nat) (e : Ent) (hr : Ready e) (hc : e.cls = .real) (hv : e.version = [0x00])
    (hb : e.body.bytes.length = 9) (l : Literal) (hvl : l.Valid) (hz : l.NoLeadingZeros) (s : Str) (hs : squash s = l.render)
    (hrange : InExponentRange l.magnitude) (name filename : Str) (hdot : '.' ∉ filename) (nm : Bytes) (fs : Files) :
    ∃ b m x, realLoadString s e.body = ⟨.ok (), b, []⟩ ∧ Truncates14 l.magnitude m x ∧
      ∃ fs' ws, Ent.save env ord { e with body := b } name filename none none fs = ⟨.ok (), fs', ws⟩ ∧
        ∃ o ws', openAs env.toEnv .real nm (pathOf name filename "8xn".toList) fs' = ⟨.ok o, fs', ws'⟩ ∧
          (∀ w ∈ ws', w ∉ corruption) ∧ o.name = e.name ∧ realDecimal o.body = .ok (l.sgn * m, x) := by
  obtain ⟨b0, rest, hbr⟩ : ∃ b0 rest, e.body.bytes = b0 :: rest := by
    rcases h : e.body.bytes with _ | ⟨a, l⟩
    · rw [h] at hb; simp at hb
    · exact ⟨a, l, rfl⟩
  have hbody : e.body = ⟨true, b0 :: rest⟩ := by rw [← hr.writable, ← hbr]
  have hrl : rest.length = 8 := by rw [hbr] at hb; simpa using hb
  obtain ⟨b', m, x, h1, h2, h3, h4, -, -⟩ := (C15_load_decimal l hvl hz s hs b0 rest hrl).2.1 hrange
  obtain ⟨fs', ws, g1, -, ws', g2, g3, -⟩ := stored_open env ord (e := e) (e' := { e with body := ⟨true, b'⟩ }) name filename nm fs hr
    rfl rfl rfl rfl rfl (by simp [hv]) rfl (by simp [h2]) (by intro h; simp at h; rw [h] at h2; simp at h2)
    (by
      simp only [hv, h2]
      rcases hr.wf.flag with h | h <;> rw [h] <;> decide)
    (by rw [hc]; decide) (coerce_plain env.toEnv (by simp only [hc]; rfl)) (by simp) hdot
  rw [hc] at g2
  exact ⟨⟨true, b'⟩, m, x, by rw [hbody]; exact h1, h3, fs', ws, g1, _, ws', g2, g3, rfl, h4⟩

/-- **C142, zero**: however it is written, it is zero with its sign when it is opened. -/
theorem C142_zero (env : OsEnv V) (ord : Model → Nat) (e : Ent) (hr : Ready e) (hc : e.cls = .real) (hv : e.version = [0x00])
    (hb : e.body.bytes.length = 9) (l : Literal) (hvl : l.Valid) (hz : l.NoLeadingZeros) (s : Str) (hs : squash s = l.render)
    (h0 : l.magnitude = 0) (name filename : Str) (hdot : '.' ∉ filename) (nm : Bytes) (fs : Files) :
    ∃ b, realLoadString s e.body = ⟨.ok (), b, []⟩ ∧
      ∃ fs' ws, Ent.save env ord { e with body := b } name filename none none fs = ⟨.ok (), fs', ws⟩ ∧
        ∃ o ws', openAs env.toEnv .real nm (pathOf name filename "8xn".toList) fs' = ⟨.ok o, fs', ws'⟩ ∧
          (∀ w ∈ ws', w ∉ corruption) ∧ o.name = e.name ∧ realDecimal o.body = .ok (0, -13) ∧
          signV.get o.body = .ok (if l.sign.isNeg then 1 else 0) := by
  obtain ⟨b0, rest, hbr⟩ : ∃ b0 rest, e.body.bytes = b0 :: rest := by
    rcases h : e.body.bytes with _ | ⟨a, l⟩
    · rw [h] at hb; simp at hb
    · exact ⟨a, l, rfl⟩
  have hbody : e.body = ⟨true, b0 :: rest⟩ := by rw [← hr.writable, ← hbr]
  have hrl : rest.length = 8 := by rw [hbr] at hb; simpa using hb
  obtain ⟨b', h1, h2, h3, h4, -⟩ := (C15_load_decimal l hvl hz s hs b0 rest hrl).1 h0
  obtain ⟨fs', ws, g1, -, ws', g2, g3, -⟩ := stored_open env ord (e := e) (e' := { e with body := ⟨true, b'⟩ }) name filename nm fs hr
    rfl rfl rfl rfl rfl (by simp [hv]) rfl (by simp [h2]) (by intro h; simp at h; rw [h] at h2; simp at h2)
    (by
      simp only [hv, h2]
      rcases hr.wf.flag with h | h <;> rw [h] <;> decide)
    (by rw [hc]; decide) (coerce_plain env.toEnv (by simp only [hc]; rfl)) (by simp) hdot
  rw [hc] at g2
  exact ⟨⟨true, b'⟩, by rw [hbody]; exact h1, fs', ws, g1, _, ws', g2, g3, rfl, h3, h4⟩

/-- **C142, lists**: numbers loaded into a list of version zero, saved and opened, are read back, unless there are none. -/
theorem C142_list_partial (env : OsEnv V) (ord : Model → Nat) (e : Ent) (hr : Ready e) (hc : e.cls = .realList ∨ e.cls = .complexList)
    (hv : e.version = [0x00]) (hb : 2 ≤ e.body.bytes.length) (lst : List Ent) (hne : lst ≠ [])
    (hn : lst.length * (if e.cls = .realList then 9 else 18) + 19 < 65536) (hfit : ∀ x ∈ lst, FitsList e.cls x)
    (name filename : Str) (hdot : '.' ∉ filename) (nm nm' : Bytes) (fs : Files) :
    ∃ e' ws, loadList lst e = ⟨.ok (), e', ws⟩ ∧
      ∃ fs' ws', e'.save env ord name filename none none fs = ⟨.ok (), fs', ws'⟩ ∧
        ∃ o ws'', openAs env.toEnv e.cls nm (pathOf name filename e.cls.extensions.1) fs' = ⟨.ok o, fs', ws''⟩ ∧
          (∀ w ∈ ws'', w ∉ corruption) ∧ o.name = e.name ∧ fromLE (o.body.bytes.take 2) = lst.length ∧
          ∃ es, list env.toEnv nm' o () = ⟨.ok es, (), []⟩ ∧ List.Forall₂ SameNumber lst es := by
  have hlen : (lst.flatMap fun x => x.body.bytes).length = lst.length * (if e.cls = .realList then 9 else 18) := by
    apply length_flatMap_const
    intro x hx
    rcases hfit x hx with ⟨h, h'⟩ | ⟨h, h'⟩
    · rw [if_pos h]; exact h'.2.1
    · rw [if_neg (by rw [h]; decide)]; exact h'.2.1
  have hpos : lst.length < 65536 := by
    split at hn <;> omega
  obtain ⟨e', h1, h2, h3, h4, h5, h6, h7⟩ := (C50_list_store e lst hc hr.writable hb).1 hpos
  obtain ⟨s1, s2, s3, s4, s5, -⟩ := h2
  simp only at s1 s2 s3 s4 s5
  have hbl : e'.body.bytes.length = lst.length * (if e.cls = .realList then 9 else 18) + 2 := by
    have := congrArg List.length h7
    rw [List.length_drop, hlen] at this
    omega
  obtain ⟨x, xs, rfl⟩ := List.exists_cons_of_ne_nil hne
  have hx := hfit x (by simp)
  have h2' : e'.body.bytes.getD 2 0 = x.body.bytes.getD 0 0 := by
    have hd : e'.body.bytes.getD 2 0 = (e'.body.bytes.drop 2).getD 0 0 := by
      simp [List.getD]
    rw [hd, h7, List.flatMap_cons]
    have hxl : 0 < x.body.bytes.length := by
      rcases hx with ⟨-, h⟩ | ⟨-, h⟩
      · rw [h.2.1]; omega
      · rw [h.2.1]; omega
    simp [List.getD, List.getElem?_append_left hxl]
  have hco : ∃ wc, coerce env.toEnv e' = ⟨.ok (), e', wc⟩ ∧ ∀ w ∈ wc, w ∉ corruption := by
    have h3l : 3 ≤ e'.body.bytes.length := by
      rw [hbl]; simp only [List.length_cons]; split <;> omega
    have hrun : coerce env.toEnv e' = coerceList e' := by
      rcases hc with h | h <;> simp [coerce, coerceTyped, PyM.bind_run, h3, h]
    have hd : dataStart e'.cls = 2 := by rw [h3]; rcases hc with h | h <;> rw [h] <;> rfl
    have heta : ∀ c, e'.cls = c → ({ e' with cls := c } : Ent) = e' := by rintro c rfl; rfl
    rw [hrun]
    rcases hx with ⟨h, hx1, hx2, hx3⟩ | ⟨h, hx1, hx2, hx3, hx4⟩
    · by_cases hp : x.cls = .realPiFraction
      · refine ⟨[.listInvalid], ?_, by decide⟩
        rw [hp] at hx3
        have h21 : (e'.body.bytes.getD 2 0).toNat % 32 = 1 := by
          rw [h2']
          have : 0x21 = (x.body.bytes.getD 0 0).toNat % 64 := Option.some.inj hx3
          omega
        have hg : Cls.getType ((e'.body.bytes.getD 2 0).toNat % 32) = some .realList := by rw [h21]; rfl
        obtain ⟨l, hd'⟩ := data_two hd h3l
        simp only [coerceList, PyM.bind_run, PyM.get_run, hd', byte0, PyM.ofExcept_run, and_31, hg]
        rfl
      · have key : ∀ c ∈ realClasses, c ≠ .realPiFraction → ∃ t, c.typeId = some t ∧ ∃ c', Cls.getType (t % 32) = some c' ∧ c'.isSub .realE = true := by
          decide +kernel
        obtain ⟨t, ht, c', hc', hs⟩ := key x.cls hx1 hp
        rw [ht] at hx3
        injection hx3 with hx3
        have : (e'.body.bytes.getD 2 0).toNat % 32 = t % 32 := by rw [h2']; omega
        exact ⟨[], by rw [(coerceList_run hd h3l (by rw [this]; exact hc')).1 hs, heta _ (h3.trans h)], by simp⟩
    · have : ∃ c', Cls.getType ((e'.body.bytes.getD 2 0).toNat % 32) = some c' ∧ c'.isSub .realE = false ∧ c'.isSub .complexE = true := by
        rw [h2']
        revert hx3
        generalize (x.body.bytes.getD 0 0).toNat = n
        intro hm
        simp only [List.mem_cons, List.not_mem_nil, or_false] at hm
        have hn : n % 32 = 0x0C ∨ n % 32 = 0x1B ∨ n % 32 = 0x1D ∨ n % 32 = 0x1E ∨ n % 32 = 0x1F := by omega
        rcases hn with h | h | h | h | h <;> rw [h] <;> exact ⟨_, rfl, by decide⟩
      obtain ⟨c', hc', hs, hs2⟩ := this
      exact ⟨[], by rw [(coerceList_run hd h3l hc').2 hs hs2, heta _ (h3.trans h)], by simp⟩
  obtain ⟨wc, hco, hwc⟩ := hco
  obtain ⟨fs', ws, g1, -, ws', g2, g3, -⟩ := stored_open env ord (e := e) (e' := e') name filename nm fs hr
    h3 s1 s2 s3 s5 (by rw [s4, hv]; rfl) h4 (by omega) (by intro h; rw [h] at h5; simp at h5)
    (by
      rw [s4, s5, hv, hbl]
      rcases hr.wf.flag with h | h <;> rw [h] <;> simp [fromLE] <;> split <;> omega)
    (by rcases hc with h | h <;> rw [h] <;> decide) hco hwc hdot
  refine ⟨e', _, h1, fs', ws, g1, e', ws', g2, g3, s3, h6, ?_⟩
  refine C50_list_read_partial env.toEnv nm' e' (x :: xs) ?_ (by rw [h3]; exact hfit) h7 (by rw [h3]; exact hc)
  unfold Ent.flashBytes Ent.metaLength
  rw [s1, hr.flash, s4, s5, hv]
  rcases hr.wf.flag with h | h <;> rw [h] <;> decide

/-- **C142, matrices**: a rectangular array of real numbers loaded into a matrix of version zero, saved and opened, is read
back. -/
theorem C142_matrix (env : OsEnv V) (ord : Model → Nat) (e : Ent) (hr : Ready e) (hc : e.cls = .matrix)
    (hv : e.version = [0x00]) (hb : 2 ≤ e.body.bytes.length) (rows : List (List Ent)) (w : Nat) (hw : 1 ≤ w ∧ w ≤ 255)
    (hh : 1 ≤ rows.length ∧ rows.length ≤ 255) (hrow : ∀ r ∈ rows, r.length = w) (hel : ∀ r ∈ rows, ∀ x ∈ r, RealElem x)
    (hn : rows.length * w * 9 + 19 < 65536) (name filename : Str) (hdot : '.' ∉ filename) (nm nm' : Bytes) (fs : Files) :
    ∃ e' ws, loadMatrix rows e = ⟨.ok (), e', ws⟩ ∧
      ∃ fs' ws', e'.save env ord name filename none none fs = ⟨.ok (), fs', ws'⟩ ∧
        ∃ o ws'', openAs env.toEnv .matrix nm (pathOf name filename "8xm".toList) fs' = ⟨.ok o, fs', ws''⟩ ∧
          (∀ w ∈ ws'', w ∉ corruption) ∧ o.name = e.name ∧
          ∃ es, matrix env.toEnv nm' o () = ⟨.ok es, (), []⟩ ∧ List.Forall₂ (List.Forall₂ SameNumber) rows es := by
  have hlen : (rows.flatten.flatMap fun x => x.body.bytes).length = rows.length * w * 9 := by
    have h9 : ∀ x ∈ rows.flatten, x.body.bytes.length = 9 := by
      intro x hx
      obtain ⟨r, hr, hx⟩ := List.mem_flatten.1 hx
      exact (hel r hr x hx).2.1
    rw [length_flatMap_const (n := 9) _ _ h9]
    congr 1
    rw [show rows.flatten = rows.flatMap fun row => row by simp, length_flatMap_const (n := w) _ _ hrow]
  obtain ⟨e', ws, h1, -, -, h2, h3, h4, h5⟩ := C52_matrix_store e rows w hc hr.writable hb hw hh hrow
  obtain ⟨s1, s2, s3, s4, s5, -⟩ := h2
  simp only at s1 s2 s3 s4 s5
  have hmut : e'.body.mutable = true := by
    obtain ⟨a, b, d, hd⟩ : ∃ a b d, e.body.bytes = a :: b :: d := by
      rcases h : e.body.bytes with _ | ⟨a, _ | ⟨b, d⟩⟩
      · rw [h] at hb; simp at hb
      · rw [h] at hb; simp at hb
      · exact ⟨a, b, d, rfl⟩
    have h := loadMatrix_ok (e := e) (rows := rows) (w := w) hc
      (show e.body = ⟨true, a :: b :: d⟩ by rw [← hr.writable, ← hd]) (by omega) (by omega) (by rintro rfl; simp at hh) hrow
    have := congrArg Out.st (h1.symm.trans h)
    simp only at this
    rw [this]
  have hbl : e'.body.bytes.length = rows.length * w * 9 + 2 := by
    have k1 := congrArg List.length h5
    have k2 := congrArg List.length h4
    rw [List.length_drop, hlen] at k1
    simp only [List.length_map, List.length_take, List.length_cons, List.length_nil] at k2
    omega
  obtain ⟨fs', ws', g1, -, ws'', g2, g3, -⟩ := stored_open env ord (e := e) (e' := e') name filename nm fs hr
    h3 s1 s2 s3 s5 (by rw [s4, hv]; rfl) hmut (by omega) (by intro h; rw [h] at hbl; simp at hbl)
    (by
      rw [s4, s5, hv, hbl]
      rcases hr.wf.flag with h | h <;> rw [h] <;> simp [fromLE] <;> omega)
    (by rw [hc]; decide) (coerce_plain env.toEnv (by rw [h3, hc]; rfl)) (by simp) hdot
  rw [hc] at g2
  refine ⟨e', ws, h1, fs', ws', g1, e', ws'', g2, g3, s3, ?_⟩
  refine C52_matrix_read_partial env.toEnv nm' e' rows w (h3.trans hc) ?_ hw.1 hrow hel h4 h5
  unfold Ent.flashBytes Ent.metaLength
  rw [s1, hr.flash, s4, s5, hv]
  rcases hr.wf.flag with h | h <;> rw [h] <;> decide

/-- **C142, monochrome pictures**: an array of black and white pixels, saved and opened, is read back. -/
theorem C142_mono (env : OsEnv V) (ord : Model → Nat) (e : Ent) (hr : Ready e) (hc : e.cls = .monoPicture)
    (hb : 2 ≤ e.body.bytes.length) (arr : List (List Int)) (hs : Shape 96 63 arr) (hbw : ∀ row ∈ arr, ∀ p ∈ row, IsBW p)
    (name filename : Str) (hdot : '.' ∉ filename) (nm : Bytes) (fs : Files) :
    ∃ e' ws, loadMono env.toEnv arr e = ⟨.ok (), e', ws⟩ ∧
      ∃ fs' ws', e'.save env ord name filename none none fs = ⟨.ok (), fs', ws'⟩ ∧
        ∃ o ws'', openAs env.toEnv .monoPicture nm (pathOf name filename "8xi".toList) fs' = ⟨.ok o, fs', ws''⟩ ∧
          (∀ w ∈ ws'', w ∉ corruption) ∧ o.name = e.name ∧ monoArray o = .ok arr := by
  obtain ⟨e', ws, h1, h2, h3, h4, h5, h6, h7, h8, h9, h10, -, h12⟩ := C56_mono env.toEnv e arr hc hr.writable hb hs
  obtain ⟨fs', ws', g1, -, ws'', g2, g3, -⟩ := stored_open env ord (e := e) (e' := e') name filename nm fs hr
    h2 h5 h4 h3 h6 (by rw [h7]; rfl) h8 (by omega) (by intro h; rw [h] at h9; simp at h9)
    (by rw [h7, h6, h9]; rcases hr.wf.flag with h | h <;> rw [h] <;> decide)
    (by rw [hc]; decide) (settled_coerce env.toEnv hr h4
      ⟨by rw [h2, h4]; exact hr.typed, by rw [h2]; exact Or.inr (Or.inr (Or.inr (Or.inr (Or.inr (Or.inl ⟨hc, h10⟩)))))⟩) (by simp) hdot
  rw [hc] at g2
  exact ⟨e', ws, h1, fs', ws', g1, e', ws'', g2, g3, h3, h12 hbw⟩

/-- **C142, colour pictures**: an array of pixels in the colours of the calculator, saved and opened, is read back. -/
theorem C142_picture (env : OsEnv V) (ord : Model → Nat) (e : Ent) (hr : Ready e) (hc : e.cls = .picture)
    (hb : 2 ≤ e.body.bytes.length) (arr : List (List RGB)) (hs : Shape 266 165 arr) (hcol : ∀ row ∈ arr, ∀ p ∈ row, p ∈ colours)
    (name filename : Str) (hdot : '.' ∉ filename) (nm : Bytes) (fs : Files) :
    ∃ e' ws, loadPicture env.toEnv arr e = ⟨.ok (), e', ws⟩ ∧
      ∃ fs' ws', e'.save env ord name filename none none fs = ⟨.ok (), fs', ws'⟩ ∧
        ∃ o ws'', openAs env.toEnv .picture nm (pathOf name filename "8ci".toList) fs' = ⟨.ok o, fs', ws''⟩ ∧
          (∀ w ∈ ws'', w ∉ corruption) ∧ o.name = e.name ∧ pictureArray o = .ok arr := by
  obtain ⟨e', ws, out, h1, h2, h3, h4, h5, h6, h7, h8, h9, h10, h11, -, -, h12⟩ := C56_picture env.toEnv e arr hc hr.writable hb hs
  obtain ⟨fs', ws', g1, -, ws'', g2, g3, -⟩ := stored_open env ord (e := e) (e' := e') name filename nm fs hr
    h2 h5 h4 h3 h6 (by rw [h7]; rfl) h8 (by omega) (by intro h; rw [h] at h9; simp at h9)
    (by rw [h7, h6, h9]; rcases hr.wf.flag with h | h <;> rw [h] <;> decide)
    (by rw [hc]; decide) (settled_coerce env.toEnv hr h4
      ⟨by rw [h2, h4]; exact hr.typed, by rw [h2]; exact Or.inr (Or.inr (Or.inr (Or.inr (Or.inr (Or.inr (Or.inl ⟨hc, h10⟩))))))⟩) (by simp) hdot
  rw [hc] at g2
  rw [h12 hcol] at h11
  exact ⟨e', ws, h1, fs', ws', g1, e', ws'', g2, g3, h3, h11⟩

/-- **C142, images**: an array of colours that an image can represent, saved and opened, is read back; there is a warning of an unexpected
length. -/
theorem C142_image (env : OsEnv V) (ord : Model → Nat) (e : Ent) (hr : Ready e) (hc : e.cls = .image)
    (hb : 3 ≤ e.body.bytes.length) (arr : List (List RGB)) (hs : Shape 133 83 arr) (hp : ∀ row ∈ arr, ∀ p ∈ row, IsByteColour p)
    (hcol : ∀ row ∈ arr, ∀ p ∈ row, Is565 p)
    (name filename : Str) (hdot : '.' ∉ filename) (nm : Bytes) (fs : Files) :
    ∃ e' ws, loadImage env.toEnv arr e = ⟨.ok (), e', ws⟩ ∧
      ∃ fs' ws', e'.save env ord name filename none none fs = ⟨.ok (), fs', ws'⟩ ∧
        ∃ o ws'', openAs env.toEnv .image nm (pathOf name filename "8ca".toList) fs' = ⟨.ok o, fs', ws''⟩ ∧
          (∀ w ∈ ws'', w ∉ corruption) ∧ .pictureLength ∈ ws'' ∧ o.name = e.name ∧ imageArray o = .ok arr := by
  obtain ⟨d, out, hrun, hlen, hread, h1, h2⟩ := image_store env.toEnv e arr hc hr.writable hb hs hp
  have hmid : ((e.body.bytes.drop 2).take 1).length = 1 := by
    rw [List.length_take, List.length_drop]; omega
  have hl : (toLE 2 22244 ++ (e.body.bytes.drop 2).take 1 ++ d).length = 22247 := by
    rw [List.length_append, List.length_append, length_toLE, hmid, hlen]
  have hco : coerce env.toEnv { e with version := [0x00], body := ⟨true, toLE 2 22244 ++ (e.body.bytes.drop 2).take 1 ++ d⟩ } =
      ⟨.ok (), { e with version := [0x00], body := ⟨true, toLE 2 22244 ++ (e.body.bytes.drop 2).take 1 ++ d⟩ }, [.pictureLength]⟩ := by
    have hrun : coerce env.toEnv { e with version := [0x00], body := ⟨true, toLE 2 22244 ++ (e.body.bytes.drop 2).take 1 ++ d⟩ } =
        coercePicture { e with version := [0x00], body := ⟨true, toLE 2 22244 ++ (e.body.bytes.drop 2).take 1 ++ d⟩ } := by
      simp [coerce, coerceTyped, PyM.bind_run, hc]
    have h2 : fromLE ((toLE 2 22244 ++ (e.body.bytes.drop 2).take 1 ++ d).take 2) = 22244 := by
      rw [List.append_assoc, List.take_left' (length_toLE 2 _)]
      decide
    rw [hrun, coercePicture_run (by simp only [hc]; rfl)]
    simp only [h2]
    rfl
  obtain ⟨fs', ws', g1, -, ws'', g2, g3, g4⟩ := stored_open env ord (e := e)
    (e' := { e with version := [0x00], body := ⟨true, toLE 2 22244 ++ (e.body.bytes.drop 2).take 1 ++ d⟩ }) name filename nm fs hr
    rfl rfl rfl rfl rfl rfl rfl (by simp only [hl]; decide) (by intro h; simp only at h; rw [h] at hl; simp at hl)
    (by simp only [hl]; rcases hr.wf.flag with h | h <;> rw [h] <;> decide) (by rw [hc]; decide) hco (by decide) hdot
  rw [hc] at g2
  refine ⟨_, _, hrun, fs', ws', g1, _, ws'', g2, g3, g4 _ (by simp), rfl, ?_⟩
  rw [← h2 hcol]
  refine hread _ rfl ?_
  exact List.drop_left' (by rw [List.length_append, length_toLE, hmid])

/-- **C142 is false of the empty list**: its file cannot be opened. -/
theorem C142_empty_false : ∃ (e : Ent) (fs : Files), Ready e ∧ e.cls = .realList ∧ e.version = [0x00] ∧ (loadList [] e).res = .ok () ∧
    ((loadList [] e).st.save exOs (fun _ => 0) "L1".toList [] none none (fun _ => none)).res = .ok () ∧
    ((loadList [] e).st.save exOs (fun _ => 0) "L1".toList [] none none (fun _ => none)).st = fs ∧
    (openAs exOs.toEnv .realList sampleEnv.unnamed "L1.8xl".toList fs).res = .error .indexError := by
  refine ⟨sampleList, _, ⟨⟨⟨Or.inr rfl, rfl, rfl, rfl, rfl⟩, Or.inl rfl, by decide, by decide⟩, rfl, rfl, rfl⟩, rfl, rfl,
    by decide +kernel, by decide +kernel, rfl, by decide +kernel⟩

/-- The list `{1, 2/3}` and the number `-12.5` through a file. -/
example :
    (match sampleList.save exOs (fun _ => 0) "L1".toList [] none none (fun _ => none) with
    | ⟨.ok (), fs, _⟩ =>
      match openAs exOs.toEnv .realList sampleEnv.unnamed "L1.8xl".toList fs with
      | ⟨.ok o, _, ws⟩ => o == sampleList && ws.all (· ∉ corruption)
      | _ => false
    | _ => false) = true ∧
    (match Ent.save exOs (fun _ => 0) ⟨.real, [0x0D, 0x00], [0x00], [0x41, 0, 0, 0, 0, 0, 0, 0], [0x00], [0x00],
        (realLoadString "~12.5".toList ⟨true, List.replicate 9 0⟩).st⟩ "A".toList [] none none (fun _ => none) with
    | ⟨.ok (), fs, _⟩ =>
      match openAs exOs.toEnv .real sampleEnv.unnamed "A.8xn".toList fs with
      | ⟨.ok o, _, ws⟩ => o.body.bytes == [0x80, 0x81, 0x12, 0x50, 0, 0, 0, 0, 0] && ws.all (· ∉ corruption)
      | _ => false
    | _ => false) = true ∧ Ready sampleList :=
  ⟨by decide +kernel, by decide +kernel, ⟨⟨⟨Or.inr rfl, rfl, rfl, rfl, rfl⟩, Or.inl rfl, by decide, by decide⟩, rfl, rfl, rfl⟩⟩

end Verif
