import Verif.Proofs.NumberFile
import Verif.Props.ValueFile

/-! C148: numbers of all kinds, stored in an entry, saved in a file and opened again. -/

namespace Verif
open Spec Ent
variable {V : Type} [LinearOrder V]

/-- The version is one of those the class of the entry is used with. -/
def UsualVersion (e : Ent) : Prop := ∃ v ∈ e.cls.versions, e.version = [UInt8.ofNat v]

/-- **C148, real numbers**: whatever a text makes of a real number of any kind, it is that when the number was saved and opened; the
warnings do not tell of damage, and no other file is changed. -/
theorem C148_real (env : OsEnv V) (ord : Model → Nat) (e : Ent) (hr : Ready e) (hc : e.cls ∈ realClasses) (hv : UsualVersion e)
    (hb : e.body.bytes.length = 9) (s : Str) (b : Buf) (w : List Warn) (hs : loadRealString e.cls s e.body = ⟨.ok (), b, w⟩)
    (name filename : Str) (hdot : '.' ∉ filename) (nm : Bytes) (fs : Files) :
    ∃ fs' ws, Ent.save env ord { e with body := b } name filename none none fs = ⟨.ok (), fs', ws⟩ ∧
      (∀ n, n ≠ pathOf name filename e.cls.extensions.1 → fs' n = fs n) ∧
      ∃ ws', openAs env.toEnv e.cls nm (pathOf name filename e.cls.extensions.1) fs' = ⟨.ok { e with body := b }, fs', ws'⟩ ∧
        ∀ x ∈ ws', x ∉ corruption := by
  obtain ⟨b0, rest, hbr⟩ : ∃ b0 rest, e.body.bytes = b0 :: rest := by
    rcases h : e.body.bytes with _ | ⟨a, l⟩
    · rw [h] at hb; simp at hb
    · exact ⟨a, l, rfl⟩
  have hbody : e.body = ⟨true, b0 :: rest⟩ := by rw [← hr.writable, ← hbr]
  have hrl : rest.length = 8 := by rw [hbr] at hb; simpa using hb
  obtain ⟨b', l', h1, h2, -⟩ := keepsNine_string e.cls s b0 rest hrl
  rw [← hbody, hs] at h1
  cases (show b = _ from h1)
  obtain ⟨v, hv, hv'⟩ := hv
  have key : ∀ c ∈ realClasses, Plain c = true ∧ c ≠ .graphedEquation ∧ ∀ v ∈ c.versions, v % 256 ≠ 9 := by decide +kernel
  obtain ⟨k1, k2, k3⟩ := key _ hc
  obtain ⟨fs', ws, g1, g2, ws', g3, g4, -⟩ := stored_open env ord (e := e) (e' := { e with body := ⟨true, b' :: l'⟩ }) name filename nm fs hr
    rfl rfl rfl rfl rfl (by simp [hv']) rfl (by simp [h2]) (by simp)
    (by
      have := k3 v hv
      have h256 : (UInt8.ofNat v).toNat = v % 256 := by simp
      simp only [hv', List.length_cons, h2]
      rcases hr.wf.flag with h | h <;> rw [h] <;> (simp only [List.cons_append, List.nil_append, fromLE, h256]; simp; try omega))
    k2 (coerce_plain env.toEnv k1) (by simp) hdot
  exact ⟨fs', ws, g1, g2, ws', g3, g4⟩

/-- Saving and opening a complex number the class of which agrees with its parts. -/
theorem complex_open (env : OsEnv V) (ord : Model → Nat) {e e' : Ent} (hr : Ready e) (hf : SameFrame e e') (ha : Agrees e')
    (hv : e.cls ∈ complexClasses ∧ UsualVersion e) (name filename : Str) (hdot : '.' ∉ filename) (nm : Bytes) (fs : Files) :
    ∃ fs' ws, e'.save env ord name filename none none fs = ⟨.ok (), fs', ws⟩ ∧
      (∀ n, n ≠ pathOf name filename e'.cls.extensions.1 → fs' n = fs n) ∧
      ∃ ws', openAs env.toEnv e'.cls nm (pathOf name filename e'.cls.extensions.1) fs' = ⟨.ok e', fs', ws'⟩ ∧
        ∀ x ∈ ws', x ∉ corruption := by
  have hmeta : e'.metaLen = [0x0D, 0x00] := hf.metaLen.trans hr.flash
  have hlt : imagType e'.body.bytes < 64 := Nat.mod_lt _ (by omega)
  have h256 : (UInt8.ofNat (imagType e'.body.bytes)).toNat = imagType e'.body.bytes := by simp; omega
  have hw : WF e' := by
    refine ⟨⟨Or.inr hmeta, by rw [ha.section']; rfl, by rw [hf.name]; exact hr.wf.name, by rw [hf.version]; exact hr.wf.version,
      by rw [hf.archived]; exact hr.wf.archived⟩, by rw [hf.archived]; exact hr.wf.flag, fun h => ?_, by rw [ha.length]; decide⟩
    rw [hmeta] at h
    exact absurd h (by decide)
  have hl : e'.len < 65536 := by
    unfold Ent.len Ent.metaLength Ent.calcLength
    rw [hmeta, ha.length]
    simp [fromLE]
  have hty : e'.cls.typeId = some (fromLE e'.typeId) := by
    rw [ha.type, ha.section']
    simp only [fromLE, h256]
    rfl
  have hno : ¬FlashIsLength e' := by
    unfold FlashIsLength
    obtain ⟨hc, v, hv, hv'⟩ := hv
    have key : ∀ c ∈ complexClasses, ∀ v ∈ c.versions, v % 256 ≠ 18 := by decide +kernel
    have := key _ hc v hv
    have h256 : (UInt8.ofNat v).toNat = v % 256 := by simp
    rw [hf.version, hf.archived, hv', ha.length]
    rcases hr.wf.flag with h | h <;> rw [h] <;> (simp only [List.cons_append, List.nil_append, fromLE, h256]; simp; try omega)
  have hgt : Cls.getType (imagType e'.body.bytes) = some e'.cls := by
    have key : ∀ c ∈ complexClasses, ∀ t ∈ c.typeId, Cls.getType t = some c := by decide +kernel
    exact key _ ha.complex _ ha.type
  have hsame : ({ e' with body := ⟨true, e'.body.bytes⟩ } : Ent) = e' := by rw [← ha.writable]
  have hco : coerce env.toEnv { e' with body := ⟨true, e'.body.bytes⟩ } = ⟨.ok (), e', []⟩ := by
    rw [hsame]
    have hrun : coerce env.toEnv e' = coerceComplex e' := by
      have := ha.complex
      simp only [complexClasses, List.mem_cons, List.not_mem_nil, or_false] at this
      rcases this with h | h | h | h | h <;> simp [coerce, coerceTyped, PyM.bind_run, h]
    rw [hrun, coerceComplex_run (by rw [ha.length]; decide) hgt, ← ha.section']
  obtain ⟨fs', ws, g1, g2, ws', g3, g4, -⟩ := save_open_coerced env ord name filename nm fs hw (fun _ => hno) hty
    (by intro h; have := ha.complex; rw [h] at this; revert this; decide) hco rfl rfl (by simp)
    (by intro h; have := ha.length; rw [h] at this; simp at this) hl hdot
  exact ⟨fs', ws, g1, g2, ws', g3, g4⟩

/-- **C148, complex numbers from text**: whatever a text makes of a complex number, of whatever kinds its parts are then, it is that when
the number was saved and opened with the class that it then has. -/
theorem C148_complex (env : OsEnv V) (ord : Model → Nat) (e : Ent) (hr : Ready e) (hc : e.cls ∈ complexClasses) (hv : UsualVersion e)
    (hb : e.body.bytes.length = 18) (s : Str) (e' : Ent) (w : List Warn) (hs : loadComplexString s e = ⟨.ok (), e', w⟩)
    (name filename : Str) (hdot : '.' ∉ filename) (nm : Bytes) (fs : Files) :
    e'.cls ∈ complexClasses ∧ e'.name = e.name ∧ e'.version = e.version ∧ e'.archived = e.archived ∧
    ∃ fs' ws, e'.save env ord name filename none none fs = ⟨.ok (), fs', ws⟩ ∧
      (∀ n, n ≠ pathOf name filename e'.cls.extensions.1 → fs' n = fs n) ∧
      ∃ ws', openAs env.toEnv e'.cls nm (pathOf name filename e'.cls.extensions.1) fs' = ⟨.ok e', fs', ws'⟩ ∧
        ∀ x ∈ ws', x ∉ corruption := by
  obtain ⟨ha, hf⟩ := loadComplex_agrees hr.writable hb hs
  exact ⟨ha.complex, hf.name, hf.version, hf.archived, complex_open env ord hr hf ha ⟨hc, hv⟩ name filename hdot nm fs⟩

/-- **C148, complex numbers from floats**. -/
theorem C148_float (env : OsEnv V) (ord : Model → Nat) (e : Ent) (hr : Ready e) (hc : e.cls ∈ complexClasses) (hv : UsualVersion e)
    (hb : e.body.bytes.length = 18) (x y : PyFloat) (e' : Ent) (w : List Warn) (hs : loadComplexNumber x y e = ⟨.ok (), e', w⟩)
    (name filename : Str) (hdot : '.' ∉ filename) (nm : Bytes) (fs : Files) :
    e'.cls ∈ complexClasses ∧ e'.name = e.name ∧ e'.version = e.version ∧ e'.archived = e.archived ∧
    ∃ fs' ws, e'.save env ord name filename none none fs = ⟨.ok (), fs', ws⟩ ∧
      (∀ n, n ≠ pathOf name filename e'.cls.extensions.1 → fs' n = fs n) ∧
      ∃ ws', openAs env.toEnv e'.cls nm (pathOf name filename e'.cls.extensions.1) fs' = ⟨.ok e', fs', ws'⟩ ∧
        ∀ x ∈ ws', x ∉ corruption := by
  have hs' : loadComplexBody x y e = ⟨.ok (), e', w⟩ := by
    unfold loadComplexNumber at hs
    rw [PyM.bind_ok (PyM.get_run e)] at hs
    split at hs
    · exact hs
    · exact hs
    · cases congrArg Out.res hs
  obtain ⟨ha, hf⟩ := loadComplexBody_agrees hr.writable hb hs'
  exact ⟨ha.complex, hf.name, hf.version, hf.archived, complex_open env ord hr hf ha ⟨hc, hv⟩ name filename hdot nm fs⟩

/-- **C148, complex numbers with an assigned part**: a real number of any kind assigned as imaginary part. -/
theorem C148_assigned (env : OsEnv V) (ord : Model → Nat) (e : Ent) (hr : Ready e) (hc : e.cls ∈ complexClasses) (hv : UsualVersion e)
    (hb : e.body.bytes.length = 18) (c : Cls) (hcr : c ∈ realClasses) (v : Bytes) (hlen : v.length = 9)
    (name filename : Str) (hdot : '.' ∉ filename) (nm : Bytes) (fs : Files) :
    ∃ v' e', putImag c ⟨true, v⟩ e = ⟨.ok v', e', []⟩ ∧ e'.cls ∈ complexClasses ∧
      ∃ fs' ws, e'.save env ord name filename none none fs = ⟨.ok (), fs', ws⟩ ∧
        (∀ n, n ≠ pathOf name filename e'.cls.extensions.1 → fs' n = fs n) ∧
        ∃ ws', openAs env.toEnv e'.cls nm (pathOf name filename e'.cls.extensions.1) fs' = ⟨.ok e', fs', ws'⟩ ∧
          ∀ x ∈ ws', x ∉ corruption := by
  obtain ⟨re, im, hbody, h1, h2⟩ := two_parts hr.writable hb
  match v, hlen with
  | b :: l, hlen =>
    obtain ⟨v', e', k1, k2, k3⟩ := putImag_agrees hbody h1 h2 hcr ⟨b, l, rfl, by simpa using hlen⟩
    exact ⟨v', e', k1, k2.complex, complex_open env ord hr k3 k2 ⟨hc, hv⟩ name filename hdot nm fs⟩

/-- The number 3/4 in the name of A. -/
def fileFraction : Ent := ⟨.realFraction, [0x0D, 0x00], [0x18], [0x41, 0, 0, 0, 0, 0, 0, 0], [0x06], [0x00], ⟨true, clearFull .realFraction⟩⟩

/-- A complex number in the name of A. -/
def fileComplex : Ent := ⟨.complex, [0x0D, 0x00], [0x0C], [0x41, 0, 0, 0, 0, 0, 0, 0], [0x0B], [0x80], ⟨true, clearFull .complex⟩⟩

/-- The conditions hold of both. -/
example : Ready fileFraction ∧ fileFraction.cls ∈ realClasses ∧ UsualVersion fileFraction ∧ fileFraction.body.bytes.length = 9 ∧
    Ready fileComplex ∧ fileComplex.cls ∈ complexClasses ∧ UsualVersion fileComplex ∧ fileComplex.body.bytes.length = 18 :=
  ⟨⟨⟨⟨Or.inr rfl, rfl, rfl, rfl, rfl⟩, Or.inl rfl, by decide, by decide +kernel⟩, rfl, rfl, rfl⟩, by decide, ⟨6, by decide, rfl⟩,
    by decide +kernel,
    ⟨⟨⟨Or.inr rfl, rfl, rfl, rfl, rfl⟩, Or.inr rfl, by decide, by decide +kernel⟩, rfl, rfl, rfl⟩, by decide, ⟨0x0B, by decide, rfl⟩,
    by decide +kernel⟩

/-- `1/4 + 2i`, with a fraction as real part, and `-3/4` through a file. -/
example :
    (match loadComplexString "1/4 + 2i".toList fileComplex with
    | ⟨.ok (), e, _⟩ =>
      match e.save exOs (fun _ => 0) "A".toList [] none none (fun _ => none) with
      | ⟨.ok (), fs, _⟩ =>
        match openAs exOs.toEnv .complex sampleEnv.unnamed "A.8xc".toList fs with
        | ⟨.ok o, _, ws⟩ => o == e && e.body.bytes.getD 0 0 == 0x1B && ws.all (· ∉ corruption)
        | _ => false
      | _ => false
    | _ => false) = true ∧
    (match loadRealString .realFraction "-3/4".toList fileFraction.body with
    | ⟨.ok (), b, _⟩ =>
      match Ent.save exOs (fun _ => 0) { fileFraction with body := b } "A".toList [] none none (fun _ => none) with
      | ⟨.ok (), fs, _⟩ =>
        match openAs exOs.toEnv .realFraction sampleEnv.unnamed "A.8xn".toList fs with
        | ⟨.ok o, _, ws⟩ => o == { fileFraction with body := b } && ws.all (· ∉ corruption)
        | _ => false
      | _ => false
    | _ => false) = true := by
  decide +kernel

end Verif
