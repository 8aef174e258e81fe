import Verif.Spec.Flash
import Verif.Proofs.Group
import Verif.Proofs.Var

/-! Lemmas about flash files. -/

namespace Verif
open Spec

/-! ### Hexadecimal text -/

theorem forall_byte {p : UInt8 → Prop} (h : ∀ n, n < 256 → p (UInt8.ofNat n)) (b : UInt8) : p b := by
  have := h b.toNat (UInt8.toNat_lt b)
  rwa [UInt8.ofNat_toNat] at this

theorem char_toNat : ∀ n, n < 256 → (Char.ofNat n).toNat = n := by decide +kernel

theorem hexByteVal_digit {c : UInt8} {x : Nat} (h : HexDigit c x) : hexByteVal c = some x ∧ x < 16 := by
  have hx : x < 16 := by
    rcases h with h | h <;>
    · have := (List.getElem?_eq_some_iff.1 h).1
      simpa using this
  refine ⟨?_, hx⟩
  have hc : ∀ k : Nat, k < 256 → Char.ofNat c.toNat = Char.ofNat k → c = UInt8.ofNat k := by
    intro k hk he
    have h1 := char_toNat _ (UInt8.toNat_lt c)
    have h2 := char_toNat k hk
    rw [he, h2] at h1
    apply UInt8.toNat_inj.1
    rw [← h1]; simp; omega
  have key : ∀ x, x < 16 → ∀ l ∈ [[48,49,50,51,52,53,54,55,56,57,65,66,67,68,69,70], [48,49,50,51,52,53,54,55,56,57,97,98,99,100,101,102]],
      hexByteVal (UInt8.ofNat (l.getD x 0)) = some x := by decide
  have hu : ∀ x, x < 16 → "0123456789ABCDEF".toList[x]? = some (Char.ofNat ([48,49,50,51,52,53,54,55,56,57,65,66,67,68,69,70].getD x 0)) := by
    decide
  have hl : ∀ x, x < 16 → "0123456789abcdef".toList[x]? = some (Char.ofNat ([48,49,50,51,52,53,54,55,56,57,97,98,99,100,101,102].getD x 0)) := by
    decide
  rcases h with h | h
  · rw [hu x hx] at h
    rw [hc _ ((by decide : ∀ x, x < 16 → [48,49,50,51,52,53,54,55,56,57,65,66,67,68,69,70].getD x 0 < 256) x hx) (Option.some.inj h).symm]
    exact key x hx _ (by simp)
  · rw [hl x hx] at h
    rw [hc _ ((by decide : ∀ x, x < 16 → [48,49,50,51,52,53,54,55,56,57,97,98,99,100,101,102].getD x 0 < 256) x hx) (Option.some.inj h).symm]
    exact key x hx _ (by simp)

theorem hexSpace_digit {c : UInt8} {x : Nat} (h : hexByteVal c = some x) : hexSpace c = false := by
  have : ∀ c : UInt8, (hexByteVal c).isSome → hexSpace c = false := forall_byte (by decide +kernel)
  exact this c (by rw [h]; rfl)

theorem bytesFromHex_text {s d r e : Bytes} (h : HexText s d) (hr : bytesFromHex r = .ok e) : bytesFromHex (s ++ r) = .ok (d ++ e) := by
  induction h with
  | nil => exact hr
  | cons ha hb hs ih =>
    obtain ⟨h1, -⟩ := hexByteVal_digit ha
    obtain ⟨h2, -⟩ := hexByteVal_digit hb
    simp only [List.cons_append, bytesFromHex, hexSpace_digit h1, h1, h2, ih]
    simp

theorem length_hexText {s d : Bytes} (h : HexText s d) : s.length = 2 * d.length := by
  induction h with
  | nil => rfl
  | cons ha hb hs ih => simp only [List.length_cons, ih]; omega

theorem hexDigit_ok : ∀ x, x < 16 → HexDigit (hexByte x) x := by
  intro x hx
  left
  exact (by decide : ∀ x, x < 16 → "0123456789ABCDEF".toList[x]? = some (Char.ofNat (hexByte x).toNat)) x hx

theorem hex02_eq {n : Nat} (h : n < 256) : hex02 n = [hexByte (n / 16), hexByte (n % 16)] := by
  unfold hex02
  by_cases h16 : n < 16
  · rw [if_pos h16, Nat.div_eq_of_lt h16, Nat.mod_eq_of_lt h16]; rfl
  · rw [if_neg h16]
    obtain ⟨m, rfl⟩ : ∃ m, n = m + 2 := ⟨n - 2, by omega⟩
    unfold hexDigits
    rw [if_neg h16]
    unfold hexDigits
    have : (m + 2) / 16 < 16 := by omega
    obtain ⟨k, rfl⟩ : ∃ k, m = k + 1 := ⟨m - 1, by omega⟩
    simp only [if_pos this]

theorem hex02_text {n : Nat} (h : n < 256) : HexText (hex02 n) [UInt8.ofNat n] := by
  rw [hex02_eq h]
  have := HexText.cons (hexDigit_ok (n / 16) (by omega)) (hexDigit_ok (n % 16) (by omega)) .nil
  rwa [show 16 * (n / 16) + n % 16 = n by omega] at this

theorem parseHex_hex02 {n : Nat} (h : n < 256) : parseHex (hex02 n) = .ok n := by
  rw [hex02_eq h]
  have h1 := (hexByteVal_digit (hexDigit_ok (n / 16) (by omega))).1
  have h2 := (hexByteVal_digit (hexDigit_ok (n % 16) (by omega))).1
  unfold parseHex
  rw [if_neg (by simp)]
  simp only [List.foldlM_cons, List.foldlM_nil, h1, h2]
  show Except.ok _ = _
  congr 1
  omega

/-! ### Blocks -/

namespace Block

theorem bytesFromHex_record {k : Block} {a : Bytes} {t : UInt8} {s d : Bytes} (ha : HexText k.address a)
    (ht : HexText k.blockType [t]) (hs : HexText s d) (hd : d.length ≤ 255) :
    bytesFromHex (sizeText s ++ k.address ++ k.blockType ++ s) = .ok (UInt8.ofNat d.length :: (a ++ (t :: d))) := by
  have hn : s.length / 2 = d.length := by rw [length_hexText hs]; omega
  have h4 := bytesFromHex_text hs (r := []) (e := []) rfl
  have h3 := bytesFromHex_text ht h4
  have h2 := bytesFromHex_text ha h3
  have h1 := bytesFromHex_text (hex02_text (n := d.length) (by omega)) h2
  unfold sizeText
  rw [hn]
  simpa using h1

theorem checksum_record {k : Block} {a : Bytes} {t : UInt8} {s d : Bytes} (ha : HexText k.address a)
    (ht : HexText k.blockType [t]) (hs : HexText s d) (hd : d.length ≤ 255) :
    k.checksumOf s = .ok (hex02 ((-((byteSum (UInt8.ofNat d.length :: (a ++ (t :: d))) : Nat) : Int)) % 256).toNat) := by
  unfold checksumOf
  rw [bytesFromHex_record ha ht hs hd]
  rfl

theorem load_run' {size c c' : Bytes} {n : Nat} {a t d post : Bytes} (hsz : size.length = 2) (hn : parseHex size = .ok n)
    (ha : a.length = 4) (ht : t.length = 2) (hd : d.length = 2 * n) (hcl : c.length = 2)
    (hc : checksumOf ⟨a, t, some d⟩ d = .ok c') (b : UInt8) (k0 : Block) :
    load (b :: (size ++ (a ++ (t ++ (d ++ (c ++ post)))))) k0 = ⟨.ok (), ⟨a, t, some d⟩,
      (if t = [0x30, 0x30] ∨ t = [0x30, 0x31] ∨ t = [0x30, 0x32] then [] else [.blockType]) ++
      if c = c' then [] else [.blockChecksum]⟩ := by
  obtain ⟨s1, h1, r1⟩ := Stream.read_mid (s := ⟨b :: (size ++ (a ++ (t ++ (d ++ (c ++ post))))), 1⟩) (n := 2) (mid := size)
    (post := a ++ (t ++ (d ++ (c ++ post)))) rfl hsz
  obtain ⟨s2, h2, r2⟩ := Stream.read_mid r1 ha
  obtain ⟨s3, h3, r3⟩ := Stream.read_mid r2 ht
  obtain ⟨s4, h4, r4⟩ := Stream.read_mid r3 hd
  obtain ⟨s5, h5, r5⟩ := Stream.read_mid r4 hcl
  unfold load
  simp only [h1, h2, h3, h4, h5, PyM.bind_run, hn, PyM.ofExcept_run, PyM.modify_run, PyM.get_run, PyM.ite_run,
    PyM.pure_run, PyM.warn_run, hd, hc, ne_eq, not_true_eq_false, if_false]
  by_cases hb : t = [0x30, 0x30] ∨ t = [0x30, 0x31] ∨ t = [0x30, 0x32] <;> by_cases he : c = c' <;> simp [hb, he]

theorem load_run {size c : Bytes} {n : Nat} {a t d post : Bytes} (hsz : size.length = 2) (hn : parseHex size = .ok n)
    (ha : a.length = 4) (ht : t.length = 2) (hd : d.length = 2 * n) (hcl : c.length = 2)
    (hc : checksumOf ⟨a, t, some d⟩ d = .ok c) (b : UInt8) (k0 : Block) :
    load (b :: (size ++ (a ++ (t ++ (d ++ (c ++ post)))))) k0 = ⟨.ok (), ⟨a, t, some d⟩,
      if t = [0x30, 0x30] ∨ t = [0x30, 0x31] ∨ t = [0x30, 0x32] then [] else [.blockType]⟩ := by
  rw [load_run' hsz hn ha ht hd hcl hc, if_pos rfl, List.append_nil]

theorem load_cut {size : Bytes} {n : Nat} {a t d : Bytes} (hsz : size.length = 2) (hn : parseHex size = .ok n)
    (ha : a.length = 4) (ht : t.length = 2) (hd : d.length < 2 * n) (b : UInt8) (k0 : Block) :
    Warn.blockSize ∈ (load (b :: (size ++ (a ++ (t ++ d)))) k0).warns ∧
      (load (b :: (size ++ (a ++ (t ++ d)))) k0).st = ⟨a, t, some d⟩ := by
  obtain ⟨s1, h1, r1⟩ := Stream.read_mid (s := ⟨b :: (size ++ (a ++ (t ++ d))), 1⟩) (n := 2) (mid := size)
    (post := a ++ (t ++ d)) rfl hsz
  obtain ⟨s2, h2, r2⟩ := Stream.read_mid r1 ha
  obtain ⟨s3, h3, r3⟩ := Stream.read_mid r2 ht
  have h4 : (s3.read (2 * n)).1 = d := by
    show (s3.data.drop s3.pos).take (2 * n) = _
    rw [show s3.data.drop s3.pos = s3.rest from rfl, r3, List.take_of_length_le (by omega)]
  unfold load
  simp only [h1, h2, h3, h4, PyM.bind_run, hn, PyM.ofExcept_run, PyM.modify_run, PyM.get_run, PyM.ite_run,
    PyM.pure_run, PyM.warn_run, ne_eq, show ¬ d.length = 2 * n by omega, not_false_eq_true, if_true]
  by_cases hb : t = [0x30, 0x30] ∨ t = [0x30, 0x31] ∨ t = [0x30, 0x32] <;>
    rcases hc : checksumOf ⟨a, t, some d⟩ d with e | c <;> simp [hb] <;> split <;> simp

/-- The type text of a known type. -/
theorem type_text {s : Bytes} {t : UInt8} (h : HexText s [t]) :
    (s = [0x30, 0x30] ∨ s = [0x30, 0x31] ∨ s = [0x30, 0x32]) ↔ t = 0x00 ∨ t = 0x01 ∨ t = 0x02 := by
  cases h with
  | @cons a b x y s' _ ha hb hs =>
    cases hs
    obtain ⟨h1, hx⟩ := hexByteVal_digit ha
    obtain ⟨h2, hy⟩ := hexByteVal_digit hb
    have h0 : ∀ c : UInt8, ∀ z, z < 3 → (hexByteVal c = some z ↔ c = UInt8.ofNat (0x30 + z)) :=
      forall_byte (by decide +kernel)
    have ht : (UInt8.ofNat (16 * x + y)).toNat = 16 * x + y := by simp; omega
    have hv : ∀ z, z < 3 → (UInt8.ofNat (16 * x + y) = UInt8.ofNat z ↔ x = 0 ∧ y = z) := by
      intro z hz
      constructor
      · intro h
        have := congrArg UInt8.toNat h
        rw [ht] at this
        simp at this
        omega
      · rintro ⟨rfl, rfl⟩; rw [Nat.mul_zero, Nat.zero_add]
    have hd : ∀ z, z < 3 → ([a, b] = [0x30, UInt8.ofNat (0x30 + z)] ↔ x = 0 ∧ y = z) := by
      intro z hz
      have e1 := h0 a 0 (by omega)
      have e2 := h0 b z hz
      rw [h1] at e1
      rw [h2] at e2
      simp only [Option.some.injEq] at e1 e2
      rw [e1, e2]
      simp
    have p0 := hd 0 (by omega)
    have p1 := hd 1 (by omega)
    have p2 := hd 2 (by omega)
    have q0 := hv 0 (by omega)
    have q1 := hv 1 (by omega)
    have q2 := hv 2 (by omega)
    simp only [show UInt8.ofNat (0x30 + 0) = 0x30 from rfl, show UInt8.ofNat (0x30 + 1) = 0x31 from rfl,
      show UInt8.ofNat (0x30 + 2) = 0x32 from rfl, show UInt8.ofNat 0 = 0x00 from rfl, show UInt8.ofNat 1 = 0x01 from rfl,
      show UInt8.ofNat 2 = 0x02 from rfl] at p0 p1 p2 q0 q1 q2
    rw [p0, p1, p2, q0, q1, q2]

/-- A record serialises, and loading that gives the block back. -/
theorem record_ok {k : Block} {a : Bytes} {t : UInt8} {d : Bytes} (h : IsRecord k a t d) :
    ∃ b s c, k.data = some s ∧ k.bytes = .ok b ∧ b = 0x3A :: (hex02 d.length ++ k.address ++ k.blockType ++ s ++ hex02 c) ∧
      c < 256 ∧ (d.length + byteSum a + t.toNat + byteSum d + c) % 256 = 0 ∧
      ∀ k0 post, load (b ++ post) k0 = ⟨.ok (), k, if t = 0x00 ∨ t = 0x01 ∨ t = 0x02 then [] else [.blockType]⟩ := by
  obtain ⟨s, hs, hst⟩ := h.data
  have hd := h.dlen
  obtain ⟨c, hc⟩ : ∃ c, c = ((-((byteSum (UInt8.ofNat d.length :: (a ++ (t :: d))) : Nat) : Int)) % 256).toNat := ⟨_, rfl⟩
  have hck := checksum_record h.address h.type hst hd
  rw [← hc] at hck
  have hn : s.length / 2 = d.length := by rw [length_hexText hst]; omega
  have hsum : byteSum (UInt8.ofNat d.length :: (a ++ (t :: d))) = d.length + byteSum a + t.toNat + byteSum d := by
    have : (UInt8.ofNat d.length).toNat = d.length := by simp; omega
    simp only [byteSum, List.map_cons, List.map_append, List.sum_cons, List.sum_append, this]
    omega
  have hc256 : c < 256 := by omega
  refine ⟨_, s, c, hs, ?_, rfl, hc256, ?_, ?_⟩
  · unfold bytes
    simp only [hs, hck, sizeText, hn]
  · rw [hsum] at hc; omega
  · intro k0 post
    have hk : k = ⟨k.address, k.blockType, some s⟩ := by rw [← hs]
    have := load_run (size := hex02 d.length) (c := hex02 c) (n := d.length) (a := k.address) (t := k.blockType) (d := s)
      (post := post) (by rw [hex02_eq (by omega)]; rfl) (parseHex_hex02 (by omega))
      (by rw [length_hexText h.address, h.alen]) (by rw [length_hexText h.type]; rfl) (length_hexText hst)
      (by rw [hex02_eq hc256]; rfl) (by rw [← hk]; exact hck) 0x3A k0
    rw [← hk] at this
    have htt := type_text h.type
    by_cases ht : t = 0x00 ∨ t = 0x01 ∨ t = 0x02
    · rw [if_pos (htt.2 ht)] at this
      rw [if_pos ht, ← this]
      simp
    · rw [if_neg (fun h => ht (htt.1 h))] at this
      rw [if_neg ht, ← this]
      simp

/-- A record with another checksum. -/
theorem record_bad {k : Block} {a : Bytes} {t : UInt8} {d : Bytes} (h : IsRecord k a t d) {b : Bytes}
    (hb : k.bytes = .ok b) (x y : UInt8) (hxy : b.drop (b.length - 2) ≠ [x, y]) (k0 : Block) :
    load (b.take (b.length - 2) ++ [x, y]) k0 = ⟨.ok (), k,
      (if t = 0x00 ∨ t = 0x01 ∨ t = 0x02 then [] else [.blockType]) ++ [.blockChecksum]⟩ := by
  obtain ⟨b', s, c, hs, hb', he, hc256, hsum, hl⟩ := record_ok h
  obtain rfl : b' = b := Except.ok.inj (hb'.symm.trans hb)
  obtain ⟨s', hs', hst⟩ := h.data
  obtain rfl : s = s' := Option.some.inj (hs.symm.trans hs')
  have hd := h.dlen
  have hck := checksum_record h.address h.type hst hd
  have hc2 : (hex02 c).length = 2 := by rw [hex02_eq hc256]; rfl
  have hp : b' = (0x3A :: (hex02 d.length ++ k.address ++ k.blockType ++ s)) ++ hex02 c := by rw [he]; simp
  have hlen : b'.length - 2 = (0x3A :: (hex02 d.length ++ k.address ++ k.blockType ++ s)).length := by
    rw [hp, List.length_append, hc2]; omega
  have hne : hex02 c ≠ [x, y] := by
    intro e
    apply hxy
    rw [hlen, hp, List.drop_left' rfl, e]
  have hcc : k.checksumOf s = .ok (hex02 c) := by
    unfold bytes at hb
    simp only [hs] at hb
    rcases hq : k.checksumOf s with e | q
    · rw [hq] at hb; cases hb
    · rw [hq] at hb
      simp only [Except.ok.injEq] at hb
      have hn : s.length / 2 = d.length := by rw [length_hexText hst]; omega
      rw [he] at hb
      simp only [sizeText, hn, List.cons.injEq, true_and, List.append_cancel_left_eq] at hb
      rw [hb]
  have hk : k = ⟨k.address, k.blockType, some s⟩ := by rw [← hs]
  have := load_run' (size := hex02 d.length) (c := [x, y]) (c' := hex02 c) (n := d.length) (a := k.address) (t := k.blockType) (d := s)
    (post := []) (by rw [hex02_eq (by omega)]; rfl) (parseHex_hex02 (by omega))
    (by rw [length_hexText h.address, h.alen]) (by rw [length_hexText h.type]; rfl) (length_hexText hst)
    rfl (by rw [← hk]; exact hcc) 0x3A k0
  rw [← hk, if_neg (show ¬ [x, y] = hex02 c from fun e => hne e.symm)] at this
  have htt := type_text h.type
  rw [hlen, hp, List.take_left' rfl]
  by_cases ht : t = 0x00 ∨ t = 0x01 ∨ t = 0x02
  · rw [if_pos (htt.2 ht)] at this
    rw [if_pos ht, ← this]
    simp
  · rw [if_neg (fun h => ht (htt.1 h))] at this
    rw [if_neg ht, ← this]
    simp

theorem record_cut {k : Block} {a : Bytes} {t : UInt8} {d : Bytes} (h : IsRecord k a t d) {b : Bytes}
    (hb : k.bytes = .ok b) {m : Nat} (hm : 9 ≤ m) (hm' : m + 2 < b.length) (k0 : Block) :
    Warn.blockSize ∈ (load (b.take m) k0).warns ∧
      (load (b.take m) k0).st = ⟨k.address, k.blockType, k.data.map (List.take (m - 9))⟩ := by
  obtain ⟨b', s, c, hs, hb', he, hc256, -, -⟩ := record_ok h
  obtain rfl : b' = b := Except.ok.inj (hb'.symm.trans hb)
  obtain ⟨s', hs', hst⟩ := h.data
  obtain rfl : s = s' := Option.some.inj (hs.symm.trans hs')
  have hd := h.dlen
  have hsl := length_hexText hst
  have hc2 : (hex02 c).length = 2 := by rw [hex02_eq hc256]; rfl
  have hz : (hex02 d.length).length = 2 := by rw [hex02_eq (by omega)]; rfl
  have hal : k.address.length = 4 := by rw [length_hexText h.address, h.alen]
  have htl : k.blockType.length = 2 := by rw [length_hexText h.type]; rfl
  have hp : b' = (0x3A :: (hex02 d.length ++ (k.address ++ k.blockType))) ++ (s ++ hex02 c) := by rw [he]; simp
  have hl9 : (0x3A :: (hex02 d.length ++ (k.address ++ k.blockType)) : Bytes).length = 9 := by
    simp only [List.length_cons, List.length_append, hz, hal, htl]
  have hml : m - 9 < s.length := by
    rw [hp, List.length_append, hl9, List.length_append, hc2] at hm'
    omega
  have hk : b'.take m = 0x3A :: (hex02 d.length ++ (k.address ++ (k.blockType ++ s.take (m - 9)))) := by
    obtain ⟨j, rfl⟩ : ∃ j, m = 9 + j := ⟨m - 9, by omega⟩
    rw [hp, ← hl9, List.take_length_add_append, List.take_append_of_le_length (by omega), hl9]
    simp
  rw [hk, hs]
  exact load_cut hz (parseHex_hex02 (by omega)) hal htl (by rw [List.length_take]; omega) 0x3A k0

end Block

/-! ### Lists of blocks -/

/-- The bytes of a record have no carriage return. -/
def NoCR (d : Bytes) : Prop := (0x0D : UInt8) ∉ d

theorem splitCRLF_cons {b : UInt8} (h : b ≠ 0x0D) {d p : Bytes} {ps : List Bytes} (hd : splitCRLF d = p :: ps) :
    splitCRLF (b :: d) = (b :: p) :: ps := by
  unfold splitCRLF
  split
  · simp_all
  · simp_all
  · rename_i h'
    injection h' with h1 h2
    subst h1 h2
    rw [hd]

theorem splitCRLF_clean {d : Bytes} (h : NoCR d) : splitCRLF d = [d] := by
  induction d with
  | nil => rfl
  | cons b d ih =>
    exact splitCRLF_cons (fun e => h (by simp [e])) (ih fun e => h (List.mem_cons_of_mem _ e))

theorem splitCRLF_append {d r : Bytes} (h : NoCR d) : splitCRLF (d ++ 0x0D :: 0x0A :: r) = d :: splitCRLF r := by
  induction d with
  | nil => rfl
  | cons b d ih =>
    exact splitCRLF_cons (fun e => h (by simp [e])) (ih fun e => h (List.mem_cons_of_mem _ e))

theorem hexText_clean {s d : Bytes} (h : HexText s d) : NoCR s := by
  induction h with
  | nil => simp [NoCR]
  | cons ha hb hs ih =>
    have h1 := hexSpace_digit (hexByteVal_digit ha).1
    have h2 := hexSpace_digit (hexByteVal_digit hb).1
    intro hm
    rcases List.mem_cons.1 hm with rfl | hm
    · simp [hexSpace] at h1
    · rcases List.mem_cons.1 hm with rfl | hm
      · simp [hexSpace] at h2
      · exact ih hm

/-- The bytes of a record and what loading them gives. -/
theorem record_piece {k : Block} {a : Bytes} {t : UInt8} {d : Bytes} (h : IsRecord k a t d) :
    ∃ b, k.bytes = .ok b ∧ NoCR b ∧
      Block.ofBytes b () = ⟨.ok k, (), if t = 0x00 ∨ t = 0x01 ∨ t = 0x02 then [] else [.blockType]⟩ := by
  obtain ⟨b, s, c, hs, hb, he, hc, -, hl⟩ := Block.record_ok h
  refine ⟨b, hb, ?_, ?_⟩
  · obtain ⟨s', hs', hst⟩ := h.data
    obtain rfl : s = s' := Option.some.inj (hs.symm.trans hs')
    have h1 := hexText_clean (hex02_text (n := d.length) (by have := h.dlen; omega))
    have h2 := hexText_clean h.address
    have h3 := hexText_clean h.type
    have h4 := hexText_clean hst
    have h5 := hexText_clean (hex02_text hc)
    unfold NoCR at *
    rw [he]
    simp [h1, h2, h3, h4, h5]
  · have := hl ⟨[0x30, 0x30, 0x30, 0x30], [0x30, 0x30], none⟩ []
    rw [List.append_nil] at this
    simp only [Block.ofBytes, this]

/-! ### Headers -/

namespace Flash

theorem loadStart_ok {s : Stream} {m rv da post : Bytes} {fl ty : UInt8} (h : Flash) (hm : m.length = 8)
    (hr : rv.length = 2) (hd : da.length = 4) (hs : s.rest = m ++ (rv ++ ([fl] ++ ([ty] ++ (da ++ post))))) :
    ∃ s', loadStart s h = ⟨.ok s', { h with magic := m, revision := rv, binaryFlag := [fl], objectType := [ty], date := da },
      if m = flashMagic then [] else [.flashMagic]⟩ ∧ s'.rest = post := by
  obtain ⟨s1, h1, r1⟩ := Stream.read_mid hs hm
  obtain ⟨s2, h2, r2⟩ := Stream.read_mid r1 hr
  obtain ⟨s3, h3, r3⟩ := Stream.read_mid r2 (n := 1) rfl
  obtain ⟨s4, h4, r4⟩ := Stream.read_mid r3 (n := 1) rfl
  obtain ⟨s5, h5, r5⟩ := Stream.read_mid r4 hd
  refine ⟨s5, ?_, r5⟩
  unfold loadStart
  simp only [h1, h2, h3, h4, h5, PyM.bind_run, PyM.modify_run, PyM.ite_run, PyM.warn_run, PyM.pure_run]
  by_cases hmm : m = flashMagic <;> simp [hmm]

theorem rstripNul_le (d : Bytes) : (rstripNul d).length ≤ d.length := by
  unfold rstripNul
  have := (List.dropWhile_suffix (l := d.reverse) (fun b => b == 0x00)).length_le
  simpa using this

theorem rstripNul_idem (d : Bytes) : rstripNul (rstripNul d) = rstripNul d := by
  unfold rstripNul
  rw [List.reverse_reverse]
  congr 1
  rcases h : d.reverse.dropWhile (· == 0) with _ | ⟨b, bs⟩
  · rfl
  · have hb : ¬ (b == 0) = true := by
      have := List.head_dropWhile_not (p := (· == (0 : UInt8))) (l := d.reverse) (by rw [h]; simp)
      simp only [h, List.head_cons] at this
      simp [this]
    rw [List.dropWhile_cons_of_neg (p := fun x => x == 0) hb]

theorem nameLength_ok {h : Flash} (hn : (rstripNul h.name).length < 256) :
    h.nameLength = .ok [UInt8.ofNat (rstripNul h.name).length] := by
  unfold nameLength byteOf
  rw [if_neg (by omega)]
  simp

theorem loadName_ok {s : Stream} {nm post : Bytes} {n : UInt8} (h : Flash) (hn : nm.length = 31)
    (hs : s.rest = [n] ++ (nm ++ post)) :
    ∃ s', loadName s h = ⟨.ok s', { h with name := rstripNul nm },
      if n.toNat = (rstripNul nm).length then [] else [.flashName]⟩ ∧ s'.rest = post := by
  obtain ⟨s1, h1, r1⟩ := Stream.read_mid hs (n := 1) rfl
  obtain ⟨s2, h2, r2⟩ := Stream.read_mid r1 hn
  have hle := rstripNul_le nm
  have hnl : ({ h with name := rstripNul nm } : Flash).nameLength = .ok [UInt8.ofNat (rstripNul nm).length] := by
    have := nameLength_ok (h := { h with name := rstripNul nm }) (by rw [rstripNul_idem]; omega)
    rwa [rstripNul_idem] at this
  have hf : fromLE [UInt8.ofNat (rstripNul nm).length] = (rstripNul nm).length := by
    simp [fromLE]; omega
  refine ⟨s2, ?_, r2⟩
  unfold loadName
  simp only [h1, h2, PyM.bind_run, PyM.modify_run, PyM.ofExcept_run, PyM.get_run, PyM.ite_run, PyM.warn_run, PyM.pure_run, hnl, hf, byte0]
  by_cases hmm : n.toNat = (rstripNul nm).length <;> simp [hmm]

theorem typeId_ok {h : Flash} {a b : UInt8} {r : Bytes} (hd : h.devices = a :: b :: r) : h.typeId = .ok b.toNat := by
  have h1 : getSlice h.devices ⟨some 1, some 2, none⟩ = [b] := by
    rw [hd]
    exact getSlice_nat (d := a :: b :: r) (a := 1) (b := 2) (by omega) (by simp)
  simp only [typeId, h1, bitsFull_get, wrapIndexError]

theorem deviceType_ok {h : Flash} {a : UInt8} {r : Bytes} (hd : h.devices = a :: r) : h.deviceType = .ok a := by
  have h1 : getSlice h.devices ⟨some 0, some 1, none⟩ = [a] := by
    rw [hd]
    exact getSlice_nat (d := a :: r) (a := 0) (b := 1) (by omega) (by simp)
  simp only [deviceType, h1, byte0, wrapIndexError]

/-- The warning about the class asked for. -/
def typeWarn (c : FlashCls) (b : UInt8) : List Warn :=
  if c = .header ∨ flashKind b = c then [] else [.flashType]

theorem kind_typeId (c : FlashCls) (b : UInt8) : (c = .header → c.typeId = none) ∧
    (c ≠ .header → ∃ t, c.typeId = some t ∧ ((b.toNat : Int) ≠ (t : Int) ↔ flashKind b ≠ c)) := by
  revert b
  cases c
  · exact fun b => ⟨fun _ => rfl, fun h => absurd rfl h⟩
  all_goals
    refine fun b => ⟨nofun, fun _ => ⟨_, rfl, ?_⟩⟩
    revert b
    exact forall_byte (by decide +kernel)

theorem checkType_ok {h : Flash} {a b : UInt8} {r : Bytes} (hd : h.devices = a :: b :: r) :
    checkType h = ⟨.ok (), h, typeWarn h.cls b⟩ := by
  obtain ⟨h1, h2⟩ := kind_typeId h.cls b
  unfold checkType typeWarn
  simp only [PyM.bind_run, PyM.get_run]
  by_cases hc : h.cls = .header
  · rw [h1 hc]
    simp [hc]
  · obtain ⟨t, ht, hk⟩ := h2 hc
    rw [ht]
    simp only [PyM.bind_run, typeId_ok hd, PyM.ofExcept_run, PyM.ite_run, PyM.warn_run, PyM.pure_run]
    by_cases hb : flashKind b = h.cls
    all_goals simp [hc, hb, hk]

theorem loadDevices_ok {s : Stream} {ds post : Bytes} {d0 d1 p : UInt8} (h : Flash) (hn : ds.length = 23)
    (hs : s.rest = [d0] ++ ([d1] ++ (ds ++ ([p] ++ post)))) :
    ∃ s', loadDevices s h = ⟨.ok s', { h with devices := d0 :: d1 :: rstripNul ds, productId := [p] },
      (if d0 ∈ deviceTypes then [] else [.flashDevice]) ++ typeWarn h.cls d1⟩ ∧ s'.rest = post := by
  obtain ⟨s1, h1, r1⟩ := Stream.read_mid hs (n := 1) rfl
  obtain ⟨s2, h2, r2⟩ := Stream.read_mid r1 (n := 1) rfl
  obtain ⟨s3, h3, r3⟩ := Stream.read_mid r2 hn
  obtain ⟨s4, h4, r4⟩ := Stream.read_mid r3 (n := 1) rfl
  have hdt := deviceType_ok (h := { h with devices := [d0] }) rfl
  have hct := checkType_ok (h := { h with devices := [d0] ++ [d1] }) (r := []) rfl
  refine ⟨s4, ?_, r4⟩
  unfold loadDevices
  simp only [h1, h2, h3, h4, PyM.bind_run, PyM.modify_run, PyM.ofExcept_run, PyM.get_run, PyM.ite_run, PyM.warn_run,
    PyM.pure_run, hdt, hct]
  by_cases hmm : d0 ∈ deviceTypes <;> simp [hmm]

theorem loadData_ok {s : Stream} {sz d tl : Bytes} (h : Flash) (hn : sz.length = 4) (hd : d.length = fromLE sz)
    (hs : s.rest = sz ++ (d ++ tl)) :
    loadData s h = ⟨.ok (), { h with calcData := some d, hasChecksum := h.hasChecksum && !tl.isEmpty },
      if tl = [] ∨ tl.take 2 = checksumOf d then [] else [.flashChecksum]⟩ := by
  obtain ⟨s1, h1, r1⟩ := Stream.read_mid hs hn
  obtain ⟨s2, h2, r2⟩ := Stream.read_mid r1 hd
  have h3 : (s2.read 2).1 = tl.take 2 := by
    show (s2.data.drop s2.pos).take 2 = _
    rw [show s2.data.drop s2.pos = s2.rest from rfl, r2]
  unfold loadData
  simp only [h1, h2, PyM.bind_run, PyM.modify_run, PyM.ite_run, PyM.warn_run, PyM.pure_run, hd, h3]
  rcases tl with _ | ⟨b, bs⟩
  · simp
  · have hne : (b :: bs).take 2 ≠ [] := by simp
    generalize (b :: bs).take 2 = c at hne ⊢
    by_cases hc : c = checksumOf d
    · rw [hc] at hne
      simp [hc, hne]
    · simp [hc, hne]

theorem loadData_cut {s : Stream} {sz d : Bytes} (h : Flash) (hn : sz.length = 4) (hd : d.length < fromLE sz)
    (hs : s.rest = sz ++ d) :
    loadData s h = ⟨.ok (), { h with calcData := some d, hasChecksum := false }, [.flashLength]⟩ := by
  obtain ⟨s1, h1, r1⟩ := Stream.read_mid hs hn
  have h2 : s1.read (fromLE sz) = (d, ⟨s1.data, s1.pos + d.length⟩) := by
    unfold Stream.read
    have : s1.peek (fromLE sz) = d := by
      show (s1.data.drop s1.pos).take (fromLE sz) = _
      rw [show s1.data.drop s1.pos = s1.rest from rfl, r1, List.take_of_length_le (by omega)]
    simp only [this]
  have h3 : ((⟨s1.data, s1.pos + d.length⟩ : Stream).read 2).1 = [] := by
    show (s1.data.drop (s1.pos + d.length)).take 2 = _
    rw [← List.drop_drop, show s1.data.drop s1.pos = s1.rest from rfl, r1]
    simp
  unfold loadData
  simp only [h1, h2, PyM.bind_run, PyM.modify_run, PyM.ite_run, PyM.warn_run, PyM.pure_run, h3]
  simp [show ¬ d.length = fromLE sz by omega]

theorem coerce_ok {h : Flash} {a b : UInt8} {r : Bytes} (hd : h.devices = a :: b :: r) :
    coerce h = ⟨.ok (), { h with cls := if h.cls = .header then flashKind b else h.cls },
      if h.cls = .header ∧ flashKind b = .header then [if b = 0xFF then .flashCoerceNone else .flashCoerce] else []⟩ := by
  have hk : FlashCls.ofTypeId b.toNat = if flashKind b = .header then none else some (flashKind b) := by
    revert b
    intro b _
    exact forall_byte (p := fun b => FlashCls.ofTypeId b.toNat = if flashKind b = .header then none else some (flashKind b))
      (by decide +kernel) b
  have hff : ((b.toNat : Int) ≠ 0xFF) ↔ b ≠ 0xFF := by
    revert b
    intro b _ _
    exact forall_byte (p := fun b => ((b.toNat : Int) ≠ 0xFF) ↔ b ≠ 0xFF) (by decide +kernel) b
  obtain ⟨h1, h2⟩ := kind_typeId h.cls b
  unfold coerce
  simp only [PyM.bind_run, PyM.get_run]
  by_cases hc : h.cls = .header
  · rw [if_pos (h1 hc)]
    simp only [PyM.bind_run, typeId_ok hd, PyM.ofExcept_run, Int.toNat_natCast, hk]
    by_cases hb : flashKind b = .header
    · simp only [hb, if_true, PyM.ite_run, PyM.warn_run, hff]
      rcases h with ⟨⟩
      simp only at hc
      by_cases hbb : b = 0xFF <;> simp [hc, hbb]
    · simp [hb, hc]
  · obtain ⟨t, ht, -⟩ := h2 hc
    rw [if_neg (by rw [ht]; simp)]
    simp [hc]

/-- Loading bytes that have all the fields. -/
theorem load_ok {m rv da nm ds sz d tl : Bytes} {fl ty n d0 d1 p : UInt8} (h : Flash) (hm : m.length = 8)
    (hr : rv.length = 2) (hda : da.length = 4) (hnm : nm.length = 31) (hds : ds.length = 23) (hsz : sz.length = 4)
    (hd : d.length = fromLE sz) :
    load (m ++ (rv ++ ([fl] ++ ([ty] ++ (da ++ ([n] ++ (nm ++ ([d0] ++ ([d1] ++ (ds ++ ([p] ++ (sz ++ (d ++ tl))))))))))))) h =
      ⟨.ok (), ⟨if h.cls = .header then flashKind d1 else h.cls, m, rv, [fl], [ty], da, rstripNul nm,
        d0 :: d1 :: rstripNul ds, [p], some d, h.hasChecksum && !tl.isEmpty⟩,
        (if m = flashMagic then [] else [.flashMagic]) ++ (if n.toNat = (rstripNul nm).length then [] else [.flashName]) ++
        ((if d0 ∈ deviceTypes then [] else [.flashDevice]) ++ typeWarn h.cls d1) ++
        (if tl = [] ∨ tl.take 2 = checksumOf d then [] else [.flashChecksum]) ++
        (if h.cls = .header ∧ flashKind d1 = .header then [if d1 = 0xFF then .flashCoerceNone else .flashCoerce] else [])⟩ := by
  obtain ⟨s1, h1, r1⟩ := loadStart_ok (s := Stream.ofBytes (m ++ (rv ++ ([fl] ++ ([ty] ++ (da ++ ([n] ++ (nm ++ ([d0] ++ ([d1] ++ (ds ++ ([p] ++ (sz ++ (d ++ tl)))))))))))))) h hm hr hda rfl
  obtain ⟨s2, h2, r2⟩ := loadName_ok { h with magic := m, revision := rv, binaryFlag := [fl], objectType := [ty], date := da } hnm r1
  obtain ⟨s3, h3, r3⟩ := loadDevices_ok { h with magic := m, revision := rv, binaryFlag := [fl], objectType := [ty], date := da, name := rstripNul nm } hds r2
  have h4 := loadData_ok { h with magic := m, revision := rv, binaryFlag := [fl], objectType := [ty], date := da, name := rstripNul nm, devices := d0 :: d1 :: rstripNul ds, productId := [p] } hsz hd r3
  have h5 := coerce_ok (h := { h with magic := m, revision := rv, binaryFlag := [fl], objectType := [ty], date := da, name := rstripNul nm, devices := d0 :: d1 :: rstripNul ds, productId := [p], calcData := some d, hasChecksum := h.hasChecksum && !tl.isEmpty }) rfl
  unfold load
  simp only [PyM.bind_run, h1, h2, h3, h4, h5]
  simp

theorem load_cut {m rv da nm ds sz d : Bytes} {fl ty n d0 d1 p : UInt8} (h : Flash) (hm : m.length = 8)
    (hr : rv.length = 2) (hda : da.length = 4) (hnm : nm.length = 31) (hds : ds.length = 23) (hsz : sz.length = 4)
    (hd : d.length < fromLE sz) :
    load (m ++ (rv ++ ([fl] ++ ([ty] ++ (da ++ ([n] ++ (nm ++ ([d0] ++ ([d1] ++ (ds ++ ([p] ++ (sz ++ d)))))))))))) h =
      ⟨.ok (), ⟨if h.cls = .header then flashKind d1 else h.cls, m, rv, [fl], [ty], da, rstripNul nm,
        d0 :: d1 :: rstripNul ds, [p], some d, false⟩,
        (if m = flashMagic then [] else [.flashMagic]) ++ (if n.toNat = (rstripNul nm).length then [] else [.flashName]) ++
        ((if d0 ∈ deviceTypes then [] else [.flashDevice]) ++ typeWarn h.cls d1) ++ [.flashLength] ++
        (if h.cls = .header ∧ flashKind d1 = .header then [if d1 = 0xFF then .flashCoerceNone else .flashCoerce] else [])⟩ := by
  obtain ⟨s1, h1, r1⟩ := loadStart_ok (s := Stream.ofBytes (m ++ (rv ++ ([fl] ++ ([ty] ++ (da ++ ([n] ++ (nm ++ ([d0] ++ ([d1] ++ (ds ++ ([p] ++ (sz ++ d))))))))))))) h hm hr hda rfl
  obtain ⟨s2, h2, r2⟩ := loadName_ok { h with magic := m, revision := rv, binaryFlag := [fl], objectType := [ty], date := da } hnm r1
  obtain ⟨s3, h3, r3⟩ := loadDevices_ok { h with magic := m, revision := rv, binaryFlag := [fl], objectType := [ty], date := da, name := rstripNul nm } hds r2
  have h4 := loadData_cut { h with magic := m, revision := rv, binaryFlag := [fl], objectType := [ty], date := da, name := rstripNul nm, devices := d0 :: d1 :: rstripNul ds, productId := [p] } hsz hd r3
  have h5 := coerce_ok (h := { h with magic := m, revision := rv, binaryFlag := [fl], objectType := [ty], date := da, name := rstripNul nm, devices := d0 :: d1 :: rstripNul ds, productId := [p], calcData := some d, hasChecksum := false }) rfl
  unfold load
  simp only [PyM.bind_run, h1, h2, h3, h4, h5]
  simp

theorem rstripNul_pad {d : Bytes} (h : Trimmed d) (k : Nat) : rstripNul (d ++ List.replicate k 0x00) = d := by
  unfold rstripNul
  rw [List.reverse_append, List.reverse_replicate]
  have h1 : ∀ (k : Nat) (l : Bytes), (List.replicate k 0x00 ++ l).dropWhile (· == (0 : UInt8)) = l.dropWhile (· == 0) := by
    intro k l
    induction k with
    | zero => rfl
    | succ k ih => rw [List.replicate_succ, List.cons_append, List.dropWhile_cons_of_pos (by simp), ih]
  rw [h1]
  rcases hd : d.reverse with _ | ⟨b, bs⟩
  · have : d = [] := by simpa using hd
    simp [this]
  · have hb : b ≠ 0x00 := h b (by rw [← List.head?_reverse, hd]; rfl)
    rw [List.dropWhile_cons_of_neg (by simp [hb]), ← hd, List.reverse_reverse]

theorem toLE_four {n : Nat} (h : n < 2 ^ 32) : fromLE (toLE 4 n) = n := fromLE_toLE_of_lt (by simpa using h)

/-! ### New headers -/

theorem bind_inv {α β : Type} {x : PyM Unit α} {f : α → PyM Unit β} {b : β} (h : ((x >>= f) ()).res = .ok b) :
    ∃ a, (x ()).res = .ok a ∧ (f a ()).res = .ok b := by
  rw [PyM.bind_run] at h
  rcases hx : x () with ⟨r, u, w⟩
  rw [hx] at h
  cases r with
  | error e => cases h
  | ok a => exact ⟨a, rfl, h⟩

/-- The widths of the sections of a new header. -/
structure Fresh (h : Flash) (c : FlashCls) : Prop where
  cls : h.cls = c
  magic : h.magic.length = 8
  revision : h.revision.length = 2
  flag : h.binaryFlag.length = 1
  type : h.objectType.length = 1
  date : h.date.length = 4
  name : h.name.length = 31
  devices : ∃ t, h.devices = [t, UInt8.ofNat (c.typeId.getD 0xFF)]
  product : h.productId.length = 1
  sum : h.hasChecksum = true

theorem new_fresh {c : FlashCls} {a : NewArgs} {h : Flash} (hn : (new c a ()).res = .ok h) : Fresh h c := by
  unfold new at hn
  obtain ⟨m, h1, hn⟩ := bind_inv hn
  obtain ⟨rv, h2, hn⟩ := bind_inv hn
  obtain ⟨fl, h3, hn⟩ := bind_inv hn
  obtain ⟨ty, h4, hn⟩ := bind_inv hn
  obtain ⟨da, h5, hn⟩ := bind_inv hn
  obtain ⟨nm, h6, hn⟩ := bind_inv hn
  obtain ⟨dv, h7, hn⟩ := bind_inv hn
  obtain ⟨pr, h8, hn⟩ := bind_inv hn
  simp only [PyM.pure_run, Except.ok.injEq] at hn
  subst hn
  refine ⟨rfl, setRaw_width h1, setRaw_width h2, setRaw_width h3, setRaw_width h4, setRaw_width h5, setRaw_width h6, ?_,
    setRaw_width h8, rfl⟩
  simp only [PyM.ofExcept_run, deviceBytes] at h7
  have hid : byteOf ((c.typeId.getD 0xFF : Nat) : Int) = .ok [UInt8.ofNat (c.typeId.getD 0xFF)] := by cases c <;> decide
  rw [hid] at h7
  unfold byteOf at h7
  split at h7
  · rename_i h' h''
    split at h'
    · cases h'
    · injection h' with h'
      injection h'' with h''
      injection h7 with h7
      exact ⟨_, by rw [← h7, ← h', ← h'']; rfl⟩
  · cases h7

/-! ### Layout -/

/-- What comes before the data length. -/
def front (f : FlashFields) : Bytes :=
  [0x2A, 0x2A, 0x54, 0x49, 0x46, 0x4C, 0x2A, 0x2A] ++ f.revision ++ [f.flag, f.objectType] ++ f.date ++
  [UInt8.ofNat f.name.length] ++ (f.name ++ List.replicate (31 - f.name.length) 0x00) ++
  (f.devices ++ List.replicate (25 - f.devices.length) 0x00) ++ [f.product]

/-- The checksum, if any. -/
def tail (f : FlashFields) : Bytes := if f.withSum then toLE 2 (byteSum f.data % 65536) else []

theorem file_eq (f : FlashFields) : f.file = front f ++ (toLE 4 f.data.length ++ (f.data ++ tail f)) := by
  simp [FlashFields.file, front, tail]

theorem length_front {f : FlashFields} (hf : f.Fit) : (front f).length = 74 := by
  have h1 := hf.revision
  have h2 := hf.date
  have h3 := hf.name
  have h4 := hf.devices
  simp only [front, List.length_append, List.length_cons, List.length_nil, List.length_replicate]
  omega

theorem length_file {f : FlashFields} (hf : f.Fit) : f.file.length = 78 + f.data.length + if f.withSum then 2 else 0 := by
  rw [file_eq, List.length_append, length_front hf, List.length_append, length_toLE, List.length_append, tail]
  split
  · rw [length_toLE]; omega
  · simp; omega

theorem file_magic (f : FlashFields) : ∃ r, f.file = flashMagic ++ r := by
  simp only [FlashFields.file, List.append_assoc]
  exact ⟨_, rfl⟩

/-- The bytes of a header with given fields. -/
theorem header_bytes {f : FlashFields} (hf : f.Fit) (c : FlashCls) : (f.header c f.withSum).bytes =
    .ok ([0x2A, 0x2A, 0x54, 0x49, 0x46, 0x4C, 0x2A, 0x2A] ++ f.revision ++ [f.flag, f.objectType] ++ f.date ++
      [UInt8.ofNat f.name.length] ++ (f.name ++ (List.replicate 23 0x00 ++ (f.devices ++ (List.replicate 23 0x00 ++
      ([f.product] ++ toLE 4 f.data.length ++ f.data ++ tail f)))))) := by
  have hr : rstripNul f.name = f.name := by simpa using rstripNul_pad hf.nameEnd 0
  have hn : (f.header c f.withSum).nameLength = .ok [UInt8.ofNat f.name.length] := by
    have := nameLength_ok (h := f.header c f.withSum) (by
      have := hf.name
      rw [show (f.header c f.withSum).name = f.name from rfl, hr]; omega)
    rw [this, show (f.header c f.withSum).name = f.name from rfl, hr]
  have hs : intToBytesLE (f.data.length : Int) 4 = .ok (toLE 4 f.data.length) := by
    have := hf.data
    unfold intToBytesLE
    rw [if_neg (by omega)]
    simp
  have hraw : (f.header c f.withSum).rawBytes = .ok (([0x2A, 0x2A, 0x54, 0x49, 0x46, 0x4C, 0x2A, 0x2A] ++ f.revision ++ [f.flag, f.objectType] ++ f.date ++
      [UInt8.ofNat f.name.length] ++ (f.name ++ (List.replicate 23 0x00 ++ (f.devices ++ (List.replicate 23 0x00 ++
      ([f.product] ++ toLE 4 f.data.length ++ f.data)))))) ++ checksumOf f.data) := by
    unfold rawBytes
    rw [hn]
    simp only [FlashFields.header, hs]
    simp
  unfold bytes
  rw [hraw]
  simp only [FlashFields.header]
  by_cases hw : f.withSum = true
  · simp [hw, tail, checksumOf, byteSum]
  · have : (checksumOf f.data).length = 2 := length_toLE _ _
    simp only [hw, tail]
    simp only [Bool.false_eq_true, if_false, List.length_append, this, Nat.add_sub_cancel]
    rw [List.take_left' (by simp only [List.length_append])]
    simp

/-- Looking ahead. -/
theorem next_run {pre m sz d tl : Bytes} (hm : m.length = 74) (hsz : sz.length = 4) (hd : d.length = fromLE sz) :
    nextHeaderLength ⟨pre ++ (m ++ (sz ++ (d ++ tl))), pre.length⟩ =
      (if tl.take 8 = [] ∨ tl.take 8 = flashMagic then 78 + d.length else 80 + d.length,
        ⟨pre ++ (m ++ (sz ++ (d ++ tl))), pre.length⟩) := by
  obtain ⟨D, hD⟩ : ∃ D, D = pre ++ (m ++ (sz ++ (d ++ tl))) := ⟨_, rfl⟩
  rw [← hD]
  have e1 : (⟨D, pre.length⟩ : Stream).seekRel 74 = ⟨D, pre.length + 74⟩ := by
    simp only [Stream.seekRel]; congr 1
  have e2 : (⟨D, pre.length + 74⟩ : Stream).read 4 = (sz, ⟨D, pre.length + 74 + 4⟩) :=
    Stream.read_app' (pre := pre ++ m) (post := d ++ tl) (by rw [hD]; simp) (by simp [hm]) hsz
  have e3 : (⟨D, pre.length + 74 + 4⟩ : Stream).seekRel ((fromLE sz : Nat) : Int) = ⟨D, pre.length + 78 + d.length⟩ := by
    simp only [Stream.seekRel]; congr 1; omega
  have e4 : (⟨D, pre.length + 78 + d.length⟩ : Stream).read 8 = (tl.take 8, ⟨D, pre.length + 78 + d.length + (tl.take 8).length⟩) := by
    have hp : (⟨D, pre.length + 78 + d.length⟩ : Stream).peek 8 = tl.take 8 := by
      unfold Stream.peek
      congr 1
      rw [hD, show pre ++ (m ++ (sz ++ (d ++ tl))) = (pre ++ (m ++ (sz ++ d))) ++ tl by simp]
      exact List.drop_left' (by simp only [List.length_append]; omega)
    simp only [Stream.read, hp]
  unfold nextHeaderLength
  simp only [e1, e2, e3, e4]
  by_cases h1 : tl.take 8 = []
  · simp only [h1, true_or, if_true, List.length_nil, Stream.seekRel, ← hd]
    congr 2
    omega
  · by_cases h2 : tl.take 8 = flashMagic
    · simp only [h2, or_true, if_true, ← hd, Stream.seekRel]
      rw [if_neg (by decide)]
      simp only [show flashMagic.length = 8 from rfl]
      congr 2
      omega
    · simp only [h1, h2, or_self, if_false, Stream.seekRel, ← hd]
      refine Prod.ext (by simp only; omega) ?_
      simp only
      congr 1
      omega

/-- The rest of a file of headers: nothing, or beginning with the magic. -/
theorem rest_magic (fs : List FlashFields) : fs.flatMap FlashFields.file = [] ∨ ∃ r, fs.flatMap FlashFields.file = flashMagic ++ r := by
  rcases fs with _ | ⟨f, fs⟩
  · exact Or.inl rfl
  · obtain ⟨r, hr⟩ := file_magic f
    right
    exact ⟨r ++ fs.flatMap FlashFields.file, by rw [List.flatMap_cons, hr, List.append_assoc]⟩

theorem next_ok {f : FlashFields} (hf : f.Fit) (pre : Bytes) (fs : List FlashFields) :
    nextHeaderLength ⟨pre ++ (f.file ++ fs.flatMap FlashFields.file), pre.length⟩ =
      (f.file.length, ⟨pre ++ (f.file ++ fs.flatMap FlashFields.file), pre.length⟩) := by
  have hsz := toLE_four hf.data
  have := next_run (pre := pre) (m := front f) (sz := toLE 4 f.data.length) (d := f.data)
    (tl := tail f ++ fs.flatMap FlashFields.file) (length_front hf) (length_toLE _ _) hsz.symm
  have heq : front f ++ (toLE 4 f.data.length ++ (f.data ++ (tail f ++ fs.flatMap FlashFields.file))) =
      f.file ++ fs.flatMap FlashFields.file := by
    rw [file_eq]; simp
  rw [heq] at this
  rw [this, length_file hf]
  congr 1
  unfold tail
  by_cases hw : f.withSum = true
  · obtain ⟨a, b, hab⟩ : ∃ a b, toLE 2 (byteSum f.data % 65536) = [a, b] := ⟨_, _, rfl⟩
    rw [if_pos hw, if_pos hw, hab]
    rcases rest_magic fs with h | ⟨r, h⟩
    · rw [h, if_neg (by simp [flashMagic])]; omega
    · rw [h, if_neg (by simp [flashMagic])]; omega
  · rw [if_neg hw, if_neg hw, List.nil_append]
    rcases rest_magic fs with h | ⟨r, h⟩
    · rw [h]; simp
    · have : List.take 8 (flashMagic ++ r) = flashMagic := List.take_left' rfl
      rw [h, this]; simp

/-- Skipping headers. -/
theorem skip_ok (pre : Bytes) (fs gs : List FlashFields) (hf : ∀ f ∈ fs, f.Fit) :
    skipHeaders fs.length ⟨pre ++ (fs ++ gs).flatMap FlashFields.file, pre.length⟩ =
      ⟨pre ++ (fs ++ gs).flatMap FlashFields.file, (pre ++ fs.flatMap FlashFields.file).length⟩ := by
  induction fs generalizing pre with
  | nil => simp [skipHeaders]
  | cons f fs ih =>
    have h1 := next_ok (hf f List.mem_cons_self) pre (fs ++ gs)
    have h2 := ih (pre ++ f.file) fun g hg => hf g (List.mem_cons_of_mem _ hg)
    rw [List.length_append] at h2
    rw [List.length_cons, skipHeaders, List.cons_append, List.flatMap_cons, h1]
    simp only [Stream.seekRel]
    have h3 : (↑pre.length + ↑(f.file.length) : Int).toNat = pre.length + f.file.length := by omega
    rw [h3, ← List.append_assoc, h2]
    simp

/-- Looking ahead at the end of a file. -/
theorem next_end {s : Stream} (h : s.data.length ≤ s.pos) : nextHeaderLength s = (78, ⟨s.data, s.pos - 4⟩) := by
  have e1 : (s.seekRel 74).read 4 = ([], s.seekRel 74) := by
    have : (s.seekRel 74).peek 4 = [] := by
      simp only [Stream.peek, Stream.seekRel]
      rw [List.drop_eq_nil_of_le (by omega)]; rfl
    simp [Stream.read, this]
  have e2 : (s.seekRel 74).read 8 = ([], s.seekRel 74) := by
    have : (s.seekRel 74).peek 8 = [] := by
      simp only [Stream.peek, Stream.seekRel]
      rw [List.drop_eq_nil_of_le (by omega)]; rfl
    simp [Stream.read, this]
  have e3 : (s.seekRel 74).seekRel ((0 : Nat) : Int) = s.seekRel 74 := by
    simp only [Stream.seekRel]; congr 1
  unfold nextHeaderLength
  simp only [e1, show fromLE [] = 0 from rfl, e3, e2, if_true]
  refine Prod.ext rfl ?_
  simp only [Stream.seekRel]
  congr 1
  omega

theorem skip_end {s : Stream} (h : s.data.length ≤ s.pos) (k : Nat) :
    (skipHeaders k s).data = s.data ∧ s.data.length ≤ (skipHeaders k s).pos := by
  induction k generalizing s with
  | zero => exact ⟨rfl, h⟩
  | succ k ih =>
    rw [skipHeaders, next_end h]
    exact ih (s := (⟨s.data, s.pos - 4⟩ : Stream).seekRel ((78 : Nat) : Int)) (by simp only [Stream.seekRel]; omega)

theorem skip_add (a b : Nat) (s : Stream) : skipHeaders (a + b) s = skipHeaders b (skipHeaders a s) := by
  induction a generalizing s with
  | zero => rw [Nat.zero_add]; rfl
  | succ a ih => rw [Nat.succ_add, skipHeaders, skipHeaders]; exact ih _

/-- Too few bytes. -/
theorem load_short {d : Bytes} (hd : d.length ≤ 16) (h : Flash) : (load d h).res = .error .indexError := by
  have hread : ∀ (s : Stream) n, (s.read n).2.data = s.data ∧ (s.data.length ≤ (s.read n).2.pos ∨ (s.read n).2.pos = s.pos + n) := by
    intro s n
    refine ⟨rfl, ?_⟩
    simp only [Stream.read, Stream.peek, List.length_take, List.length_drop]
    omega
  obtain ⟨s, hs⟩ : ∃ s, s = (((((Stream.ofBytes d).read 8).2.read 2).2.read 1).2.read 1).2.read 4 := ⟨_, rfl⟩
  have hp : s.2.rest = [] := by
    obtain ⟨a1, b1⟩ := hread (Stream.ofBytes d) 8
    obtain ⟨a2, b2⟩ := hread ((Stream.ofBytes d).read 8).2 2
    obtain ⟨a3, b3⟩ := hread (((Stream.ofBytes d).read 8).2.read 2).2 1
    obtain ⟨a4, b4⟩ := hread ((((Stream.ofBytes d).read 8).2.read 2).2.read 1).2 1
    obtain ⟨a5, b5⟩ := hread (((((Stream.ofBytes d).read 8).2.read 2).2.read 1).2.read 1).2 4
    rw [← hs] at a5 b5
    have hmono : ∀ (s : Stream) n, s.pos ≤ (s.read n).2.pos := fun s n => by simp [Stream.read]
    have m2 := hmono ((Stream.ofBytes d).read 8).2 2
    have m3 := hmono (((Stream.ofBytes d).read 8).2.read 2).2 1
    have m4 := hmono ((((Stream.ofBytes d).read 8).2.read 2).2.read 1).2 1
    have m5 := hmono (((((Stream.ofBytes d).read 8).2.read 2).2.read 1).2.read 1).2 4
    rw [← hs] at m5
    have h0 : (Stream.ofBytes d).pos = 0 := rfl
    have hd0 : (Stream.ofBytes d).data = d := rfl
    rw [Stream.rest, List.drop_eq_nil_of_le]
    rw [a5, a4, a3, a2, a1, hd0]
    rw [a4, a3, a2, a1, hd0] at b5
    rw [a3, a2, a1, hd0] at b4
    rw [a2, a1, hd0] at b3
    rw [a1, hd0] at b2
    rw [hd0] at b1
    omega
  have e : (s.2.read 1).1 = [] := by
    simp only [Stream.read, Stream.peek]
    rw [Stream.rest] at hp
    rw [hp]; rfl
  unfold load loadStart loadName
  by_cases hm : ((Stream.ofBytes d).read 8).1 = flashMagic
  · simp [PyM.bind_run, PyM.modify_run, hm, PyM.pure_run, ← hs, e, byte0, PyM.ofExcept_run]
  · simp [PyM.bind_run, PyM.modify_run, hm, PyM.pure_run, ← hs, e, byte0, PyM.ofExcept_run, PyM.warn_run]

/-- The bytes of a new header. -/
theorem fresh_bytes {h : Flash} {c : FlashCls} (F : h.Fresh c) {b : Bytes} (hb : h.bytes = .ok b) :
    ∃ d fl ty sz, h.calcData = some d ∧ sz.length = 4 ∧ b = h.magic ++ (h.revision ++ ([fl] ++ ([ty] ++ (h.date ++
      ([UInt8.ofNat (rstripNul h.name).length] ++ (h.name ++ ([0x00] ++ ([0x00] ++ ((List.replicate 21 0x00 ++ h.devices) ++ ([0x00] ++
      ([0x00, 0x00, 0x00, 0x00] ++ ([] ++ (List.replicate 18 0x00 ++ (h.productId ++ sz ++ d ++ checksumOf d)))))))))))))) := by
  have hnl := rstripNul_le h.name
  rw [F.name] at hnl
  obtain ⟨d, hd⟩ : ∃ d, h.calcData = some d := by
    rcases h' : h.calcData with _ | d
    · unfold Flash.bytes rawBytes at hb
      rw [nameLength_ok (by omega), h'] at hb
      cases hb
    · exact ⟨d, rfl⟩
  obtain ⟨fl, hfl⟩ : ∃ x, h.binaryFlag = [x] := List.length_eq_one_iff.1 F.flag
  obtain ⟨ty, hty⟩ : ∃ x, h.objectType = [x] := List.length_eq_one_iff.1 F.type
  obtain ⟨sz, hsz⟩ : ∃ sz, intToBytesLE (d.length : Int) 4 = .ok sz := by
    rcases h' : intToBytesLE (d.length : Int) 4 with e | sz
    · unfold Flash.bytes rawBytes at hb
      rw [nameLength_ok (by omega), hd] at hb
      simp only [h'] at hb
      cases hb
    · exact ⟨sz, rfl⟩
  have hszl : sz.length = 4 := by
    unfold intToBytesLE at hsz
    split at hsz
    · cases hsz
    · cases hsz; exact length_toLE _ _
  refine ⟨d, fl, ty, sz, hd, hszl, ?_⟩
  unfold Flash.bytes rawBytes at hb
  rw [nameLength_ok (by omega), hd] at hb
  simp only [hsz, F.sum, if_true, Except.ok.injEq] at hb
  rw [← hb, hfl, hty]
  simp [List.replicate]

end Flash

/-! ### Data made of blocks -/

/-- The bytes of records, each followed by a line end. -/
theorem splitCRLF_records {ks : List Block} (hne : ks ≠ []) (h : ∀ k ∈ ks, ∃ a t d, IsRecord k a t d) :
    ∃ b ps, joinBlocks ks = .ok b ∧ splitCRLF b = ps ∧ splitCRLF (b ++ [0x0D, 0x0A]) = ps ++ [[]] ∧
      loadBlocks ps () = ⟨.ok ks, (), blockWarnings ks⟩ ∧
      ∀ qs e s w, loadBlocks qs () = ⟨.error e, s, w⟩ → loadBlocks (ps ++ qs) () = ⟨.error e, s, blockWarnings ks ++ w⟩ := by
  induction ks with
  | nil => exact absurd rfl hne
  | cons k ks ih =>
    obtain ⟨a, t, d, hk⟩ := h k List.mem_cons_self
    obtain ⟨b, hb, hcr, hl⟩ := record_piece hk
    have ht := Block.type_text hk.type
    rw [show (if t = 0x00 ∨ t = 0x01 ∨ t = 0x02 then ([] : List Warn) else [.blockType]) =
      if k.blockType = [0x30, 0x30] ∨ k.blockType = [0x30, 0x31] ∨ k.blockType = [0x30, 0x32] then [] else [.blockType] by
        by_cases h : t = 0x00 ∨ t = 0x01 ∨ t = 0x02
        · rw [if_pos h, if_pos (ht.2 h)]
        · rw [if_neg h, if_neg (fun e => h (ht.1 e))]] at hl
    rcases ks with _ | ⟨k', ks⟩
    · refine ⟨b, [b], hb, splitCRLF_clean hcr, splitCRLF_append hcr, ?_, fun qs e s w hq => ?_⟩
      · simp [loadBlocks, PyM.bind_run, hl, PyM.pure_run, blockWarnings]
      · simp [loadBlocks, PyM.bind_run, hl, hq, blockWarnings]
    · obtain ⟨bs, ps, h1, h2, h3, h4, h5⟩ := ih (by simp) fun x hx => h x (List.mem_cons_of_mem _ hx)
      refine ⟨b ++ [0x0D, 0x0A] ++ bs, b :: ps, ?_, ?_, ?_, ?_, fun qs e s w hq => ?_⟩
      · simp only [joinBlocks, hb]
        rw [h1]
      · rw [List.append_assoc, List.cons_append, List.cons_append, List.nil_append, splitCRLF_append hcr, h2]
      · rw [List.append_assoc, List.append_assoc, List.cons_append, List.cons_append, List.nil_append, splitCRLF_append hcr, h3]
        rfl
      · rw [loadBlocks]
        simp only [PyM.bind_run, hl, h4, PyM.pure_run, blockWarnings, List.flatMap_cons, List.append_nil]
      · rw [List.cons_append, loadBlocks]
        simp only [PyM.bind_run, hl, h5 qs e s w hq, blockWarnings, List.flatMap_cons, List.append_assoc]

end Verif
