import Verif.Model.GdbText
import Verif.Spec.GdbDefault
import Verif.Props.GdbDict
import Verif.Proofs.GdbBack
import Verif.Proofs.JsonGdb

/-! The default dictionaries of graph databases. -/

namespace Verif
open Spec Ent
variable {V : Type} [LinearOrder V]

/-- An empty equation in a colour. -/
def stdEq (color : String) : EqDict :=
  ⟨some (some "ThickLine".toList), some (some color.toList), some ⟨some false, some false, some false⟩, some []⟩

/-- The numbers -10, 10 and 1. -/
def stdWindow : List (Str × JNum) :=
  [("Xmin".toList, .float ⟨true, 5, 1⟩), ("Xmax".toList, .float ⟨false, 5, 1⟩), ("Xscl".toList, .float ⟨false, 1, 0⟩),
   ("Ymin".toList, .float ⟨true, 5, 1⟩), ("Ymax".toList, .float ⟨false, 5, 1⟩), ("Yscl".toList, .float ⟨false, 1, 0⟩)]

def stdColor : ColorDict := ⟨some (some "MedGray".toList), some (some "Black".toList), some 1, none, some true⟩

/-- A dictionary with the standard window. -/
def stdDict (mode : String) (seq : Option Str) (settings : List (Str × JNum)) (equations : List (Str × EqDict)) : GdbDict JNum :=
  ⟨some (some mode.toList), [], some true, none, seq, none, stdWindow, settings, equations, some stdColor⟩

def stdFunc : GdbDict JNum := stdDict "Function" none [("Xres".toList, .float ⟨false, 1, 0⟩)]
  [("Y1".toList, stdEq "Blue"), ("Y2".toList, stdEq "Red"), ("Y3".toList, stdEq "Black"), ("Y4".toList, stdEq "Magenta"),
   ("Y5".toList, stdEq "Green"), ("Y6".toList, stdEq "Orange"), ("Y7".toList, stdEq "Brown"), ("Y8".toList, stdEq "Blue"),
   ("Y9".toList, stdEq "Red"), ("Y0".toList, stdEq "Black")]

def stdParam : GdbDict JNum := stdDict "Parametric" none
  [("Tmin".toList, .float ⟨false, 0, 0⟩), ("Tmax".toList, .float ⟨false, 1768559437956561, -48⟩),
   ("Tstep".toList, .float ⟨false, 1179039625338031, -53⟩)]
  [("X1T".toList, stdEq "Blue"), ("Y1T".toList, stdEq "Blue"), ("X2T".toList, stdEq "Red"), ("Y2T".toList, stdEq "Red"),
   ("X3T".toList, stdEq "Black"), ("Y3T".toList, stdEq "Black"), ("X4T".toList, stdEq "Magenta"), ("Y4T".toList, stdEq "Magenta"),
   ("X5T".toList, stdEq "Green"), ("Y5T".toList, stdEq "Green"), ("X6T".toList, stdEq "Orange"), ("Y6T".toList, stdEq "Orange")]

def stdPolar : GdbDict JNum := stdDict "Polar" none
  [("Thetamin".toList, .float ⟨false, 0, 0⟩), ("Thetamax".toList, .float ⟨false, 1768559437956561, -48⟩),
   ("Thetastep".toList, .float ⟨false, 1179039625338031, -53⟩)]
  [("r1".toList, stdEq "Blue"), ("r2".toList, stdEq "Red"), ("r3".toList, stdEq "Black"), ("r4".toList, stdEq "Magenta"),
   ("r5".toList, stdEq "Green"), ("r6".toList, stdEq "Orange")]

def stdSeq : GdbDict JNum := stdDict "Sequence" (some "Time".toList)
  [("nMin".toList, .int 0), ("nMax".toList, .int 10), ("PlotStart".toList, .int 1), ("PlotStep".toList, .int 1),
   ("unMin".toList, .str []), ("unMinp1".toList, .str []), ("vnMin".toList, .str []), ("vnMinp1".toList, .str []),
   ("wnMin".toList, .str []), ("wnMinp1".toList, .str [])]
  [("u".toList, stdEq "Blue"), ("v".toList, stdEq "Red"), ("w".toList, stdEq "Black")]

theorem default_func : defaultDict .func = some stdFunc := by decide +kernel
theorem default_param : defaultDict .param = some stdParam := by decide +kernel
theorem default_polar : defaultDict .polar = some stdPolar := by decide +kernel
theorem default_seq : defaultDict .seq = some stdSeq := by decide +kernel

/-- The database that says what a dictionary says is determined by it. -/
theorem says_unique {J : Type} {c : Cls} {d : GdbDict J} {val : J → Bytes} {tok : Str → Bytes} {p p' : Plot} (hc : c ∈ plotClasses)
    (hcol : colored c = true) (hs : Says c d val tok p) (hs' : Says c d val tok p') : p = p' := by
  obtain ⟨-, -, -, -, hsh, hcount, -⟩ := plot_counts hc
  obtain ⟨hnames, hnd, hlen⟩ := names_table c hc
  have h7 : firstField c = 7 := (by decide : ∀ c ∈ plotClasses, firstField c = 7) _ hc
  have hcurve : ∀ i, i < equationCount c → ∃ n, (curveNames c)[i]? = some n := by
    intro i hi
    rw [← hlen] at hi
    exact ⟨_, List.getElem?_eq_getElem hi⟩
  have hhead : p.head = p'.head := by
    have e1 := hs.fits.head
    have e2 := hs'.fits.head
    simp only [fieldStart, h7] at e1 e2
    refine head_ext (k := (fieldNames c).length) e1 e2 ?_ ?_
    · have h4 : p.head.take 4 = p'.head.take 4 := by rw [hs.start, hs'.start]
      intro i hi
      by_cases hi4 : i < 4
      · have := congrArg (fun l => l[i]?) h4
        simp only [List.getElem?_take, hi4, if_true] at this
        rw [List.getD_eq_getElem?_getD, List.getD_eq_getElem?_getD, this]
      · obtain rfl | rfl | rfl : i = 4 ∨ i = 5 ∨ i = 6 := by omega
        · refine byte_ext fun k hk => ?_
          rw [hs.format k hk, hs'.format k hk]
        · rw [hs.seq, hs'.seq]
        · rw [hs.ext, hs'.ext]
    · intro i hi
      have hi' := List.getElem?_eq_getElem hi
      have h1 := hs.numbers i _ hi'
      rw [← hs'.numbers i _ hi'] at h1
      simpa only [fieldBytes, fieldStart, h7] using h1
  have heqs : p.eqs = p'.eqs := by
    apply List.ext_getElem?
    intro i
    by_cases hi : i < equationCount c
    · obtain ⟨n, hn⟩ := hcurve i hi
      rw [hs.curves i n hn, hs'.curves i n hn]
    · rw [List.getElem?_eq_none (by rw [hs.fits.eqs]; omega), List.getElem?_eq_none (by rw [hs'.fits.eqs]; omega)]
  have hshare : ∀ i, i < styleCount c → i * sharing c < equationCount c := by
    intro i hi
    rw [hcount]
    exact Nat.mul_lt_mul_of_pos_right hi hsh
  have hstyles : p.styles = p'.styles := by
    apply List.ext_getElem?
    intro i
    by_cases hi : i < styleCount c
    · obtain ⟨n, hn⟩ := hcurve _ (hshare i hi)
      rw [hs.styles i n hn, hs'.styles i n hn]
    · rw [List.getElem?_eq_none (by rw [hs.fits.styles]; omega), List.getElem?_eq_none (by rw [hs'.fits.styles]; omega)]
  have htail : p.tail = p'.tail := by
    obtain ⟨t, ht, hm, hset, hk⟩ := hs.colors hcol
    obtain ⟨t', ht', hm', hset', hk'⟩ := hs'.colors hcol
    have e2 : t.colors = t'.colors := by
      apply List.ext_getElem?
      intro i
      by_cases hi : i < styleCount c
      · obtain ⟨n, hn⟩ := hcurve _ (hshare i hi)
        rw [hk i n hn, hk' i n hn]
      · rw [List.getElem?_eq_none (by rw [(hs.fits.tail t ht).2.1]; omega),
          List.getElem?_eq_none (by rw [(hs'.fits.tail t' ht').2.1]; omega)]
    rw [ht, ht']
    obtain ⟨a1, a2, a3⟩ := t
    obtain ⟨b1, b2, b3⟩ := t'
    simp only at hm hm' hset hset' e2
    rw [hm, hm', hset, hset', e2]
  obtain ⟨a1, a2, a3, a4⟩ := p
  obtain ⟨b1, b2, b3, b4⟩ := p'
  simp only at hhead heqs hstyles htail
  rw [hhead, heqs, hstyles, htail]

/-- The number that JSON becomes. -/
def stdVal (nm : Bytes) (j : JNum) : Ent := realEntry nm (loadJson j ⟨true, clearFull .real⟩).st.bytes

theorem std_converts (env : Env V) (nm : Bytes) {j : JNum} {b : Bytes} (h : loadJson j ⟨true, clearFull .real⟩ = ⟨.ok (), ⟨true, b⟩, []⟩)
    (hb : b.length = 9 ∧ b.getD 0 0 % 64 = 0) (hw : ∃ x, realFloat .real ⟨true, b⟩ = .ok x) : Converts (realIO env nm) (stdVal nm) j := by
  have hv : stdVal nm j = realEntry nm b := by unfold stdVal; rw [h]
  refine ⟨?_, ?_, ?_⟩
  · rw [hv]; exact realOf_run env nm h
  · rw [hv]
    refine ⟨(by decide : Cls.real ∈ realClasses), hb.1, ?_⟩
    show some 0 = some ((b.getD 0 0).toNat % 64)
    have := congrArg UInt8.toNat hb.2
    rw [UInt8.toNat_mod] at this
    exact congrArg some this.symm
  · obtain ⟨x, hx⟩ := hw
    rw [hv]
    refine ⟨(floatTrunc x, floatWhole x), ?_⟩
    show wholeOf (realEntry nm b) = .ok (floatTrunc x, floatWhole x)
    unfold wholeOf
    rw [show realFloat (realEntry nm b).cls (realEntry nm b).body = .ok x from hx]

end Verif
