import Verif.Proofs.VarFault
import Verif.Proofs.FlashFault
import Verif.Proofs.Construct
import Verif.Model.Files
import Verif.Spec.Sample
import Verif.Props.LoadFault
/-! C134: which existing files cannot be opened. -/
namespace Verif
open Spec Ent
variable {V : Type} [LinearOrder V]

/-- C134, the part that holds, entries: opening an existing file as an entry of any class that can be made and
loaded into raises exactly what its contents determine: `OSError` when there are fewer than two
bytes, and otherwise what loading the first entry raises. The files stay as they are. -/
theorem C134_entry_partial (env : Env V) {c : Cls} (hc : c ∉ baseOnly) (hg : c ≠ .graphedEquation) (nm : Bytes) (path : Str)
    {fs : Files} {b : Bytes} (hp : fs path = some b) :
    (openAs env c nm path fs).st = fs ∧
    match openFault c b with
    | none => ∃ e, (openAs env c nm path fs).res = .ok e
    | some x => (openAs env c nm path fs).res = .error x := by
  obtain ⟨v, w, hn, -⟩ := new_blank env hg { name := nm } rfl
  generalize he : (⟨c, [0x0D, 0x00], [UInt8.ofNat (c.typeId.getD 0xFF)], nm, [v],
        [if (none : Option Bool) = some true then 0x80 else 0x00], ⟨true, blank c⟩⟩ : Ent) = e at hn
  have hcls : e.cls = c := by rw [← he]
  have hl := (load_yields env (firstPiece b) (e₀ := e) (by rw [hcls]; exact hc)).1
  rw [hcls] at hl
  have hopen : match loadFault c (firstPiece b) with
      | none => (openFile env (Stream.ofBytes b) e).res = .ok ()
      | some x => (openFile env (Stream.ofBytes b) e).res = .error x := by
    have h1 : ((Stream.ofBytes b).read 53).2.seekRel 2 = ⟨b, firstAt b⟩ := by
      simp only [Stream.ofBytes, Stream.read, Stream.peek, Stream.seekRel, firstAt, List.length_take, List.length_drop,
        Stream.mk.injEq, true_and]
      omega
    obtain ⟨wn, h2⟩ := Var.nextEntryLength_ahead ⟨b, firstAt b⟩
    have h3 : (⟨b, aheadFrom b (firstAt b)⟩ : Stream).read (aheadLength b (firstAt b)) =
      (firstPiece b, ⟨b, aheadFrom b (firstAt b) + (firstPiece b).length⟩) := rfl
    unfold openFile
    simp only [h1, h2, h3, PyM.bind_run, PyM.warnAll_run]
    revert hl
    rcases load env (firstPiece b) e with ⟨r, e', w'⟩
    intro hl
    cases hf : loadFault c (firstPiece b) with
    | some x =>
      simp only [hf, faultRes] at hl
      subst hl
      rfl
    | none =>
      simp only [hf, faultRes] at hl
      subst hl
      simp only
      repeat' split
      all_goals rfl
  unfold openFault
  show ((match fs path with
      | none => _
      | some b => _) : Out Files Ent).st = _ ∧ _
  unfold openAs
  simp only [hp, hn]
  by_cases h2 : b.length < 2
  · simp only [if_pos h2]
    exact ⟨trivial, trivial⟩
  · simp only [if_neg h2]
    revert hopen
    rcases openFile env (Stream.ofBytes b) e with ⟨r, e', w'⟩
    intro hopen
    cases hf : loadFault c (firstPiece b) with
    | some x =>
      simp only [hf] at hopen
      subst hopen
      exact ⟨rfl, rfl⟩
    | none =>
      simp only [hf] at hopen
      subst hopen
      exact ⟨rfl, _, rfl⟩

/-- A file of one byte, a header cut off, and a file with an empty list. -/
example : [openFault .program [0x2A], openFault .program "**TI83F*".toUTF8.toList,
    openFault .entry (List.replicate 53 0 ++ [19, 0] ++ [0x0D, 0, 2, 0, 0x01, 0x5D, 0, 0, 0, 0, 0, 0, 0, 0, 0, 2, 0, 0, 0])] =
    [some .osError, none, some .indexError] := by decide +kernel

/-- C134, the part that holds, vars: opening an existing file as a var raises exactly what the first failing piece
of it raises; a file without contents gives a var without entries. -/
theorem C134_var_partial (env : Env V) (me : Var.ModelEnv) (path : Str) {fs : Files} {b : Bytes} (hp : fs path = some b) :
    (Var.openVar env me path fs).st = fs ∧
    ∃ pieces, Cut b (min 55 b.length) (fromLE ((b.drop 53).take 2) : Nat) pieces ∧
      match pieces.findSome? (loadFault .entry) with
      | none => ∃ v, (Var.openVar env me path fs).res = .ok v
      | some x => (Var.openVar env me path fs).res = .error x := by
  have hi : ∃ v0 w0, Var.init none none ⟨Hdr.unset, [], none⟩ = ⟨.ok (), v0, w0⟩ ∧ v0.model = none := ⟨_, _, rfl, rfl⟩
  obtain ⟨v0, w0, hi, hm⟩ := hi
  have h := C133_var_partial env me b v0 hm
  by_cases hb : b = []
  · subst hb
    refine ⟨?_, [], .done (by decide), ?_⟩
    all_goals
      simp only [Var.openVar, hp, Var.ofData, PyM.bind_run, hi, List.isEmpty_nil, if_true, PyM.pure_run, List.findSome?_nil]
    exact ⟨_, rfl⟩
  · obtain ⟨ps, hc, hr⟩ := h
    have hne : b.isEmpty = false := by cases b; exacts [absurd rfl hb, rfl]
    refine ⟨?_, ps, hc, ?_⟩
    all_goals
      simp only [Var.openVar, hp, Var.ofData, PyM.bind_run, hi, hne, Bool.false_eq_true, if_false]
      revert hr
      rcases Var.load env me b v0 with ⟨r, v', w'⟩
      intro hr
      simp only at hr
      subst hr
      cases ps.findSome? (loadFault .entry) <;> first | rfl | exact ⟨_, rfl⟩

/-- The pieces of a file with one short entry. -/
example : Cut (List.replicate 53 0 ++ [15, 0] ++ [0x0B, 0, 0, 0, 0x05, 7, 7, 7, 7, 7, 7, 7, 7, 0, 0]) 55 15
    [[0x0B, 0, 0, 0, 0x05, 7, 7, 7, 7, 7, 7, 7, 7, 0, 0]] ∧
    loadFault .entry [0x0B, 0, 0, 0, 0x05, 7, 7, 7, 7, 7, 7, 7, 7, 0, 0] = none :=
  ⟨.next (by decide) (by decide +kernel) (.done (by decide +kernel)), by decide +kernel⟩

/-- C134, the part that holds, flash files: opening an existing file as a flash header raises `OSError` when there
are fewer than 78 bytes; every other file opens. -/
theorem C134_flash_partial (c : FlashCls) (path : Str) {fs : Files} {b : Bytes} (hp : fs path = some b) :
    (Flash.openAt c path fs).st = fs ∧
    (b.length < 78 → (Flash.openAt c path fs).res = .error .osError) ∧
    (78 ≤ b.length → ∃ h, (Flash.openAt c path fs).res = .ok h) := by
  obtain ⟨h0, hn⟩ : ∃ h0, Flash.new c {} () = ⟨.ok h0, (), []⟩ := by cases c <;> exact ⟨_, rfl⟩
  have hst : (Flash.openAt c path fs).st = fs := by
    simp only [Flash.openAt, hp]
    split <;> rfl
  refine ⟨hst, fun hl => ?_, fun hl => ?_⟩
  · simp only [Flash.openAt, hp, if_pos hl]
  · simp only [Flash.openAt, hp, if_neg (Nat.not_lt.2 hl)]
    obtain ⟨n, hnl, hge⟩ := Flash.nextHeaderLength_start hl
    unfold Flash.openFile
    simp only [PyM.bind_run, hn, hnl, PyM.warnAll_run, PyM.ofExcept_run]
    have hres := Flash.load_fault ((⟨b, 0⟩ : Stream).read n).1 h0
    have hlen : ¬((⟨b, 0⟩ : Stream).read n).1.length < 50 := by
      simp only [Stream.read, Stream.peek, List.drop_zero, List.length_take]; omega
    have hlen' : ¬((⟨b, 0⟩ : Stream).read n).1.length < 17 := by omega
    rw [flashFault, if_neg hlen', if_neg hlen] at hres
    revert hres
    rcases Flash.load ((⟨b, 0⟩ : Stream).read n).1 h0 with ⟨r, h', w'⟩
    intro hres
    simp only at hres
    subst hres
    simp only [PyM.ite_run, PyM.pure_run]
    repeat' split
    all_goals exact ⟨_, rfl⟩

/-- 78 bytes of a picture open as an app. -/
example : (Flash.openAt .app [] fun _ => some (List.replicate 78 0x89)).res.isOk = true := by decide +kernel

/-- C134 is false of the code: a file without contents opens as a var but neither as an entry nor as a flash
header, and a var file with a list of no elements opens as neither. -/
theorem C134_open_false (env : Env V) (me : Var.ModelEnv) :
    (∀ path fs nm, fs path = some [] → (openAs env .program nm path fs).res = .error .osError ∧
      (Flash.openAt .app path fs).res = .error .osError ∧ ∃ v, (Var.openVar env me path fs).res = .ok v) ∧
    (∃ b : Bytes, ∀ path fs nm, fs path = some b → (openAs env .realList nm path fs).res = .error .indexError ∧
      (Var.openVar env me path fs).res = .error .indexError) := by
  refine ⟨fun path fs nm hp => ⟨?_, (C134_flash_partial .app path hp).2.1 (by decide), ?_⟩,
    List.replicate 53 0 ++ [19, 0] ++ [0x0D, 0, 2, 0, 0x01, 0x5D, 0, 0, 0, 0, 0, 0, 0, 0, 0, 2, 0, 0, 0], fun path fs nm hp => ⟨?_, ?_⟩⟩
  · exact (C134_entry_partial env (c := .program) (by decide) (by decide) nm path hp).2
  · obtain ⟨-, ps, hc, h⟩ := C134_var_partial env me path hp
    cases hc with
    | done => exact h
    | next h0 => exact absurd h0 (by decide)
  · have h := (C134_entry_partial env (c := .realList) (by decide) (by decide) nm path hp).2
    rw [show openFault .realList _ = some .indexError by decide +kernel] at h
    exact h
  · obtain ⟨-, ps, hc, h⟩ := C134_var_partial env me path hp
    cases hc with
    | done h0 => exact absurd h0 (by decide)
    | @next _ _ piece more h0 h1 h2 =>
      rw [List.findSome?_cons, show loadFault .entry piece = some .indexError by rw [h1]; decide +kernel] at h
      exact h

end Verif
