import Verif.Model.Token

/-! What makes a program an assembly program, in terms of its tokens. -/

namespace Verif
namespace Spec

/-- The codes of the three tokens that mark compiled assembly code on the TI-83 Plus, the TI-84 Plus C and the TI-84 Plus CE. -/
def compiledMarks : List Bytes := [[0xBB, 0x6D], [0xEF, 0x69], [0xEF, 0x7B]]

/-- The program begins with such a mark. -/
def Marked {V : Type} (ts : List (Tok V)) : Prop := ∃ t rest, ts = t :: rest ∧ t.bits ∈ compiledMarks

/-- The text ends with the lines by which assembly programs of the TI-83 end. -/
def Ends83 {V : Type} (ts : List (Tok V)) : Prop := "End\n0000\nEnd".toList <:+ ts.flatMap Tok.display

/-- No code ends with a byte at which a mark begins. -/
def CleanEnds {V : Type} (tbl : TokTable V) : Prop := ∀ t ∈ tbl, t.bits.getLast? ≠ some 0xBB ∧ t.bits.getLast? ≠ some 0xEF

end Spec
end Verif
