import Verif.Model.Entry
import Mathlib.Data.Nat.Basic

/-! A small environment for the examples beside the theorems: a handful of tokens, and OS versions
numbered by their position in the order. -/

namespace Verif.Spec

/-- Sample token table. -/
def sampleTable : TokTable Nat :=
  let mk (bits : Bytes) (name : String) (since : Nat) : Tok Nat :=
    ⟨bits, name.toList, [name.toList], since⟩
  [mk [0x41] "A" 0, mk [0x42] "B" 0, mk [0x2A] "\"" 0, mk [0x04] "→" 0, mk [0x3F] "\n" 0,
   mk [0x5F] "prgm" 1, mk [0xEB] "ʟ" 1, mk [0xBB, 0xB0] "a" 2, mk [0xBB, 0x6D] "AsmPrgm" 1,
   mk [0xEF, 0x00] "setDate(" 4, mk [0xEF, 0x98] "eval(" 10]

/-- Sample environment; `UNNAMED` in ASCII. -/
def sampleEnv : Env Nat where
  initial := 0
  table := sampleTable
  unnamed := [0x55, 0x4E, 0x4E, 0x41, 0x4D, 0x45, 0x44, 0x00]
  ce53 := 10
  ce52 := 9
  cse40 := 8
  p255 := 7
  p253 := 6
  p230 := 5
  p221 := 4
  b116 := 3
  b115 := 2
  b100 := 1
  osP := 1
  osCse := 8
  osCe := 9

/-- A program named `A` with three bytes of data, on a flash calculator. -/
def sampleProgram : Ent :=
  ⟨.program, [0x0D, 0x00], [0x05], [0x41, 0, 0, 0, 0, 0, 0, 0], [0x01], [0x80],
    ⟨true, [0x03, 0x00, 0x41, 0x3F, 0x42]⟩⟩

/-- An appvar without flash bytes. -/
def sampleAppVar : Ent :=
  ⟨.appVar, [0x0B, 0x00], [0x15], [0x42, 0, 0, 0, 0, 0, 0, 0], [0x00], [0x00],
    ⟨true, [0x02, 0x00, 0xDE, 0xAD]⟩⟩

end Verif.Spec
