import Verif.Spec.EntryName

/-! Specifications for the names of new entries. -/

namespace Verif.Spec
variable {V : Type}

/-- What a class calls its variables unless told otherwise, and the code of that name on a calculator. -/
def firstName : Cls → String × Bytes
  | .real | .realE | .graphRealE | .undefReal | .realFraction | .realRadical | .realPi | .realPiFraction => ("A", [0x41])
  | .complexE | .complex | .complexFraction | .complexRadical | .complexPi | .complexPiFraction => ("A", [0x41])
  | .listE | .realList | .complexList => ("L1", [0x5D, 0x00])
  | .matrix => ("[A]", [0x5C, 0x00])
  | .equation | .newEquation | .graphedEquation => ("{Y1}", [0x5E, 0x10])
  | .string => ("Str1", [0xAA, 0x00])
  | .monoPicture | .picture => ("Pic1", [0x60, 0x00])
  | .image => ("Image1", [0x3C, 0x00])
  | .window => ("Window", [0x57, 0x69, 0x6E, 0x64, 0x6F, 0x77])
  | .recallWindow => ("RclWindw", [0x52, 0x63, 0x6C, 0x57, 0x69, 0x6E, 0x64, 0x77])
  | .tableSettings => ("TblSet", [0x54, 0x62, 0x6C, 0x53, 0x65, 0x74])
  | .monoGDB | .gdb | .monoFunc | .monoParam | .monoPolar | .monoSeq | .func | .param | .polar | .seq => ("GDB1", [0x61, 0x00])
  | .group => ("GROUP", [0x47, 0x52, 0x4F, 0x55, 0x50])
  | .entry | .sized | .tokenizedE | .pictureE | .settingsE | .program | .protProgram | .asmProgram | .protAsmProgram | .appVar =>
    ("UNNAMED", [0x55, 0x4E, 0x4E, 0x41, 0x4D, 0x45, 0x44])

/-- How that name is shown. -/
def firstShown (c : Cls) : String :=
  match c with
  | .equation | .newEquation | .graphedEquation => "Y₁"
  | .listE | .realList | .complexList => "L₁"
  | _ => (firstName c).1

/-- What new entries are kept in: the archive for appvars, pictures, images and groups. -/
def keptIn (c : Cls) : UInt8 :=
  match c with
  | .appVar | .monoPicture | .picture | .image | .group => 0x80
  | _ => 0x00

/-- Capitals and digits, and the first matrix, function, string, picture and graph database, are tokens with the codes that
calculators give them. -/
structure FirstTokens (table : TokTable V) (toks : List (Tok V × List Str)) : Prop where
  ascii : AsciiTokens table toks
  first : ∀ c ∈ [Cls.matrix, .equation, .string, .picture, .gdb],
    ∃ t ∈ table, named (namePairs toks) (firstName c).1.toList = some t ∧ t.bits = (firstName c).2 ∧ t.display = (firstShown c).toList

end Verif.Spec
