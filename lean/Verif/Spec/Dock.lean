import Verif.Model.Dock

/-
Specification for `load`: which method is meant for which kind of object, written down from the
documentation of the methods rather than from the mechanism that finds them.
-/

namespace Verif
namespace Spec

/-- The loader method meant for an object of kind `k` in class `c`, if there is one. -/
def meant (c : Cls) : Kind → Option Meth
  | .bytes | .bytearray | .bytesIO => some .loadBytes
  | .str => some .loadString
  | .dict => some .loadDict
  | .file => some .loadFromFile
  | .list | .tuple =>
    if c.isSub .listE then some .loadList
    else if c.isSub .matrix then some .loadMatrix
    else if c.isSub .pictureE then some .loadArray
    else if c.isSub .group then some .loadFromEntries
    else if c.isSub .tokenizedE then some .loadTokens
    else none
  | .int | .bool | .float =>
    if c.isSub .realE then some .loadFloat
    else if c.isSub .complexE then some .loadComplex
    else none
  | .complex => if c.isSub .complexE then some .loadComplex else none
  | .decimal => if c.isSub .realE then some .loadDecimal else none
  | .fraction => if c.isSub .realFraction then some .loadFraction else none
  | .equation => if c.isSub .graphedEquation then some .loadEquation else none
  | .other => none

/-- Where `load` does not find the method meant: file objects, sequences of tokens, equations for
graphed equations, fractions for fractional multiples of pi. -/
def missed (c : Cls) : Kind → Bool
  | .file => true
  | .list | .tuple => c.isSub .tokenizedE
  | .equation => c = .graphedEquation
  | .fraction => c = .realPiFraction
  | _ => false

/-- The classes that define each method themselves. -/
def definers : Meth → List Cls
  | .loadBytes => [.entry, .sized, .tokenizedE, .program, .listE, .matrix]
  | .loadDict => [.entry, .graphedEquation, .monoGDB, .monoFunc, .monoParam, .monoPolar, .monoSeq, .settingsE]
  | .loadFromFile => [.entry]
  | .loadString => [.entry, .tokenizedE, .string, .program, .graphedEquation, .monoGDB, .settingsE, .listE, .matrix,
      .complexE, .real, .realFraction, .realRadical, .realPi, .realPiFraction]
  | .loadTokens => [.tokenizedE]
  | .loadEquation => [.graphedEquation]
  | .loadArray => [.pictureE, .monoPicture, .picture, .image]
  | .loadFromEntries => [.group]
  | .loadList => [.listE]
  | .loadMatrix => [.matrix]
  | .loadComplex => [.complexE, .complex, .complexRadical, .complexPi]
  | .loadDecimal => [.realE, .real, .realRadical, .realPi]
  | .loadFloat => [.realE]
  | .loadFraction => [.realFraction]

/-- The class body of `o` defines a loader named `m`. -/
def Defines (o : Cls) (m : Meth) : Prop := o ∈ definers m

/-- Of all the definitions of `m` in `c` and the classes it is derived from, that of `o` is in the
class derived from all the others. -/
def MostDerived (c o : Cls) (m : Meth) : Prop :=
  c.isSub o = true ∧ Defines o m ∧ ∀ b, c.isSub b = true → Defines b m → o.isSub b = true

/-- Objects that a class has no use for, although it has a method for them: dictionaries outside of
graph databases, graphed equations and settings; inexact numbers for radicals and multiples of pi;
and numbers for the two base classes of numbers. -/
def unwanted (c : Cls) : Kind → Bool
  | .dict => !(c.isSub .graphedEquation || c.isSub .monoGDB || c.isSub .settingsE)
  | .int | .bool | .float =>
    c = .realE || c = .graphRealE || c.isSub .realRadical || c.isSub .realPi
      || c = .complexE || c.isSub .complexRadical || c.isSub .complexPi
  | .complex => c = .complexE || c.isSub .complexRadical || c.isSub .complexPi
  | .decimal => c = .realE || c = .graphRealE || c.isSub .realRadical || c.isSub .realPi
  | _ => false

end Spec
end Verif
