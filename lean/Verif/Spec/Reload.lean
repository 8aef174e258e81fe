import Verif.Spec.LoadFault
/-! When the bytes of an entry, read and written again, read the same. -/
namespace Verif.Spec

/-- The types of complex numbers. -/
def complexTypes : List Nat := [0x0C, 0x1B, 0x1D, 0x1E, 0x1F]

/-- The bytes say plainly how long their header is, and all the data that they promise is there. -/
def AllThere (bytes : Bytes) : Prop :=
  (metaOf (ljust 17 bytes) = 11 ∨ metaOf (ljust 17 bytes) = 13) ∧
    (dataIn bytes).length = fromLE (lengthOf (ljust 17 bytes))

/-- The type written at the end leads to the same class as the type read: for an entry of the base class, not the type of
equations in graph databases, and a complex number only with a complex imaginary part; an equation of a graph database that is to
be selected has a byte for that; a real number does not claim to be such an equation. -/
def Steady (c : Cls) (t : Nat) (d : Bytes) : Prop :=
  match c with
  | .entry => t ≠ 0x23 ∧ (t ∈ complexTypes → imagType d ∈ complexTypes)
  | .graphedEquation => t = 0x23 → d ≠ []
  | .realE | .graphRealE => (d.headD 0).toNat % 64 ≠ 0x23
  | _ => True

/-- The warnings about lengths, the header and missing flash bytes. -/
def layoutWarns : List Warn := [.dataLength, .dataLengths, .flashMissing, .metaLost, .metaLength]

/-- The warnings about how a file is cut into entries, and about its checksum. -/
def frameWarns : List Warn := [.nextMeta, .entryLength, .totalLength, .checksum]

end Verif.Spec
