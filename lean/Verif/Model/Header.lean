import Verif.Model.Cls
import Verif.Model.Data

/-
Model of `TIHeader` (`/repo/tivars/var.py:28-238`).
-/

namespace Verif

/-- `TIHeader.Raw` (var.py:35-53): the four section slots. -/
structure Hdr where
  magic : Bytes
  extra : Bytes
  productId : Bytes
  comment : Bytes
  deriving DecidableEq, Repr

namespace Hdr

/-- `header.magic = value` (var.py:134-138): `Section(8, String)`. -/
def setMagic (value : Str) : PyM Hdr Unit := do
  let h ← PyM.get
  let b ← PyM.lift (setRaw strConv (some 8) h.magic value)
  PyM.set { h with magic := b }

/-- `header.extra = value` (var.py:140-147): `Section(2)`. -/
def setExtra (value : Bytes) : PyM Hdr Unit := do
  let h ← PyM.get
  let b ← PyM.lift (setRaw bytesConv (some 2) h.extra value)
  PyM.set { h with extra := b }

/-- `header.product_id = value` (var.py:149-156): `Section(1, Bits[:])`. -/
def setProductId (value : Int) : PyM Hdr Unit := do
  let h ← PyM.get
  let b ← PyM.lift (setRaw (bitsConv {}) (some 1) h.productId value)
  PyM.set { h with productId := b }

/-- `header.comment = value` (var.py:158-162): `Section(42, String)`. -/
def setComment (value : Str) : PyM Hdr Unit := do
  let h ← PyM.get
  let b ← PyM.lift (setRaw strConv (some 42) h.comment value)
  PyM.set { h with comment := b }

/-- `Raw.bytes` (var.py:48-53). -/
def bytes (h : Hdr) : Bytes := h.magic ++ h.extra ++ h.productId ++ h.comment

/-- `TIHeader.__len__` (var.py:127-132). -/
def len (_ : Hdr) : Nat := 53

/-- `TIHeader.load_bytes` on a byte string (var.py:188-210). -/
def load (data : Bytes) : PyM Hdr Unit := do
  let s := Stream.ofBytes (ljust 53 data)
  let (magic, s) := s.read 8
  PyM.modify fun h => { h with magic := magic }
  let (extra, s) := s.read 2
  PyM.modify fun h => { h with extra := extra }
  let (pid, s) := s.read 1
  PyM.modify fun h => { h with productId := pid }
  let (comment, _) := s.read 42
  PyM.modify fun h => { h with comment := comment }

/-- `TIHeader.load_bytes` on a byte stream (var.py:195-198): the stream is wrapped in a new
`BytesIO`, which has no `ljust`, so that `data.ljust(...)` raises `AttributeError`. -/
def loadStream (_ : Stream) : PyM Hdr Unit := PyM.raise .attributeError

/-- A `Raw` object none of whose slots has been set; the sections of a header ignore the
current contents of their slot, so an unset slot is represented by no bytes. -/
def unset : Hdr := ⟨[], [], [], []⟩

/-- The default comment (var.py:57). -/
def defaultComment : Str := "Created with tivars_lib_py v0.9.2".toList

/-- `TIHeader(model, magic=, extra=, product_id=, comment=, data=)` (var.py:55-80). -/
def init (model : Option Model) (magic : Option Str := none) (extra : Bytes := [0x1a, 0x0a])
    (productId : Option Int := none) (comment : Str := defaultComment)
    (data : Bytes := []) : PyM Hdr Unit := do
  PyM.set unset
  let model := model.getD .ti83p
  setMagic (match magic with
    | none => model.magic
    | some m => if m.isEmpty then model.magic else m)
  setExtra extra
  setProductId (productId.getD model.productId)
  setComment comment
  if data.isEmpty then pure () else load data

/-- `header.targets()` (var.py:164-186). The result is a Python set; it is given here as the
list of its elements in the order of `TIModel.MODELS`. -/
def targets (h : Hdr) : Except PyErr (List Model) :=
  match sectionGet strConv ⟨false, h.magic⟩ with
  | .error e => .error e
  | .ok magic =>
    let models := Model.all.filter fun m => m.magic == magic
    match sectionGet (bitsConv {}) ⟨false, h.productId⟩ with
    | .error e => .error e
    | .ok pid =>
      let filtered := models.filter fun m => (m.productId : Int) == pid
      if pid ≠ 0 ∧ filtered ≠ [] then .ok filtered
      else if models = [] then .error .valueError
      else .ok models

end Hdr

/-- `min(*models)` for the elements of a set in iteration order: with one element Python tries
to iterate over it and raises `TypeError`; otherwise the first element smaller than all
before it wins. -/
def minModels (ord : Model → Nat) : List Model → Except PyErr Model
  | [] => .error .typeError
  | [_] => .error .typeError
  | m :: ms => .ok (ms.foldl (fun best x => if Model.lt ord x best then x else best) m)

end Verif
