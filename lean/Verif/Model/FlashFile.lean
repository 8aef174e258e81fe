import Verif.Model.Flash
import Verif.Model.Files
import Verif.Model.Flags

/-
Model of the files and the views of flash headers: extensions and file names (`/repo/tivars/flash.py:343-346, 615-651`,
`/repo/tivars/types/flash.py:16-75`), saving and opening (`/repo/tivars/flash.py:758-791`), the devices (`/repo/tivars/flash.py:104-135,
510-529`), the data (`/repo/tivars/flash.py:287-333, 544-557`) and the text of licenses (`/repo/tivars/types/flash.py:78-88`).

The files of a directory are those of `Model/Files.lean`. The slots `devices` and `calc_data` always hold `bytes` objects: they are set by
`Section.__set__` with the converters `FlashDevices` and `Bytes` (data.py:390-391), which return `bytes`, or from `data.read` (flash.py:692-716).
-/

namespace Verif

/-! ### Extensions -/

/-- `extensions`: the default and the list for models (flash.py:343, types/flash.py:16-23, 33-38, 50-55, 67-74). -/
def FlashCls.extensions : FlashCls → Str × List (Model × Str)
  | .header => ("8ek".toList, [])
  | .os | .license => ("8eu".toList, [(.ti82a, "82u".toList), (.ti84pcse, "8cu".toList), (.ti84pce, "8eu".toList), (.ti83pce, "8pu".toList),
      (.ti82aep, "8yu".toList)])
  | .app => ("8ek".toList, [(.ti83p, "8xk".toList), (.ti84pcse, "8ck".toList), (.ti84pce, "8ek".toList)])
  | .certificate => ("8eq".toList, [(.ti83p, "8xq".toList), (.ti84pcse, "8cq".toList), (.ti84pce, "8eq".toList)])

namespace Flash

/-- `header.extension(model)` (flash.py:615-640): value and warnings. -/
def extension (ord : Model → Nat) (c : FlashCls) (m : Model) : Except PyErr (Str × List Warn) :=
  match m.has (feature 1) with
  | .error x => .error x
  | .ok b =>
    let ws := if b then [] else [Warn.flashModel]
    let hit := Model.all.reverse.find? fun x => (c.extensions.2.any fun p => p.1 == m) && Model.le ord x m
    match (match hit with
      | none => .ok []
      | some _ => Var.extAt c.extensions.2 m : Except PyErr Str) with
    | .error x => .error x
    | .ok ext => .ok (if ext.isEmpty then (c.extensions.1, ws ++ [.flashUnsupported]) else (ext, ws))

/-- `header.name` (flash.py:496-500). -/
def nameText (h : Flash) : Str := rstripNulStr (latin1Decode h.name)

/-- `header.filename(model)` (flash.py:642-651). -/
def fileName (ord : Model → Nat) (h : Flash) (m : Model) : Except PyErr (Str × List Warn) :=
  (extension ord h.cls m).map fun p => (h.nameText ++ '.' :: p.1, p.2)

/-! ### Files -/

/-- `header.save(filename, model)` (flash.py:783-791): the file is opened before the bytes are computed. An empty name is none. -/
def save (ord : Model → Nat) (h : Flash) (filename : Str) (m : Model) : PyM Files Unit := do
  let (path, ws) ← PyM.ofExcept (if filename.isEmpty then h.fileName ord m else .ok (filename, []))
  PyM.warnAll ws
  PyM.modify fun fs => fs.write path []
  let b ← PyM.ofExcept h.bytes
  PyM.modify fun fs => fs.write path b

/-- `cls.open(filename)` (flash.py:758-781). A file cannot be left before its start: with fewer than 78 bytes, not all
four bytes of the size are there, and the operating system refuses to step back by the 74 bytes before them and four
(flash.py:577-603). -/
def openAt (c : FlashCls) (filename : Str) : PyM Files Flash := ⟨fun fs =>
  match fs filename with
  | none => ⟨.error .fileNotFoundError, fs, []⟩
  | some b =>
    if b.length < 78 then ⟨.error .osError, fs, (new c {} ()).warns⟩ else
    match openFile c b () with
    | ⟨r, _, ws⟩ => ⟨r, fs, ws⟩⟩

/-! ### Devices -/

/-- `FlashDevices.get` (flash.py:114-123): `zip` stops at the last whole pair. -/
def devicesGet : Bytes → List (Int × Int)
  | a :: b :: d => (a.toNat, b.toNat) :: devicesGet d
  | _ => []

/-- `FlashDevices.set` (flash.py:125-135). -/
def devicesSet : List (Int × Int) → Except PyErr Bytes
  | [] => .ok []
  | (a, b) :: ps =>
    match byteOf a, byteOf b, devicesSet ps with
    | .ok x, .ok y, .ok r => .ok (x ++ y ++ r)
    | _, _, _ => .error .valueError

/-- `header.devices = value` (flash.py:510-517), a section without length. -/
def putDevices (v : List (Int × Int)) : PyM Flash Unit := do
  let b ← PyM.ofExcept (devicesSet v)
  PyM.modify fun h => { h with devices := b }

/-- The view `device_type` (flash.py:519-523). -/
def deviceView : View Int := View.mk' none (enumConv [0x73, 0x74, 0x88, 0x98]) ⟨some 0, some 1, none⟩

/-- The view `type_id` (flash.py:525-529). -/
def typeView : View Int := View.mk' none (bitsConv {}) ⟨some 1, some 2, none⟩

/-- `header.view = value` for a view of the devices. -/
def putDevice (v : View Int) (value : Int) : PyM Flash Unit := ⟨fun h =>
  match v.put value ⟨false, h.devices⟩ with
  | ⟨r, b, ws⟩ => ⟨r, { h with devices := b.bytes }, ws⟩⟩

/-! ### Data -/

/-- What `header.data` is: the bytes, or blocks. -/
inductive FlashValue where
  | raw (d : Bytes)
  | blocks (ks : List Block)
  deriving DecidableEq

/-- `header.data` (flash.py:306-317, 550-557): blocks if the flag is one. -/
def getData (h : Flash) : PyM Unit FlashValue :=
  match h.calcData with
  | none => PyM.raise .attributeError
  | some d =>
    match wrapIndexError ((bitsConv {}).get h.binaryFlag) with
    | .error x => PyM.raise x
    | .ok flag =>
      if flag = 1 then do
        let ks ← flashDataGet d
        pure (.blocks ks)
      else pure (.raw d)

/-- `FlashData.set` (flash.py:319-333): blocks are joined if the flag is one, and otherwise bytes are taken as they are. For a value of the
other kind Python finds that integers have no `bytes`, or that a list cannot be put into `bytes`. -/
def dataSet (h : Flash) : FlashValue → Except PyErr Bytes
  | .raw d =>
    match wrapIndexError ((bitsConv {}).get h.binaryFlag) with
    | .error x => .error x
    | .ok flag => if flag = 1 then (if d = [] then .ok [] else .error .attributeError) else .ok d
  | .blocks ks =>
    match wrapIndexError ((bitsConv {}).get h.binaryFlag) with
    | .error x => .error x
    | .ok flag => if flag = 1 then joinBlocks ks else .error .typeError

/-- `header.data = value` (flash.py:550-557, data.py:489-490): the view is that of all data. -/
def putData (v : FlashValue) : PyM Flash Unit := do
  let h ← PyM.get
  match h.calcData with
  | none => PyM.raise .attributeError
  | some d => do
    let b ← PyM.ofExcept (h.dataSet v)
    let view : View Bytes := View.mk' none bytesConv {}
    match view.put b ⟨false, d⟩ with
    | ⟨r, b', ws⟩ => do
      PyM.warnAll ws
      PyM.ofExcept r
      PyM.set { h with calcData := some b'.bytes }

/-! ### Licenses -/

/-- The view `license` (types/flash.py:84-88). -/
def licenseView : View Str := View.mk' none strConv {}

/-- `license.license` -/
def getLicense (h : Flash) : Except PyErr Str :=
  match h.calcData with
  | none => .error .attributeError
  | some d => licenseView.get ⟨false, d⟩

/-- `license.license = text` -/
def putLicense (s : Str) : PyM Flash Unit := ⟨fun h =>
  match h.calcData with
  | none => ⟨.error .attributeError, h, []⟩
  | some d =>
    match licenseView.put s ⟨false, d⟩ with
    | ⟨r, b, ws⟩ => ⟨r, { h with calcData := some b.bytes }, ws⟩⟩

/-- `header.name = text` (flash.py:496-500). -/
def putName (s : Str) : PyM Flash Unit := do
  let h ← PyM.get
  let b ← PyM.lift (setRaw strConv (some 31) h.name s)
  PyM.set { h with name := b }

end Flash
end Verif
