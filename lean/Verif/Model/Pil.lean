import Verif.Model.Picture
import Verif.Model.Files
import Verif.Model.Construct

/-
Model of the Pillow plugins (`/repo/tivars/PIL/common.py` and the three modules beside it). Pillow itself is not
modelled: `openImage` is what `Image.open(file)` followed by reading the pixels runs of the library, `saveImage`
is what `image.save(file)` runs.
-/

namespace Verif

/-- An image of Pillow: its size, the number of bands of its mode (one for `L`, three for `RGB`), and the components
of its pixels from left to right and top to bottom. -/
structure Raster where
  width : Nat
  height : Nat
  bands : Nat
  values : List Int
  deriving DecidableEq

/-- The three plugins, by their file format. -/
inductive Plugin
  | xi | ci | ca
  deriving DecidableEq

namespace Plugin

/-- `_T` (TI8xiPlugin.py:15/26, TI8ciPlugin.py:15/26, TI8caPlugin.py:15/26). -/
def cls : Plugin → Cls
  | xi => .monoPicture
  | ci => .picture
  | ca => .image

/-- `width` (picture.py:244, 299, 378). -/
def width : Plugin → Nat
  | xi => 96
  | ci => 266
  | ca => 133

/-- `height` (picture.py:245, 300, 379). -/
def height : Plugin → Nat
  | xi => 63
  | ci => 165
  | ca => 83

/-- The bands of `pil_mode` (picture.py:250, 305, 384), which is also what is left of `np_shape` behind height and
width (picture.py:252, 307, 386). -/
def bands : Plugin → Nat
  | xi => 1
  | ci | ca => 3

end Plugin

/-- The innermost lists of an array of shape `(…, 3)`. -/
def triples : List Int → List RGB
  | r :: g :: b :: l => (r, g, b) :: triples l
  | _ => []

/-- The components of pixels. -/
def components (l : List RGB) : List Int := l.flatMap fun p => [p.1, p.2.1, p.2.2]

/-- `np.asarray(im).reshape(np_shape).tolist()` (common.py:110): only the number of components matters. -/
def reshape (p : Plugin) (values : List Int) : Except PyErr (List Int) :=
  if values.length = p.height * p.width * p.bands then .ok values else .error .valueError

variable {V : Type} [LinearOrder V]

/-- `img.load_array(...)` (common.py:110). -/
def pluginLoad (env : Env V) (p : Plugin) (values : List Int) : PyM Ent Unit :=
  match p with
  | .xi => Ent.loadMono env (Ent.chunks 96 values)
  | .ci => Ent.loadPicture env (Ent.chunks 266 (triples values))
  | .ca => Ent.loadImage env (Ent.chunks 133 (triples values))

/-- `TIEncoder.encode` (common.py:101-113): the bytes written to the file. `name` is the encoded default name of the
class, `Pic1` or `Image1`; new pictures are archived (picture.py:262, 315, 395). -/
def saveImage (env : Env V) (p : Plugin) (name : Bytes) (r : Raster) : PyM Unit Bytes := do
  let img ← Ent.new env p.cls { name := name, archived := some true } []
  let values ← PyM.ofExcept (reshape p r.values)
  ⟨fun s => match pluginLoad env p values img with
    | ⟨.error x, _, ws⟩ => ⟨.error x, s, ws⟩
    | ⟨.ok (), img, ws⟩ =>
      match Ent.exportVar env img none none ⟨Hdr.unset, [], none⟩ with
      | ⟨.error x, _, ws'⟩ => ⟨.error x, s, ws ++ ws'⟩
      | ⟨.ok (), v, ws'⟩ => ⟨v.bytes, s, ws ++ ws'⟩⟩

/-- `warnings.simplefilter("error")` (common.py:41-42): the first warning is raised. The objects the statements work
on are local, so the state is that before. -/
def strictly {σ α : Type} (x : PyM σ α) : PyM σ α := ⟨fun s =>
  match x s with
  | ⟨r, s', []⟩ => ⟨r, s', []⟩
  | ⟨_, _, _ :: _⟩ => ⟨.error .bytesWarningError, s, []⟩⟩

/-- `var = TIVar(); var.load_bytes(buffer)` (common.py:44-45, 85-86). -/
def loadFile (env : Env V) (me : Var.ModelEnv) (b : Bytes) : PyM Unit Var := ⟨fun s =>
  match Var.init none none ⟨Hdr.unset, [], none⟩ with
  | ⟨.error x, _, ws⟩ => ⟨.error x, s, ws⟩
  | ⟨.ok (), v, ws⟩ =>
    match Var.load env me b v with
    | ⟨.error x, _, ws'⟩ => ⟨.error x, s, ws ++ ws'⟩
    | ⟨.ok (), v, ws'⟩ => ⟨.ok v, s, ws ++ ws'⟩⟩

/-- `var.entries[0]`. -/
def firstEntry (v : Var) : Except PyErr Ent :=
  match v.entries with
  | [] => .error .indexError
  | e :: _ => .ok e

/-- `TIImageFile._open` (common.py:36-54). -/
def pluginOpen (env : Env V) (me : Var.ModelEnv) (p : Plugin) (b : Bytes) : PyM Unit Unit :=
  strictly do
    let v ← loadFile env me b
    let e ← PyM.ofExcept (firstEntry v)
    if e.cls.isSub p.cls then pure () else PyM.raise .typeError

/-- `b"…"`. -/
def asciiBytes (s : String) : Bytes := s.toList.map fun c => UInt8.ofNat c.toNat

/-- `accept(prefix)` (common.py:14-15): whether Pillow hands the file to the plugins at all. -/
def pluginAccept (b : Bytes) : Bool :=
  b.take 8 = asciiBytes "**TI82**" || b.take 8 = asciiBytes "**TI83**" || b.take 8 = asciiBytes "**TI83F*"

/-- The pixels of `entry.array()` as one list (common.py:87). -/
def pluginArray (p : Plugin) (e : Ent) : Except PyErr (List Int) :=
  match p with
  | .xi => match Ent.monoArray e with
    | .error x => .error x
    | .ok a => .ok a.flatten
  | .ci => match Ent.pictureArray e with
    | .error x => .error x
    | .ok a => .ok (components a.flatten)
  | .ca => match Ent.imageArray e with
    | .error x => .error x
    | .ok a => .ok (components a.flatten)

/-- `TIDecoder.decode` (common.py:77-89), after `_open`. -/
def openImage (env : Env V) (me : Var.ModelEnv) (p : Plugin) (b : Bytes) : PyM Unit Raster := do
  pluginOpen env me p b
  let v ← loadFile env me b
  let e ← PyM.ofExcept (firstEntry v)
  let values ← PyM.ofExcept (pluginArray p e)
  pure ⟨p.width, p.height, p.bands, values⟩

end Verif
