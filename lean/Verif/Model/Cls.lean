import Verif.Py.Core

/-
The class hierarchy of var entries and the calculator models:
`/repo/tivars/var.py` (class attributes 256-292, 1304), `/repo/tivars/types/*.py`
(class attributes of each entry class) and `/repo/tivars/models/model.py:127-163`.
A Python class object is an element of the enumeration `Cls`; its class attributes are
functions of it. `MODEL_ORDER` comes from the missing `tokens` submodule; wherever the order
of two models matters it is a parameter `Model → Nat`.
-/

namespace Verif

/-- `TIModel.MODELS` (model.py:127-163), in that order. -/
inductive Model where
  | ti82 | ti83 | ti82st | ti82stFr | ti76Fr
  | ti83p | ti83pse | ti83pFr | ti82p
  | ti84p | ti84pse | ti83pFrUsb | ti84pFr | ti84ppse
  | ti82a | ti84pt | ti84pcse
  | ti84pce | ti84pcet | ti83pce | ti83pceep | ti84pcepy | ti84pcetpe | ti82aep
  deriving DecidableEq, Repr

/-- `TIModel.MODELS` (model.py:127-163). -/
def Model.all : List Model :=
  [.ti82, .ti83, .ti82st, .ti82stFr, .ti76Fr, .ti83p, .ti83pse, .ti83pFr, .ti82p,
   .ti84p, .ti84pse, .ti83pFrUsb, .ti84pFr, .ti84ppse, .ti82a, .ti84pt, .ti84pcse,
   .ti84pce, .ti84pcet, .ti83pce, .ti83pceep, .ti84pcepy, .ti84pcetpe, .ti82aep]

/-- The `magic` of each model (model.py:128-162). -/
def Model.magic : Model → Str
  | .ti82 => "**TI82**".toList
  | .ti83 | .ti82st | .ti82stFr | .ti76Fr => "**TI83**".toList
  | _ => "**TI83F*".toList

/-- The `product_id` of each model (model.py:128-162). -/
def Model.productId : Model → Nat
  | .ti82 | .ti83 | .ti82st | .ti82stFr | .ti76Fr => 0x00
  | .ti83p | .ti83pse | .ti83pFr | .ti82p => 0x04
  | .ti84p | .ti84pse | .ti83pFrUsb | .ti84pFr | .ti84ppse => 0x0A
  | .ti82a => 0x0B
  | .ti84pt => 0x1B
  | .ti84pcse => 0x0F
  | .ti82aep => 0x00
  | _ => 0x13

/-- `a >= b` for models (model.py:44-45). -/
def Model.ge (ord : Model → Nat) (a b : Model) : Bool := ord b ≤ ord a

/-- `a < b` as derived by `functools.total_ordering` from `__ge__`: `not a >= b`. -/
def Model.lt (ord : Model → Nat) (a b : Model) : Bool := !Model.ge ord a b

/-- `a <= b` as derived by `functools.total_ordering` from `__ge__`: `not a >= b or a == b`
(model.py:41-45; model names are distinct). -/
def Model.le (ord : Model → Nat) (a b : Model) : Bool := !Model.ge ord a b || a == b

/-- Every entry class. -/
inductive Cls where
  | entry | sized | tokenizedE | realE | graphRealE | complexE | listE | pictureE | settingsE
  | real | realList | matrix | equation | string | program | protProgram
  | picture | monoGDB | newEquation | complex | complexList | undefReal
  | window | recallWindow | tableSettings | appVar | group | realFraction | image
  | complexFraction | realRadical | complexRadical | complexPi | complexPiFraction
  | realPi | realPiFraction | graphedEquation
  | asmProgram | protAsmProgram | monoPicture | gdb
  | monoFunc | monoParam | monoPolar | monoSeq | func | param | polar | seq
  deriving DecidableEq, Repr

/-- Every entry class, as a list. -/
def Cls.all : List Cls :=
  [.entry, .sized, .tokenizedE, .realE, .graphRealE, .complexE, .listE, .pictureE, .settingsE,
   .real, .realList, .matrix, .equation, .string, .program, .protProgram,
   .picture, .monoGDB, .newEquation, .complex, .complexList, .undefReal,
   .window, .recallWindow, .tableSettings, .appVar, .group, .realFraction, .image,
   .complexFraction, .realRadical, .complexRadical, .complexPi, .complexPiFraction,
   .realPi, .realPiFraction, .graphedEquation,
   .asmProgram, .protAsmProgram, .monoPicture, .gdb,
   .monoFunc, .monoParam, .monoPolar, .monoSeq, .func, .param, .polar, .seq]

namespace Cls

/-- Direct base classes (the `class` statements of var.py and types/*.py). -/
def bases : Cls → List Cls
  | .entry => []
  | .sized => [.entry]                       -- var.py:1296
  | .tokenizedE => [.sized]                  -- tokenized.py:18
  | .realE => [.entry]                       -- real.py:19
  | .graphRealE => [.realE]                  -- real.py:209
  | .complexE => [.entry]                    -- complex.py:89
  | .listE => [.entry]                       -- list.py:71
  | .pictureE => [.sized]                    -- picture.py:151
  | .settingsE => [.sized]                   -- settings.py:16
  | .real => [.realE]                        -- real.py:227
  | .realList => [.listE]                    -- list.py:206
  | .matrix => [.entry]                      -- matrix.py:16
  | .equation => [.tokenizedE]               -- tokenized.py:236
  | .string => [.tokenizedE]                 -- tokenized.py:290
  | .program => [.tokenizedE]                -- tokenized.py:333
  | .protProgram => [.program]               -- tokenized.py:458
  | .picture => [.pictureE]                  -- picture.py:280
  | .monoGDB => [.sized]                     -- gdb.py:364
  | .newEquation => [.equation]              -- tokenized.py:280
  | .complex => [.complexE]                  -- complex.py:356
  | .complexList => [.listE]                 -- list.py:223
  | .undefReal => [.real]                    -- real.py:315
  | .window => [.settingsE]                  -- settings.py:53
  | .recallWindow => [.settingsE]            -- settings.py:296
  | .tableSettings => [.settingsE]           -- settings.py:539
  | .appVar => [.sized]                      -- appvar.py:10
  | .group => [.sized]                       -- group.py:19
  | .realFraction => [.real]                 -- real.py:325
  | .image => [.pictureE]                    -- picture.py:357
  | .complexFraction => [.complex]           -- complex.py:378
  | .realRadical => [.realE]                 -- real.py:369
  | .complexRadical => [.complexE]           -- complex.py:392
  | .complexPi => [.complex]                 -- complex.py:412
  | .complexPiFraction => [.complexPi, .complexFraction]  -- complex.py:432
  | .realPi => [.real]                       -- real.py:602
  | .realPiFraction => [.realPi, .realFraction]           -- real.py:655
  | .graphedEquation => [.equation]          -- gdb.py:151
  | .asmProgram => [.program]                -- tokenized.py:441
  | .protAsmProgram => [.asmProgram, .protProgram]        -- tokenized.py:470
  | .monoPicture => [.pictureE]              -- picture.py:229
  | .gdb => [.monoGDB]                       -- gdb.py:716
  | .monoFunc => [.monoGDB]                  -- gdb.py:825
  | .monoParam => [.monoGDB]                 -- gdb.py:979
  | .monoPolar => [.monoGDB]                 -- gdb.py:1161
  | .monoSeq => [.monoGDB]                   -- gdb.py:1297
  | .func => [.gdb, .monoFunc]               -- gdb.py:945
  | .param => [.gdb, .monoParam]             -- gdb.py:1127
  | .polar => [.gdb, .monoPolar]             -- gdb.py:1263
  | .seq => [.gdb, .monoSeq]                 -- gdb.py:1511

/-- Ancestors up to the given depth, including the class itself. -/
def ancestorsN : Nat → Cls → List Cls
  | 0, c => [c]
  | n + 1, c => c :: c.bases.flatMap (ancestorsN n)

/-- `issubclass(a, b)`; the hierarchy has depth at most six. -/
def isSub (a b : Cls) : Bool := (ancestorsN 6 a).contains b

/-- `_type_id` (var.py:291 and each class; inherited where the class does not set it). -/
def typeId : Cls → Option Nat
  | .entry | .sized | .tokenizedE | .realE | .graphRealE | .complexE | .listE | .pictureE
  | .settingsE => none
  | .real => some 0x00            -- real.py:240
  | .realList => some 0x01        -- list.py:220
  | .matrix => some 0x02          -- matrix.py:37
  | .equation => some 0x03        -- tokenized.py:252
  | .graphedEquation => some 0x03 -- inherited from TIEquation
  | .string => some 0x04          -- tokenized.py:306
  | .program => some 0x05         -- tokenized.py:364
  | .asmProgram => some 0x05      -- inherited from TIProgram
  | .protProgram => some 0x06     -- tokenized.py:467
  | .protAsmProgram => some 0x06  -- tokenized.py:479
  | .monoPicture => some 0x07     -- picture.py:258
  | .picture => some 0x07         -- picture.py:311
  | .monoGDB | .gdb | .monoFunc | .monoParam | .monoPolar | .monoSeq
  | .func | .param | .polar | .seq => some 0x08  -- gdb.py:414
  | .newEquation => some 0x0B     -- tokenized.py:287
  | .complex => some 0x0C         -- complex.py:365
  | .complexList => some 0x0D     -- list.py:236
  | .undefReal => some 0x0E       -- real.py:322
  | .window => some 0x0F          -- settings.py:69
  | .recallWindow => some 0x10    -- settings.py:312
  | .tableSettings => some 0x11   -- settings.py:555
  | .appVar => some 0x15          -- appvar.py:25
  | .group => some 0x17           -- group.py:38
  | .realFraction => some 0x18    -- real.py:343
  | .image => some 0x1A           -- picture.py:391
  | .complexFraction => some 0x1B -- complex.py:389
  | .realRadical => some 0x1C     -- real.py:393
  | .complexRadical => some 0x1D  -- complex.py:405
  | .complexPi => some 0x1E       -- complex.py:425
  | .complexPiFraction => some 0x1F -- complex.py:445
  | .realPi => some 0x20          -- real.py:621
  | .realPiFraction => some 0x21  -- real.py:668

/-- `TIEntry.get_type` (var.py:616-625): the registry filled by `register=True` class
statements; `TIGraphedEquation` registers under 0x23 (gdb.py:151). -/
def getType : Nat → Option Cls
  | 0x00 => some .real
  | 0x01 => some .realList
  | 0x02 => some .matrix
  | 0x03 => some .equation
  | 0x04 => some .string
  | 0x05 => some .program
  | 0x06 => some .protProgram
  | 0x07 => some .picture
  | 0x08 => some .monoGDB
  | 0x0B => some .newEquation
  | 0x0C => some .complex
  | 0x0D => some .complexList
  | 0x0E => some .undefReal
  | 0x0F => some .window
  | 0x10 => some .recallWindow
  | 0x11 => some .tableSettings
  | 0x15 => some .appVar
  | 0x17 => some .group
  | 0x18 => some .realFraction
  | 0x1A => some .image
  | 0x1B => some .complexFraction
  | 0x1C => some .realRadical
  | 0x1D => some .complexRadical
  | 0x1E => some .complexPi
  | 0x1F => some .complexPiFraction
  | 0x20 => some .realPi
  | 0x21 => some .realPiFraction
  | 0x23 => some .graphedEquation
  | _ => none

/-- `flash_only` (var.py:256; appvar.py:18, complex.py:399/419/439, picture.py:288/367,
real.py:383/611/664). -/
def flashOnly : Cls → Bool
  | .appVar | .complexRadical | .complexPi | .complexPiFraction | .picture | .image
  | .realRadical | .realPi | .realPiFraction => true
  | _ => false

/-- The versions recognised for tokenised entries (tokenized.py:25-30). -/
def tokenVersions : List Nat :=
  [0x00, 0x01, 0x02, 0x03, 0x04, 0x05, 0x06, 0x0A, 0x0B, 0x0C,
   0x20, 0x21, 0x22, 0x23, 0x24, 0x25, 0x26, 0x2A, 0x2B, 0x2C]

/-- `versions` (var.py:266, complex.py:103, list.py:81, matrix.py:24, picture.py:290/369,
real.py:335/385/613, tokenized.py:25-30); `TIRealPiFraction` inherits `TIRealPi`'s. -/
def versions : Cls → List Nat
  | .complexE | .complex | .complexFraction | .complexRadical | .complexPi
  | .complexPiFraction => [0x00, 0x0B, 0x10]
  | .listE | .realList | .complexList | .matrix => [0x10, 0x0B, 0x00]
  | .picture => [0x0A]
  | .realFraction => [0x06]
  | .realRadical | .realPi | .realPiFraction => [0x10]
  | .tokenizedE | .equation | .newEquation | .graphedEquation | .string | .program
  | .protProgram | .asmProgram | .protAsmProgram => tokenVersions
  | _ => [0x00]

/-- `min_data_length` (var.py:274, 1304 and each class). -/
def minDataLength : Cls → Nat
  | .entry => 0
  | .sized | .tokenizedE | .equation | .newEquation | .string | .program | .protProgram
  | .asmProgram | .protAsmProgram | .pictureE | .settingsE | .appVar | .group
  | .listE | .realList | .complexList | .matrix => 2
  | .realE | .graphRealE | .real | .undefReal | .realFraction | .realRadical | .realPi
  | .realPiFraction => 9
  | .complexE | .complex | .complexFraction | .complexRadical | .complexPi
  | .complexPiFraction => 18
  | .monoPicture => 758
  | .picture => 21947
  | .image => 22247
  | .window => 210
  | .recallWindow => 209
  | .tableSettings => 20
  | .graphedEquation => 3
  | .monoGDB => 61
  | .gdb => 66
  | .monoFunc => 110
  | .func => 128
  | .monoParam => 130
  | .param => 144
  | .monoPolar => 112
  | .polar => 126
  | .monoSeq => 163
  | .seq => 174

/-- `leading_name_byte` (var.py:281; gdb.py:382, matrix.py:35, picture.py:256/309/388,
tokenized.py:250/304). -/
def leadingName : Cls → Bytes
  | .matrix => [0x5C]
  | .equation | .newEquation | .graphedEquation => [0x5E]
  | .string => [0xAA]
  | .monoPicture | .picture => [0x60]
  | .image => [0x3C]
  | .monoGDB | .gdb | .monoFunc | .monoParam | .monoPolar | .monoSeq
  | .func | .param | .polar | .seq => [0x61]
  | _ => []

/-- `leading_data_bytes` (var.py:286; picture.py:389). -/
def leadingData : Cls → Bytes
  | .image => [0x81]
  | _ => []

/-- Whether the class is a `SizedEntry`. -/
def isSized (c : Cls) : Bool := c.isSub .sized

/-- Whether the class is a `TokenizedEntry`. -/
def isTokenized (c : Cls) : Bool := c.isSub .tokenizedE

/-- `extensions` (var.py:261 and each class): the default extension and the per-model list. -/
def extensions : Cls → Str × List (Model × Str)
  | .appVar => ("8xv".toList, [(.ti83p, "8xv".toList)])                    -- appvar.py:20
  | .complexE | .complex | .complexFraction | .complexRadical | .complexPi
  | .complexPiFraction =>                                                  -- complex.py:105
    ("8xc".toList, [(.ti83, "83c".toList), (.ti83p, "8xc".toList)])
  | .monoGDB | .gdb | .monoFunc | .monoParam | .monoPolar | .monoSeq
  | .func | .param | .polar | .seq =>                                      -- gdb.py:373
    ("8xd".toList, [(.ti82, "82d".toList), (.ti83, "83d".toList), (.ti83p, "8xd".toList)])
  | .group =>                                                              -- group.py:31
    ("8xg".toList, [(.ti82, "82g".toList), (.ti83, "83g".toList), (.ti83p, "8xg".toList)])
  | .realList =>                                                           -- list.py:213
    ("8xl".toList, [(.ti82, "82l".toList), (.ti83, "83l".toList), (.ti83p, "8xl".toList)])
  | .complexList =>                                                        -- list.py:230
    ("8xl".toList, [(.ti83, "83l".toList), (.ti83p, "8xl".toList)])
  | .matrix =>                                                             -- matrix.py:26
    ("8xm".toList, [(.ti82, "82m".toList), (.ti83, "83m".toList), (.ti83p, "8xm".toList)])
  | .monoPicture =>                                                        -- picture.py:236
    ("8xi".toList, [(.ti83p, "8xi".toList), (.ti84pcse, "".toList)])
  | .picture => ("8ci".toList, [(.ti84pcse, "8ci".toList)])                -- picture.py:292
  | .image => ("8ca".toList, [(.ti84pcse, "8ca".toList)])                  -- picture.py:371
  | .realE | .graphRealE | .real | .undefReal | .realFraction | .realRadical | .realPi
  | .realPiFraction =>                                                     -- real.py:31
    ("8xn".toList, [(.ti82, "82n".toList), (.ti83, "83n".toList), (.ti83p, "8xn".toList)])
  | .window =>                                                             -- settings.py:60
    ("8xw".toList, [(.ti82, "82w".toList), (.ti83, "83w".toList), (.ti83p, "8xw".toList)])
  | .recallWindow =>                                                       -- settings.py:303
    ("8xz".toList, [(.ti82, "82z".toList), (.ti83, "83z".toList), (.ti83p, "8xz".toList)])
  | .tableSettings =>                                                      -- settings.py:546
    ("8xt".toList, [(.ti82, "82t".toList), (.ti83, "83t".toList), (.ti83p, "8xt".toList)])
  | .equation | .newEquation | .graphedEquation =>                         -- tokenized.py:243
    ("8xy".toList, [(.ti82, "82y".toList), (.ti83, "83y".toList), (.ti83p, "8xy".toList)])
  | .string =>                                                             -- tokenized.py:297
    ("8xs".toList, [(.ti82, "82s".toList), (.ti83, "83s".toList), (.ti83p, "8xs".toList)])
  | .program | .protProgram | .asmProgram | .protAsmProgram =>             -- tokenized.py:340
    ("8xp".toList, [(.ti82, "82p".toList), (.ti83, "83p".toList), (.ti83p, "8xp".toList)])
  | .entry | .sized | .tokenizedE | .listE | .pictureE | .settingsE =>     -- var.py:261
    ("8xg".toList, [])

end Cls

end Verif
