import Verif.Model.Cls

/-
Model of `Dock.load` and `Loader` (`/repo/tivars/data.py:510-565`) for the entry classes: which
loader method an object of a given Python type is handed to.

A loader function is named by the class whose body defines it and the name of the method. What the
functions do is modelled elsewhere; here it is a parameter.
-/

namespace Verif

/-- The types written between the brackets of `@Loader[...]`. `seqOfTokens` is `Sequence[TIToken]`
(tokenized.py:180), which is not a class. -/
inductive LTy where
  | bytes | bytearray | bytesIO | dict | binaryIO | str | sequence | seqOfTokens
  | complex | float | int | decimal | fraction | equation
  deriving DecidableEq, Repr

/-- The names of the loader methods. -/
inductive Meth where
  | loadBytes | loadDict | loadFromFile | loadString | loadTokens | loadEquation | loadList
  | loadMatrix | loadArray | loadFromEntries | loadComplex | loadDecimal | loadFloat | loadFraction
  deriving DecidableEq, Repr

/-- What can be passed to `load`, as far as `isinstance` tells it apart. `file` is an object made by
`open(name, 'rb')`, `equation` a `TIEquation`, `other` anything that is none of the rest (`None`,
a set, another entry, ...). -/
inductive Kind where
  | bytes | bytearray | bytesIO | file | dict | str | list | tuple
  | int | bool | float | complex | decimal | fraction | equation | other
  deriving DecidableEq, Repr

/-- Every kind. -/
def Kind.all : List Kind :=
  [.bytes, .bytearray, .bytesIO, .file, .dict, .str, .list, .tuple,
   .int, .bool, .float, .complex, .decimal, .fraction, .equation, .other]

/-- The loader functions in the body of each class, in that order, with the types of their
decorators. -/
def Cls.ownLoaders : Cls → List (List LTy × Meth)
  | .entry => [([.bytes, .bytearray, .bytesIO], .loadBytes),       -- var.py:718
      ([.dict], .loadDict),                                        -- var.py:829
      ([.binaryIO], .loadFromFile),                                -- var.py:846
      ([.str], .loadString)]                                       -- var.py:868
  | .sized => [([.bytes, .bytearray, .bytesIO], .loadBytes)]       -- var.py:1325
  | .tokenizedE => [([.bytes, .bytearray, .bytesIO], .loadBytes),  -- tokenized.py:152
      ([.str], .loadString),                                       -- tokenized.py:165
      ([.seqOfTokens], .loadTokens)]                               -- tokenized.py:180
  | .string => [([.str], .loadString)]                             -- tokenized.py:325
  | .program => [([.bytes, .bytearray, .bytesIO], .loadBytes),     -- tokenized.py:382
      ([.str], .loadString)]                                       -- tokenized.py:396
  | .graphedEquation => [([.dict], .loadDict),                     -- gdb.py:292
      ([.equation], .loadEquation),                                -- gdb.py:332
      ([.str], .loadString)]                                       -- gdb.py:352
  | .monoGDB => [([.dict], .loadDict), ([.str], .loadString)]      -- gdb.py:590, 692
  | .monoFunc => [([.dict], .loadDict)]                            -- gdb.py:924
  | .monoParam => [([.dict], .loadDict)]                           -- gdb.py:1094
  | .monoPolar => [([.dict], .loadDict)]                           -- gdb.py:1240
  | .monoSeq => [([.dict], .loadDict)]                             -- gdb.py:1438
  | .settingsE => [([.dict], .loadDict), ([.str], .loadString)]    -- settings.py:33, 48
  | .pictureE => [([.sequence], .loadArray)]                       -- picture.py:203
  | .monoPicture => [([.sequence], .loadArray)]                    -- picture.py:270
  | .picture => [([.sequence], .loadArray)]                        -- picture.py:323
  | .image => [([.sequence], .loadArray)]                          -- picture.py:427
  | .group => [([.sequence], .loadFromEntries)]                    -- group.py:156
  | .listE => [([.bytes, .bytearray, .bytesIO], .loadBytes),       -- list.py:154
      ([.sequence], .loadList), ([.str], .loadString)]             -- list.py:163, 182
  | .matrix => [([.bytes, .bytearray, .bytesIO], .loadBytes),      -- matrix.py:139
      ([.sequence], .loadMatrix), ([.str], .loadString)]           -- matrix.py:153, 177
  | .complexE => [([.complex, .float, .int], .loadComplex),        -- complex.py:287
      ([.str], .loadString)]                                       -- complex.py:304
  | .complex => [([.complex, .float, .int], .loadComplex)]         -- complex.py:367
  | .complexRadical => [([.complex, .float, .int], .loadComplex)]  -- complex.py:407
  | .complexPi => [([.complex, .float, .int], .loadComplex)]       -- complex.py:427
  | .realE => [([.decimal], .loadDecimal),                         -- real.py:155
      ([.float, .int], .loadFloat)]                                -- real.py:172
  | .real => [([.decimal], .loadDecimal), ([.str], .loadString)]   -- real.py:262, 274
  | .realFraction => [([.fraction], .loadFraction),                -- real.py:353
      ([.str], .loadString)]                                       -- real.py:364
  | .realRadical => [([.decimal], .loadDecimal),                   -- real.py:514
      ([.str], .loadString)]                                       -- real.py:523
  | .realPi => [([.decimal], .loadDecimal), ([.str], .loadString)] -- real.py:635, 645
  | .realPiFraction => [([.str], .loadString)]                     -- real.py:681
  | _ => []

/-- The merge step of C3: the first head that is in no tail, and the lists without it. The first
argument bounds the number of classes. -/
def c3Merge : Nat → List (List Cls) → List Cls
  | 0, _ => []
  | n + 1, ls =>
    let ls := ls.filter (· ≠ [])
    match (ls.filterMap List.head?).find? fun h => ls.all fun l => !l.tail.contains h with
    | none => []
    | some h => h :: c3Merge n (ls.map fun l => if l.head? = some h then l.tail else l)

/-- The method resolution order of Python (C3 linearisation) of the classes above, without `Dock`,
`Converter` and `object`, which define no loaders. The first argument bounds the depth of the
hierarchy. -/
def Cls.mroN : Nat → Cls → List Cls
  | 0, c => [c]
  | n + 1, c => c :: c3Merge 10 (c.bases.map (Cls.mroN n) ++ [c.bases])

/-- The method resolution order of a class. -/
def Cls.mro (c : Cls) : List Cls := Cls.mroN 6 c

/-- `d | {key: value}`: an existing key keeps its place. -/
def tableSet {α β : Type} [DecidableEq α] (k : α) (v : β) : List (α × β) → List (α × β)
  | [] => [(k, v)]
  | (k', v') :: rest => if k' = k then (k, v) :: rest else (k', v') :: tableSet k v rest

/-- `cls.loaders`. Each `__set_name__` (data.py:563-565) updates a copy of the `loaders` found by
attribute lookup, which is the class's own after the first and that of the first class in the
resolution order with loaders before. The first argument bounds the depth of the hierarchy. -/
def Cls.loadersN : Nat → Cls → List (List LTy × (Cls × Meth))
  | 0, _ => []
  | n + 1, c =>
    let inherited := match c.mro.tail.find? fun b => b.ownLoaders ≠ [] with
      | none => []
      | some b => Cls.loadersN n b
    c.ownLoaders.foldl (fun d p => tableSet p.1 (c, p.2) d) inherited

/-- `cls.loaders` of a class. -/
def Cls.loaders (c : Cls) : List (List LTy × (Cls × Meth)) := Cls.loadersN 8 c

/-- `isinstance(data, loader_type)`. A parametrised generic is refused with `TypeError`; file
objects are not instances of `typing.BinaryIO`; `bool` is a subclass of `int`; bytes and strings are
sequences. -/
def isInstance : Kind → LTy → Except PyErr Bool
  | _, .seqOfTokens => .error .typeError
  | _, .binaryIO => .ok false
  | k, .bytes => .ok (k = .bytes)
  | k, .bytearray => .ok (k = .bytearray)
  | k, .bytesIO => .ok (k = .bytesIO)
  | k, .dict => .ok (k = .dict)
  | k, .str => .ok (k = .str)
  | k, .sequence => .ok (k = .bytes || k = .bytearray || k = .str || k = .list || k = .tuple)
  | k, .complex => .ok (k = .complex)
  | k, .float => .ok (k = .float)
  | k, .int => .ok (k = .int || k = .bool)
  | k, .decimal => .ok (k = .decimal)
  | k, .fraction => .ok (k = .fraction)
  | k, .equation => .ok (k = .equation)

/-- `any(isinstance(data, loader_type) for loader_type in loader_types)` (data.py:524). -/
def anyInstance (k : Kind) : List LTy → Except PyErr Bool
  | [] => .ok false
  | t :: ts =>
    match isInstance k t with
    | .error e => .error e
    | .ok true => .ok true
    | .ok false => anyInstance k ts

/-- `try: loader(self, data); return` / `except NotImplementedError: continue` followed by the rest
of the loop. -/
def tryLoader {σ : Type} (loader rest : PyM σ Unit) : PyM σ Unit := ⟨fun s =>
  match loader s with
  | ⟨.error .notImplementedError, s', ws⟩ =>
    let o := rest s'
    ⟨o.res, o.st, ws ++ o.warns⟩
  | o => o⟩

/-- The loop of `Dock.load` (data.py:523-532) over `self.loaders.items()`; `run` is what the loader
functions do with the object. -/
def dockLoop {σ : Type} (run : Cls × Meth → PyM σ Unit) (k : Kind) :
    List (List LTy × (Cls × Meth)) → PyM σ Unit
  | [] => PyM.raise .typeError
  | (ts, f) :: rest =>
    match anyInstance k ts with
    | .error e => PyM.raise e
    | .ok true => tryLoader (run f) (dockLoop run k rest)
    | .ok false => dockLoop run k rest

/-- `entry.load(data)` (data.py:517-532) for an entry of class `c` and an object of kind `k`. -/
def dockLoad {σ : Type} (run : Cls × Meth → PyM σ Unit) (c : Cls) (k : Kind) : PyM σ Unit :=
  dockLoop run k c.loaders

/-- The function found by `self.method`. -/
def Cls.lookup (c : Cls) (m : Meth) : Option (Cls × Meth) :=
  (c.mro.find? fun b => b.ownLoaders.any fun p => p.2 = m).map fun b => (b, m)

/-- The loader functions that do nothing but raise `NotImplementedError`: `TIEntry.load_dict`
(var.py:837), `load_complex` of `ComplexEntry`, `TIComplexRadical` and `TIComplexPi`
(complex.py:295, 409, 429), `load_decimal` of `RealEntry`, `TIRealRadical` and `TIRealPi`
(real.py:163, 516, 637). -/
def justRaises : Cls × Meth → Bool
  | (.entry, .loadDict) => true
  | (.complexE, .loadComplex) | (.complexRadical, .loadComplex) | (.complexPi, .loadComplex) => true
  | (.realE, .loadDecimal) | (.realRadical, .loadDecimal) | (.realPi, .loadDecimal) => true
  | _ => false

/-- The loader functions of an object of class `c` that do nothing but raise `NotImplementedError`:
those above and `RealEntry.load_float` (real.py:172-180), which only calls `self.load_decimal`. -/
def refuses (c : Cls) (f : Cls × Meth) : Bool :=
  justRaises f || (f == (.realE, .loadFloat) && (c.lookup .loadDecimal).any justRaises)

end Verif
