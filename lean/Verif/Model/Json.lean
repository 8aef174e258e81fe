import Verif.Model.JsonNumber

/-
Model of the JSON text of graph databases: `json.dumps` and `json.loads` of the standard library (CPython `Lib/json/encoder.py`,
`decoder.py`, `scanner.py`, with the default arguments), `TIMonoGDB.__format__("")` and `TIMonoGDB.load_string`
(`/repo/tivars/types/gdb.py:423-429, 692-694`), and the same of settings (`/repo/tivars/types/settings.py:25-50`).

Simplified: `NaN` and infinities, and escapes of single surrogates, which are no characters, raise `ValueError` here; the limits on the
depth of recursion and on the number of digits of integers are left out. `JSONDecodeError` is a `ValueError`.
-/

namespace Verif

/-- A value of JSON: what `json.loads` returns. Dictionaries have the order of their keys. -/
inductive Json where
  | null
  | bool (b : Bool)
  | int (n : Int)
  | float (x : PyFloat)
  | str (s : Str)
  | arr (xs : List Json)
  | obj (kvs : List (Str × Json))
  deriving Repr

namespace Json

/-! ### Writing -/

/-- The hexadecimal digit of a number below 16, in lower case. -/
def hexDigit (n : Nat) : Char := if n < 10 then Char.ofNat (48 + n) else Char.ofNat (87 + n)

/-- `'\\u{0:04x}'.format(n)` for a number below 65536. -/
def uEscape (n : Nat) : Str :=
  ['\\', 'u', hexDigit (n / 4096 % 16), hexDigit (n / 256 % 16), hexDigit (n / 16 % 16), hexDigit (n % 16)]

/-- `ESCAPE_DCT` (encoder.py): the escapes of one character. -/
def escapeTable : List (Char × Char) :=
  [('\\', '\\'), ('"', '"'), (Char.ofNat 8, 'b'), (Char.ofNat 12, 'f'), ('\n', 'n'), ('\r', 'r'), ('\t', 't')]

/-- One character in `py_encode_basestring_ascii`. -/
def escapeChar (c : Char) : Str :=
  match escapeTable.lookup c with
  | some d => ['\\', d]
  | none =>
    if 32 ≤ c.toNat ∧ c.toNat ≤ 126 then [c]
    else if c.toNat < 65536 then uEscape c.toNat
    else uEscape (0xD800 + (c.toNat - 65536) / 1024) ++ uEscape (0xDC00 + (c.toNat - 65536) % 1024)

/-- A text between quotes. -/
def dumpStr (s : Str) : Str := '"' :: (s.flatMap escapeChar ++ ['"'])

mutual
/-- `json.dumps(value)`. -/
def dump : Json → Str
  | null => "null".toList
  | bool b => if b then "true".toList else "false".toList
  | int n => intRepr n
  | float x => floatStr x
  | str s => dumpStr s
  | arr xs => '[' :: dumpItems xs
  | obj kvs => '{' :: dumpMembers kvs
/-- The items of a list, with the bracket that closes it. -/
def dumpItems : List Json → Str
  | [] => [']']
  | x :: xs => dump x ++ dumpMoreItems xs
/-- The items after the first one. -/
def dumpMoreItems : List Json → Str
  | [] => [']']
  | x :: xs => ',' :: ' ' :: (dump x ++ dumpMoreItems xs)
/-- The members of a dictionary, with the brace that closes it. -/
def dumpMembers : List (Str × Json) → Str
  | [] => ['}']
  | (k, x) :: kvs => dumpStr k ++ ':' :: ' ' :: (dump x ++ dumpMoreMembers kvs)
/-- The members after the first one. -/
def dumpMoreMembers : List (Str × Json) → Str
  | [] => ['}']
  | (k, x) :: kvs => ',' :: ' ' :: (dumpStr k ++ ':' :: ' ' :: (dump x ++ dumpMoreMembers kvs))
end

/-! ### Reading -/

/-- `WHITESPACE.match(s, idx).end()` (decoder.py): spaces, tabs and ends of lines. -/
def skipWs (s : Str) : Str := s.dropWhile fun c => c == ' ' || c == '\t' || c == '\n' || c == '\r'

/-- The value of a hexadecimal digit. -/
def hexVal (c : Char) : Option Nat :=
  if 48 ≤ c.toNat ∧ c.toNat ≤ 57 then some (c.toNat - 48)
  else if 97 ≤ c.toNat ∧ c.toNat ≤ 102 then some (c.toNat - 87)
  else if 65 ≤ c.toNat ∧ c.toNat ≤ 70 then some (c.toNat - 55)
  else none

/-- `_decode_uXXXX` (decoder.py): four hexadecimal digits. -/
def hex4 : Str → Except PyErr (Nat × Str)
  | a :: b :: c :: d :: s =>
    match hexVal a, hexVal b, hexVal c, hexVal d with
    | some w, some x, some y, some z => .ok (((w * 16 + x) * 16 + y) * 16 + z, s)
    | _, _, _, _ => .error .valueError
  | _ => .error .valueError

/-- The character with this number; a surrogate is none. -/
def charOf (n : Nat) : Except PyErr Char := if h : n.isValidChar then .ok (Char.ofNatAux n h) else .error .valueError

/-- `s` without the prefix `\u`. -/
def dropU : Str → Option Str
  | '\\' :: 'u' :: s => some s
  | _ => none

/-- Behind `\u` (decoder.py, `py_scanstring`): two surrogates are one character. -/
def unicodeEscape (s : Str) : Except PyErr (Char × Str) := do
  let (n, s) ← hex4 s
  if 0xD800 ≤ n ∧ n ≤ 0xDBFF then
    match dropU s with
    | none => .error .valueError
    | some t => do
      let (m, t) ← hex4 t
      if 0xDC00 ≤ m ∧ m ≤ 0xDFFF then do
        let c ← charOf (0x10000 + ((n - 0xD800) * 1024 + (m - 0xDC00)))
        .ok (c, t)
      else .error .valueError
  else do
    let c ← charOf n
    .ok (c, s)

/-- `BACKSLASH` (decoder.py): the characters behind a backslash. -/
def backslashTable : List (Char × Char) :=
  [('"', '"'), ('\\', '\\'), ('/', '/'), ('b', Char.ofNat 8), ('f', Char.ofNat 12), ('n', '\n'), ('r', '\r'), ('t', '\t')]

/-- The next character of a text, or `none` at the closing quote. -/
def nextChar : Str → Except PyErr (Option Char × Str)
  | [] => .error .valueError
  | c :: s =>
    if c = '"' then .ok (none, s)
    else if c = '\\' then
      match s with
      | [] => .error .valueError
      | d :: t =>
        if d = 'u' then (unicodeEscape t).map fun p => (some p.1, p.2)
        else match backslashTable.lookup d with
          | some x => .ok (some x, t)
          | none => .error .valueError
    else if c.toNat ≤ 0x1F then .error .valueError
    else .ok (some c, s)

/-- `scanstring(s, end)` (decoder.py), behind the opening quote; the first argument bounds the number of characters. -/
def parseString : Nat → Str → Except PyErr (Str × Str)
  | 0, _ => .error .valueError
  | n + 1, s =>
    match nextChar s with
    | .error e => .error e
    | .ok (none, t) => .ok ([], t)
    | .ok (some c, t) =>
      match parseString n t with
      | .error e => .error e
      | .ok (r, u) => .ok (c :: r, u)

/-- The digits at the start of a text. -/
def digits (s : Str) : Str × Str := (s.takeWhile isDig, s.dropWhile isDig)

/-- `(\.\d+)?` -/
def fracPart : Str → Option Str × Str
  | [] => (none, [])
  | c :: s => if c = '.' ∧ (digits s).1 ≠ [] then (some (digits s).1, (digits s).2) else (none, c :: s)

/-- `[-+]?` -/
def expSign : Str → Bool × Str
  | [] => (false, [])
  | c :: s => if c = '-' then (true, s) else if c = '+' then (false, s) else (false, c :: s)

/-- `([eE][-+]?\d+)?` -/
def expPart : Str → Option Int × Str
  | [] => (none, [])
  | c :: s =>
    let (neg, t) := expSign s
    if (c = 'e' ∨ c = 'E') ∧ (digits t).1 ≠ [] then
      (some (if neg then -(natVal (digits t).1 : Int) else natVal (digits t).1), (digits t).2)
    else (none, c :: s)

/-- The whole part `0|[1-9]\d*` of a number. -/
def intPart : Str → Option (Str × Str)
  | [] => none
  | c :: s => if c = '0' then some (['0'], s) else if isDig c = true then some (digits (c :: s)) else none

/-- `match_number` (scanner.py) behind the sign: an integer if there is neither fraction nor exponent, `float(…)` of the text otherwise. -/
def parseUnsigned (neg : Bool) (s : Str) : Except PyErr (Json × Str) :=
  match intPart s with
  | none => .error .valueError
  | some (ds, s) =>
    let (f, s) := fracPart s
    let (x, s) := expPart s
    match f, x with
    | none, none => .ok (.int (if neg then -(natVal ds : Int) else natVal ds), s)
    | _, _ => .ok (.float (floatOfDec ⟨neg, natVal (ds ++ f.getD []), x.getD 0 - (f.getD []).length⟩), s)

/-- `match_number` (scanner.py). -/
def parseNumber : Str → Except PyErr (Json × Str)
  | [] => .error .valueError
  | c :: s => if c = '-' then parseUnsigned true s else parseUnsigned false (c :: s)

/-- `dict(pairs)`: of several values of a key the last one counts, in the place of the first. -/
def setMember (kvs : List (Str × Json)) (k : Str) (x : Json) : List (Str × Json) :=
  match kvs with
  | [] => [(k, x)]
  | (k', x') :: rest => if k' = k then (k, x) :: rest else (k', x') :: setMember rest k x

/-- A word of JSON at the start of a text, or a number. -/
def parseWord (s : Str) : Except PyErr (Json × Str) :=
  if startsWith "null".toList s then .ok (.null, s.drop 4)
  else if startsWith "true".toList s then .ok (.bool true, s.drop 4)
  else if startsWith "false".toList s then .ok (.bool false, s.drop 5)
  else parseNumber s

mutual
/-- `scan_once(s, idx)` (scanner.py); the first argument bounds the depth. -/
def parseValue : Nat → Str → Except PyErr (Json × Str)
  | 0, _ => .error .recursionError
  | n + 1, s =>
    match s with
    | [] => .error .valueError
    | c :: t =>
      if c = '"' then
        match parseString s.length t with
        | .error e => .error e
        | .ok (x, r) => .ok (.str x, r)
      else if c = '[' then
        match skipWs t with
        | ']' :: r => .ok (.arr [], r)
        | r => parseItems n [] r
      else if c = '{' then
        match skipWs t with
        | '}' :: r => .ok (.obj [], r)
        | r => parseMembers n [] r
      else parseWord s
/-- `JSONArray` (decoder.py) at an item; the items read so far are in the second argument. -/
def parseItems : Nat → List Json → Str → Except PyErr (Json × Str)
  | 0, _, _ => .error .recursionError
  | n + 1, acc, s =>
    match parseValue n s with
    | .error e => .error e
    | .ok (x, r) =>
      match skipWs r with
      | ']' :: u => .ok (.arr (acc ++ [x]), u)
      | ',' :: u => parseItems n (acc ++ [x]) (skipWs u)
      | _ => .error .valueError
/-- `JSONObject` (decoder.py) at a key. -/
def parseMembers : Nat → List (Str × Json) → Str → Except PyErr (Json × Str)
  | 0, _, _ => .error .recursionError
  | n + 1, acc, s =>
    match s with
    | '"' :: t =>
      match parseString s.length t with
      | .error e => .error e
      | .ok (k, r) =>
        match skipWs r with
        | ':' :: r =>
          match parseValue n (skipWs r) with
          | .error e => .error e
          | .ok (x, r) =>
            match skipWs r with
            | '}' :: u => .ok (.obj (setMember acc k x), u)
            | ',' :: u => parseMembers n (setMember acc k x) (skipWs u)
            | _ => .error .valueError
        | _ => .error .valueError
    | _ => .error .valueError
end

/-- `json.loads(s)` (`__init__.py`, decoder.py: `decode`): whitespace is allowed around the value, a byte order mark is not. The bound on the
depth is never reached (`loads_error`). -/
def loads (s : Str) : Except PyErr Json :=
  if s.head? = some (Char.ofNat 0xFEFF) then .error .valueError
  else match parseValue (2 * s.length + 1) (skipWs s) with
    | .error e => .error e
    | .ok (x, r) => if skipWs r = [] then .ok x else .error .valueError

end Json
end Verif
