import Verif.Py.Core
import Mathlib.Order.Defs.LinearOrder

/-
Model of `/repo/tivars/token.py`, `/repo/tivars/trie.py` and `/repo/tivars/tokenizer/`.

The token sheets are a git submodule that is empty in `/repo`, so the table of tokens is a
parameter of every definition here, and so is the type `V` of OS versions, of which only
the total order is used.
-/

namespace Verif

/-- A token (token.py:10-57): its code bytes, the display and accessible names in the language
at hand, its further names, and the OS version that introduced it. `names` is the list
`langs[lang].names()` inserted into a trie. -/
structure Tok (V : Type) where
  bits : Bytes
  display : Str
  names : List Str
  since : V
  deriving DecidableEq, Repr

/-- One lower-case hexadecimal digit. -/
def hexDigit (n : Nat) : Char := Char.ofNat (if n < 10 then 48 + n else 87 + n)

/-- `bytes.hex()` -/
def hexOf : Bytes → Str
  | [] => []
  | b :: bs => hexDigit (b.toNat / 16) :: hexDigit (b.toNat % 16) :: hexOf bs

/-- `TIToken.escape` (token.py:44-50). -/
def escapeOf (bits : Bytes) : Str :=
  '\\' :: (if bits.length = 1 then 'x' else 'u') :: hexOf bits

/-- `IllegalToken(bits)` (token.py:60-69): named by its escape; `since` is the default of the
token sheets' `Token`, which is `OsVersions.INITIAL`. -/
def illegalTok {V : Type} (initial : V) (bits : Bytes) : Tok V :=
  ⟨bits, escapeOf bits, [escapeOf bits], initial⟩

/-! ### Tries -/

/-- `TITokenTrie` (trie.py:10-17): `children` is a `dict`, an association list here. -/
inductive Trie (τ : Type) where
  | node (token : Option τ) (children : List (Char × Trie τ))

namespace Trie
variable {τ : Type}

/-- `TITokenTrie()` -/
def empty : Trie τ := .node none []

def token : Trie τ → Option τ
  | .node t _ => t

def children : Trie τ → List (Char × Trie τ)
  | .node _ cs => cs

/-- `dict.get` -/
def lookup (c : Char) : List (Char × Trie τ) → Option (Trie τ)
  | [] => none
  | (d, t) :: rest => if d = c then some t else lookup c rest

/-- `dict[c] = t`: replaces in place, or appends. -/
def update (c : Char) (t : Trie τ) : List (Char × Trie τ) → List (Char × Trie τ)
  | [] => [(c, t)]
  | (d, u) :: rest => if d = c then (d, t) :: rest else (d, u) :: update c t rest

/-- The walk of `insert` for one name (trie.py:30-38). Python mutates the nodes on the path;
here the changed path is rebuilt. -/
def insertName (tok : τ) : Str → Trie τ → Trie τ
  | [], .node _ cs => .node (some tok) cs
  | c :: name, .node t cs =>
    .node t (update c (insertName tok name ((lookup c cs).getD empty)) cs)

/-- `TITokenTrie.insert` (trie.py:19-38) for a token whose names in the language are `names`. -/
def insert (tok : τ) (names : List Str) (t : Trie τ) : Trie τ :=
  names.foldl (fun t name => insertName tok name t) t

/-- `TITokenTrie.from_tokens` (trie.py:40-56), the tokens given with their names. -/
def fromTokens (toks : List (τ × List Str)) : Trie τ :=
  toks.foldl (fun t p => insert p.1 p.2 t) empty

/-- `TITokenTrie.match` (trie.py:58-76). Token objects are always truthy. -/
def «match» : Str → Trie τ → List (τ × Str)
  | [], t => match t.token with
    | none => []
    | some x => [(x, [])]
  | c :: s, t =>
    (match lookup c t.children with
      | none => []
      | some u => «match» s u) ++
    (match t.token with
      | none => []
      | some x => [(x, c :: s)])

end Trie

/-! ### Decoding -/

/-- `TITokens.bytes` (trie.py:95): a `dict` from codes to tokens. -/
abbrev TokTable (V : Type) := List (Tok V)

/-- `tokens.bytes.get(bits)`. -/
def TokTable.find {V : Type} (tbl : TokTable V) (bits : Bytes) : Option (Tok V) :=
  List.find? (fun t => t.bits == bits) tbl

/-- Local variables `out`, `since` of `decode` and the warnings so far. -/
structure DecAcc (V : Type) where
  out : List (Tok V)
  since : V
  warns : List Warn
  deriving DecidableEq, Repr

/-- The branch `if curr_bytes[0]` (decoder.py:38-50): returns the new `curr_bytes`. -/
def decodeStep {V : Type} [LinearOrder V] (initial : V) (tbl : TokTable V) (curr : Bytes)
    (acc : DecAcc V) : Bytes × DecAcc V :=
  match tbl.find curr with
  | some t => ([], ⟨acc.out ++ [t], max t.since acc.since, acc.warns⟩)
  | none =>
    if curr.length ≥ 2 then
      ([], ⟨acc.out ++ [illegalTok initial curr], acc.since,
        acc.warns ++ [.badToken]⟩)
    else (curr, acc)

/-- The loop of `decode` (decoder.py:34-66), over the bytes not yet visited. In the branch for
leading null bytes the index is stepped back, so the same byte is visited again with
`curr_bytes` empty; that second visit is written out here. -/
def decodeLoop {V : Type} [LinearOrder V] (initial : V) (tbl : TokTable V) :
    Bytes → Bytes → DecAcc V → DecAcc V
  | [], _, acc => acc
  | b :: rest, curr, acc =>
    if (curr ++ [b]).headD 0 ≠ 0 then
      let r := decodeStep initial tbl (curr ++ [b]) acc
      decodeLoop initial tbl rest r.1 r.2
    else if b ≠ 0 then
      let acc' : DecAcc V :=
        ⟨acc.out ++ List.replicate curr.length (illegalTok initial [0]), acc.since,
          acc.warns ++ [.nullBytes]⟩
      let r := decodeStep initial tbl [b] acc'
      decodeLoop initial tbl rest r.1 r.2
    else decodeLoop initial tbl rest (curr ++ [b]) acc

/-- `decode(bytestream, tokens=)` (decoder.py:13-68). -/
def decode {V : Type} [LinearOrder V] (initial : V) (tbl : TokTable V) (data : Bytes) :
    DecAcc V :=
  decodeLoop initial tbl data [] ⟨[], initial, []⟩

/-! ### Encoding -/

/-- `string.punctuation`. -/
def isPunct (c : Char) : Bool :=
  (33 ≤ c.toNat && c.toNat ≤ 47) || (58 ≤ c.toNat && c.toNat ≤ 64) ||
  (91 ≤ c.toNat && c.toNat ≤ 96) || (123 ≤ c.toNat && c.toNat ≤ 126)

/-- Value of a hexadecimal digit of either case. -/
def hexVal (c : Char) : Option Nat :=
  if 48 ≤ c.toNat ∧ c.toNat ≤ 57 then some (c.toNat - 48)
  else if 97 ≤ c.toNat ∧ c.toNat ≤ 102 then some (c.toNat - 87)
  else if 65 ≤ c.toNat ∧ c.toNat ≤ 70 then some (c.toNat - 55)
  else none

/-- ASCII whitespace, skipped by `bytes.fromhex` between bytes. -/
def isAsciiSpace (c : Char) : Bool := c.toNat = 32 || (9 ≤ c.toNat && c.toNat ≤ 13)

/-- `bytes.fromhex(s)`: whitespace may separate the pairs of digits; `none` is `ValueError`. -/
def fromHex : Str → Option Bytes
  | [] => some []
  | [c] => if isAsciiSpace c then some [] else none
  | c :: d :: rest =>
    if isAsciiSpace c then fromHex (d :: rest)
    else match hexVal c, hexVal d, fromHex rest with
      | some x, some y, some bs => some (UInt8.ofNat (16 * x + y) :: bs)
      | _, _, _ => none

/-- The classes of encoder states (state.py:12-218). -/
inductive StKind where
  | maxMode | minMode | listName | programName | string | interpolated | interpStart | smart
  deriving DecidableEq, Repr

/-- An encoder state with its `length` attribute (state.py:29-30). -/
structure St where
  kind : StKind
  length : Nat
  deriving DecidableEq, Repr

/-- Class attribute `mode`: `true` for `-1`, minimal munch. -/
def StKind.minimal : StKind → Bool
  | .maxMode => false        -- state.py:88
  | .minMode => true         -- state.py:96
  | .listName => true        -- state.py:118
  | .programName => true     -- state.py:118
  | .string => true          -- state.py:150
  | .interpolated => false   -- state.py:166
  | .interpStart => false    -- state.py:176
  | .smart => false          -- state.py:192

/-- Class attribute `max_length`. -/
def StKind.maxLength : StKind → Option Nat
  | .listName => some 5      -- state.py:134
  | .programName => some 8   -- state.py:142
  | _ => none                -- state.py:24

/-- Python's `<=` on `bytes`: lexicographic. -/
def bytesLe : Bytes → Bytes → Bool
  | [], _ => true
  | _ :: _, [] => false
  | a :: as, b :: bs => if a < b then true else if b < a then false else bytesLe as bs

/-- `EncoderState.next` (state.py:65-80). -/
def St.again (s : St) : List St := [⟨s.kind, s.length + 1⟩]

/-- `Line.next` (state.py:104-110). -/
def St.lineNext (s : St) (bits : Bytes) : List St :=
  if bits = [0x04] ∨ bits = [0x3F] then [] else s.again

/-- `next` of each state class: `EncoderState.next` 65-80, `Name.next` 120-126,
`String.next` 152-158, `InterpolationStart.next` 178-184, `SmartMode.next` 194-213. -/
def St.next (s : St) (bits : Bytes) : List St :=
  match s.kind with
  | .maxMode | .minMode => s.again
  | .listName | .programName =>
    if (bytesLe [0x30] bits && bytesLe bits [0x39]) ||
       (bytesLe [0x41] bits && bytesLe bits [0x5B]) then s.lineNext bits
    else []
  | .string | .interpolated => if bits = [0x2A] then [] else s.lineNext bits
  | .interpStart => if bits = [0x2A] then [⟨.interpolated, 0⟩] else []
  | .smart =>
    if bits = [0x2A] then [s, ⟨.string, 0⟩]
    else if bits = [0x5F] then [s, ⟨.programName, 0⟩]
    else if bits = [0xE7] then [s, ⟨.interpStart, 0⟩]
    else if bits = [0xEB] then [s, ⟨.listName, 0⟩]
    else s.again

/-- `string.startswith(r"\x") or string.startswith(r"\u")` (state.py:42) with the literal's
length. -/
def literalLength : Str → Option Nat
  | '\\' :: 'x' :: _ => some 4
  | '\\' :: 'u' :: _ => some 6
  | _ => none

/-- `string.lstrip(r"\ux")` -/
def lstripLiteral (s : Str) : Str := s.dropWhile fun c => c == '\\' || c == 'u' || c == 'x'

/-- `EncoderState.munch` (state.py:32-63); `none` is `ValueError`. The string is nonempty. -/
def St.munch {V : Type} (initial : V) (trie : Trie (Tok V)) (s : St) (str : Str) :
    Option (Tok V × Str × List St) :=
  match literalLength str with
  | some n =>
    match fromHex (lstripLiteral (str.take n)) with
    | none => none
    | some bits =>
      let token := illegalTok initial bits
      some (token, str.drop n, s.next token.bits)
  | none =>
    let tokens := trie.match str
    let tokens := if isPunct (str.headD ' ') && tokens.length > 1 then tokens.dropLast else tokens
    match (if s.kind.minimal then tokens.getLast? else tokens.head?) with
    | none => none
    | some (token, remainder) =>
      if some s.length = s.kind.maxLength then some (token, remainder, [])
      else some (token, remainder, s.next token.bits)

/-- How `encode` can fail; both are `ValueError` in Python (encoder.py:71-75). -/
inductive EncErr where
  | noToken (index : Nat)
  | stackConsumed (index : Nat)
  | badMode
  deriving DecidableEq, Repr

/-- Local variables of `encode`; `stack` with its top at the end. -/
structure EncAcc (V : Type) where
  data : Bytes
  since : V
  index : Nat
  stack : List St
  deriving DecidableEq, Repr

/-- The loop of `encode` (encoder.py:66-81). `none` means the fuel ran out, which
`C41_encode_terminates` excludes. -/
def encodeLoop {V : Type} [LinearOrder V] (initial : V) (trie : Trie (Tok V)) :
    Nat → Str → EncAcc V → Option (Except EncErr (EncAcc V))
  | _, [], acc => some (.ok acc)
  | 0, _ :: _, _ => none
  | fuel + 1, c :: cs, acc =>
    match acc.stack.getLast? with
    | none => some (.error (.stackConsumed acc.index))
    | some top =>
      match top.munch initial trie (c :: cs) with
      | none => some (.error (.noToken acc.index))
      | some (token, remainder, contexts) =>
        encodeLoop initial trie fuel remainder
          ⟨acc.data ++ token.bits, max token.since acc.since,
            acc.index + ((c :: cs).length - remainder.length),
            acc.stack.dropLast ++ contexts⟩

/-- Tokenization modes (encoder.py:53-64). -/
inductive EncMode where
  | max | smart | string | min
  deriving DecidableEq, Repr

/-- The state the stack starts with. -/
def EncMode.start : EncMode → St
  | .max => ⟨.maxMode, 0⟩
  | .smart => ⟨.smart, 0⟩
  | .string | .min => ⟨.minMode, 0⟩

/-- The substitution of `normalize` (encoder.py:86-94) after NFC normalization. -/
def thetaSub (s : Str) : Str :=
  s.map fun c => if c.toNat = 0x398 ∨ c.toNat = 0x3F4 ∨ c.toNat = 0x1DBF then 'θ' else c

/-- `encode(string, trie=, mode=)` (encoder.py:14-83) on the already normalized string. -/
def encode {V : Type} [LinearOrder V] (initial : V) (trie : Trie (Tok V)) (mode : EncMode)
    (s : Str) : Option (Except EncErr (EncAcc V)) :=
  encodeLoop initial trie s.length s ⟨[], initial, 0, [mode.start]⟩

end Verif
