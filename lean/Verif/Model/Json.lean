import Verif.Model.Basic
/-
The part of Go's encoding/json (and encoding/base64) that serialize/json.go uses: `json.Marshal` of structures made of
uint32, int, int64, bool, []byte, pointers to structures and slices of such pointers, and `json.Unmarshal` into them.
Not modelled: the merging of repeated slice members (a repeated member of slice type
replaces the earlier one here), and which of several errors is reported.  Invalid UTF-8 is kept as it is (Go replaces it by
U+FFFD): neither is a base64 character or part of a field name, so results are the same.
-/
namespace Verif

/-- A JSON text as the scanner accepts it; strings (without quotes) and numbers hold their source text.
encoding/json or encoding/base64, called by serialize/json.go. -/
inductive JVal where
  | null
  | bool (b : Bool)
  | num (lit : Bytes)
  | str (raw : Bytes)
  | arr (vs : List JVal)
  | obj (kvs : List (Bytes × JVal))

/-! ### Writing (encoding/json encode.go) -/

mutual
/-- `json.Marshal`'s compact output. encoding/json or encoding/base64, called by serialize/json.go. -/
def JVal.enc : JVal → Bytes
  | .null => ascii "null"
  | .bool b => if b then ascii "true" else ascii "false"
  | .num l => l
  | .str s => 34 :: (s ++ [34])
  | .arr vs => 91 :: (encElems vs ++ [93])
  | .obj kvs => 123 :: (encMembers kvs ++ [125])
/-- Elements separated by commas. (encoding/json or encoding/base64, called by serialize/json.go) -/
def encElems : List JVal → Bytes
  | [] => []
  | [v] => v.enc
  | v :: w :: vs => v.enc ++ 44 :: encElems (w :: vs)
/-- Members separated by commas. (encoding/json or encoding/base64, called by serialize/json.go) -/
def encMembers : List (Bytes × JVal) → Bytes
  | [] => []
  | [(k, v)] => 34 :: (k ++ 34 :: 58 :: v.enc)
  | (k, v) :: m :: ms => 34 :: (k ++ 34 :: 58 :: v.enc) ++ 44 :: encMembers (m :: ms)
end

/-! ### Reading: the scanner (encoding/json scanner.go) -/

mutual
/-- How deep arrays and objects are nested: the length `parseState` reaches. encoding/json scanner.go, called by serialize/json.go. -/
def JVal.depth : JVal → Nat
  | .arr vs => depthElems vs + 1
  | .obj kvs => depthMembers kvs + 1
  | _ => 0
/-- The deepest of some values. encoding/json scanner.go, called by serialize/json.go. -/
def depthElems : List JVal → Nat
  | [] => 0
  | v :: vs => max v.depth (depthElems vs)
/-- The deepest of some members. encoding/json scanner.go, called by serialize/json.go. -/
def depthMembers : List (Bytes × JVal) → Nat
  | [] => 0
  | (_, v) :: ms => max v.depth (depthMembers ms)
end

/-- scanner.go `maxNestingDepth` (since Go 1.15, the version go.mod:3 names). -/
def maxNestingDepth : Nat := 10000

/-- scanner.go `isSpace`. -/
def isWs (c : UInt8) : Bool := c = 32 || c = 9 || c = 13 || c = 10

/-- `stateBeginValue` and others skip white space. (encoding/json or encoding/base64, called by serialize/json.go) -/
def skipWs (s : Bytes) : Bytes := s.dropWhile isWs

/-- A decimal digit. (encoding/json or encoding/base64, called by serialize/json.go) -/
def isDec (c : UInt8) : Bool := 48 ≤ c && c ≤ 57

/-- A hexadecimal digit. (encoding/json or encoding/base64, called by serialize/json.go) -/
def isHex (c : UInt8) : Bool := isDec c || (97 ≤ c && c ≤ 102) || (65 ≤ c && c ≤ 70)

/-- scanner.go `stateInString`: the text up to the closing quote. -/
def scanStr : Bytes → Option (Bytes × Bytes)
  | [] => none
  | 34 :: s => some ([], s)
  | 92 :: c :: s =>
    if c = 117 then
      match s with
      | a :: b :: d :: e :: s' =>
        if isHex a && isHex b && isHex d && isHex e then
          (scanStr s').map fun (t, r) => (92 :: c :: a :: b :: d :: e :: t, r)
        else none
      | _ => none
    else if c = 98 || c = 102 || c = 110 || c = 114 || c = 116 || c = 92 || c = 47 || c = 34 then
      (scanStr s).map fun (t, r) => (92 :: c :: t, r)
    else none
  | c :: s => if c < 32 || c = 92 then none else (scanStr s).map fun (t, r) => (c :: t, r)

/-- One or more digits. encoding/json or encoding/base64, called by serialize/json.go. -/
def scanDigits (s : Bytes) : Option (Bytes × Bytes) :=
  match s.span isDec with
  | ([], _) => none
  | (d, r) => some (d, r)

/-- scanner.go `state0`, `state1`: 0, or digits without a leading 0. -/
def scanInt : Bytes → Option (Bytes × Bytes)
  | 48 :: s => some ([48], s)
  | s => scanDigits s

/-- scanner.go `stateDot`: an optional fraction. -/
def scanFrac : Bytes → Option (Bytes × Bytes)
  | 46 :: s => (scanDigits s).map fun (d, r) => (46 :: d, r)
  | s => some ([], s)

/-- scanner.go `stateE`: an optional exponent. -/
def scanExp : Bytes → Option (Bytes × Bytes)
  | c :: s =>
    if c = 101 || c = 69 then
      match s with
      | sg :: s' =>
        if sg = 43 || sg = 45 then (scanDigits s').map fun (d, r) => (c :: sg :: d, r)
        else (scanDigits s).map fun (d, r) => (c :: d, r)
      | [] => none
    else some ([], c :: s)
  | [] => some ([], [])

/-- A number literal. encoding/json or encoding/base64, called by serialize/json.go. -/
def scanNum (s : Bytes) : Option (Bytes × Bytes) :=
  let body := fun (sign s : Bytes) =>
    (scanInt s).bind fun (i, s) => (scanFrac s).bind fun (f, s) => (scanExp s).map fun (e, s) => (sign ++ i ++ f ++ e, s)
  match s with
  | 45 :: s => body [45] s
  | s => body [] s

/-- Take a fixed prefix. encoding/json or encoding/base64, called by serialize/json.go. -/
def expect : Bytes → Bytes → Option Bytes
  | [], s => some s
  | p :: ps, c :: s => if c = p then expect ps s else none
  | _ :: _, [] => none

mutual
/-- scanner.go `stateBeginValue`; the first argument bounds the recursion. -/
def scanValue : Nat → Bytes → Option (JVal × Bytes)
  | 0, _ => none
  | n + 1, s =>
    match skipWs s with
    | 123 :: s =>
      match skipWs s with
      | 125 :: s => some (.obj [], s)
      | s => (scanMembers n s).map fun (m, s) => (.obj m, s)
    | 91 :: s =>
      match skipWs s with
      | 93 :: s => some (.arr [], s)
      | s => (scanElems n s).map fun (v, s) => (.arr v, s)
    | 34 :: s => (scanStr s).map fun (t, s) => (.str t, s)
    | 116 :: s => (expect (ascii "rue") s).map fun s => (.bool true, s)
    | 102 :: s => (expect (ascii "alse") s).map fun s => (.bool false, s)
    | 110 :: s => (expect (ascii "ull") s).map fun s => (.null, s)
    | s => (scanNum s).map fun (l, s) => (.num l, s)
/-- The elements of a non-empty array, up to the closing bracket. encoding/json or encoding/base64, called by serialize/json.go. -/
def scanElems : Nat → Bytes → Option (List JVal × Bytes)
  | 0, _ => none
  | n + 1, s =>
    (scanValue n s).bind fun (v, s) =>
      match skipWs s with
      | 44 :: s => (scanElems n s).map fun (vs, s) => (v :: vs, s)
      | 93 :: s => some ([v], s)
      | _ => none
/-- The members of a non-empty object, up to the closing brace. encoding/json or encoding/base64, called by serialize/json.go. -/
def scanMembers : Nat → Bytes → Option (List (Bytes × JVal) × Bytes)
  | 0, _ => none
  | n + 1, s =>
    match skipWs s with
    | 34 :: s =>
      (scanStr s).bind fun (k, s) =>
        match skipWs s with
        | 58 :: s =>
          (scanValue n s).bind fun (v, s) =>
            match skipWs s with
            | 44 :: s => (scanMembers n s).map fun (ms, s) => ((k, v) :: ms, s)
            | 125 :: s => some ([(k, v)], s)
            | _ => none
        | _ => none
    | _ => none
end

/-- `checkValid`: one value, then only white space. (Every call but the one following `scanElems`/`scanMembers` consumes
input, so twice the length bounds the recursion.) encoding/json or encoding/base64, called by serialize/json.go. -/
def scan (s : Bytes) : Option JVal :=
  match scanValue (2 * s.length + 2) s with
  | some (v, r) => if skipWs r = [] then some v else none
  | none => none

/-! ### Reading: strings and base64 -/

/-- Value of a hexadecimal digit. (encoding/json or encoding/base64, called by serialize/json.go) -/
def hexVal (c : UInt8) : Nat :=
  if isDec c then c.toNat - 48 else if 97 ≤ c then c.toNat - 87 else c.toNat - 55

/-- decode.go `getu4`: the four digits of a \u escape. encoding/json or encoding/base64, called by serialize/json.go. -/
def hex4 (a b c d : UInt8) : Nat := ((hexVal a * 16 + hexVal b) * 16 + hexVal c) * 16 + hexVal d

/-- `utf8.EncodeRune` of a rune that is not a surrogate. encoding/json or encoding/base64, called by serialize/json.go. -/
def runeBytes (n : Nat) : Bytes :=
  if n < 0x80 then [UInt8.ofNat n]
  else if n < 0x800 then [UInt8.ofNat (0xC0 + n / 64), UInt8.ofNat (0x80 + n % 64)]
  else if n < 0x10000 then [UInt8.ofNat (0xE0 + n / 4096), UInt8.ofNat (0x80 + n / 64 % 64), UInt8.ofNat (0x80 + n % 64)]
  else [UInt8.ofNat (0xF0 + n / 262144), UInt8.ofNat (0x80 + n / 4096 % 64), UInt8.ofNat (0x80 + n / 64 % 64), UInt8.ofNat (0x80 + n % 64)]

/-- `utf16.IsSurrogate`; encoding/json decode.go, called by serialize/json.go. -/
def surrogate (n : Nat) : Bool := 0xD800 ≤ n && n < 0xE000

/-- `utf16.DecodeRune` of two halves (`none` for the replacement character); encoding/json decode.go, called by serialize/json.go. -/
def pairRune (n m : Nat) : Option Nat :=
  if 0xD800 ≤ n ∧ n < 0xDC00 ∧ 0xDC00 ≤ m ∧ m < 0xE000 then some ((n - 0xD800) * 1024 + (m - 0xDC00) + 0x10000) else none

/-- The second half of a pair, if the text goes on with an escape that is one. encoding/json decode.go, called by serialize/json.go. -/
def pairWith (n : Nat) : Bytes → Option Nat
  | 92 :: 117 :: a :: b :: c :: d :: _ => pairRune n (hex4 a b c d)
  | _ => none

/-- decode.go `unquote`: a pair of surrogate escapes is one character, a surrogate that is not part of a pair becomes U+FFFD.  (The flag: the escape
that follows is the second half of a pair already written.) -/
def unquoteFrom (second : Bool) : Bytes → Bytes
  | 92 :: 117 :: a :: b :: c :: d :: s =>
    if second then unquoteFrom false s
    else if surrogate (hex4 a b c d) then
      match pairWith (hex4 a b c d) s with
      | some r => runeBytes r ++ unquoteFrom true s
      | none => runeBytes 0xFFFD ++ unquoteFrom false s
    else runeBytes (hex4 a b c d) ++ unquoteFrom false s
  | 92 :: c :: s =>
    (if c = 98 then 8 else if c = 102 then 12 else if c = 110 then 10 else if c = 114 then 13 else if c = 116 then 9 else c) :: unquoteFrom false s
  | c :: s => c :: unquoteFrom false s
  | [] => []

/-- decode.go `unquote`. -/
def unquote (s : Bytes) : Bytes := unquoteFrom false s

/-- encoding/base64 `encodeStd`. encoding/json or encoding/base64, called by serialize/json.go. -/
def b64Char (n : Nat) : UInt8 :=
  if n < 26 then UInt8.ofNat (65 + n) else if n < 52 then UInt8.ofNat (71 + n) else if n < 62 then UInt8.ofNat (n - 4)
  else if n = 62 then 43 else 47

/-- The inverse alphabet (`decodeMap`). encoding/json or encoding/base64, called by serialize/json.go. -/
def b64Val (c : UInt8) : Option Nat :=
  if 65 ≤ c && c ≤ 90 then some (c.toNat - 65) else if 97 ≤ c && c ≤ 122 then some (c.toNat - 71)
  else if 48 ≤ c && c ≤ 57 then some (c.toNat + 4) else if c = 43 then some 62 else if c = 47 then some 63 else none

/-- `base64.StdEncoding` encoding. encoding/json or encoding/base64, called by serialize/json.go. -/
def b64Enc : Bytes → Bytes
  | [] => []
  | [a] => [b64Char (a.toNat / 4), b64Char (a.toNat % 4 * 16), 61, 61]
  | [a, b] => [b64Char (a.toNat / 4), b64Char (a.toNat % 4 * 16 + b.toNat / 16), b64Char (b.toNat % 16 * 4), 61]
  | a :: b :: c :: s =>
    b64Char (a.toNat / 4) :: b64Char (a.toNat % 4 * 16 + b.toNat / 16) :: b64Char (b.toNat % 16 * 4 + c.toNat / 64) ::
      b64Char (c.toNat % 64) :: b64Enc s

/-- Decoding of four-character groups; padding only at the end (trailing bits are not checked).
encoding/json or encoding/base64, called by serialize/json.go. -/
def b64Groups : Bytes → Option Bytes
  | [] => some []
  | [a, b, 61, 61] => (b64Val a).bind fun a => (b64Val b).map fun b => [UInt8.ofNat (a * 4 + b / 16)]
  | [a, b, c, 61] => (b64Val a).bind fun a => (b64Val b).bind fun b => (b64Val c).map fun c =>
      [UInt8.ofNat (a * 4 + b / 16), UInt8.ofNat (b % 16 * 16 + c / 4)]
  | a :: b :: c :: d :: s => (b64Val a).bind fun a => (b64Val b).bind fun b => (b64Val c).bind fun c => (b64Val d).bind fun d =>
      (b64Groups s).map fun r =>
        UInt8.ofNat (a * 4 + b / 16) :: UInt8.ofNat (b % 16 * 16 + c / 4) :: UInt8.ofNat (c % 4 * 64 + d) :: r
  | _ => none

/-- `base64.StdEncoding.Decode`: carriage returns and line feeds are skipped. encoding/json or encoding/base64, called by serialize/json.go. -/
def b64Dec (s : Bytes) : Option Bytes := b64Groups (s.filter fun c => !(c = 13 || c = 10))

/-! ### Reading: into Go values (encoding/json decode.go) -/

/-- decode.go `object`: the field a key names: an exact match, else a match up to case.  Go folds Unicode case: besides the ASCII
letters only U+212A (k) and U+017F (s) fold to ASCII (fold.go). -/
def foldKey : Bytes → Bytes
  | 0xE2 :: 0x84 :: 0xAA :: s => 107 :: foldKey s
  | 0xC5 :: 0xBF :: s => 115 :: foldKey s
  | c :: s => (if 65 ≤ c && c ≤ 90 then c + 32 else c) :: foldKey s
  | [] => []

/-- The field a key names. (encoding/json or encoding/base64, called by serialize/json.go) -/
def fieldOf (names : List Bytes) (key : Bytes) : Option Bytes :=
  if names.contains key then some key else names.find? fun n => foldKey n = foldKey key

/-- The values given to a field, in order. encoding/json or encoding/base64, called by serialize/json.go. -/
def fieldVals (names : List Bytes) (name : Bytes) (kvs : List (Bytes × JVal)) : List JVal :=
  kvs.filterMap fun (k, v) => if fieldOf names (unquote k) = some name then some v else none

/-- Assign a field the values given to it one after the other. encoding/json or encoding/base64, called by serialize/json.go. -/
def assign {α : Type} (step : α → JVal → Option α) (init : α) : List JVal → Option α
  | [] => some init
  | v :: vs => (step init v).bind fun a => assign step a vs

/-- `strconv.ParseUint` on digits. encoding/json or encoding/base64, called by serialize/json.go. -/
def parseNat (s : Bytes) : Option Nat :=
  if s = [] || !s.all isDec then none else some (s.foldl (fun n c => n * 10 + (c.toNat - 48)) 0)

/-- decode.go `literalStore` into an unsigned integer below a bound. -/
def uintStep (bound : Nat) (old : Nat) : JVal → Option Nat
  | .null => some old
  | .num l => (parseNat l).bind fun n => if n < bound then some n else none
  | _ => none

/-- decode.go `literalStore` into an int or int64. -/
def intStep (old : Int) : JVal → Option Int
  | .null => some old
  | .num (45 :: l) => (parseNat l).bind fun n => if n ≤ 2 ^ 63 then some (-(n : Int)) else none
  | .num l => (parseNat l).bind fun n => if n < 2 ^ 63 then some (n : Int) else none
  | _ => none

/-- decode.go `literalStore` into a bool. -/
def boolStep (old : Bool) : JVal → Option Bool
  | .null => some old
  | .bool b => some b
  | _ => none

/-- decode.go `literalStore` and `array` into a []byte: base64, or an array of numbers; null makes it nil. -/
def bytesStep (_old : Option Bytes) : JVal → Option (Option Bytes)
  | .null => some none
  | .str s => (b64Dec (unquote s)).map some
  | .arr vs => (vs.mapM fun v => (uintStep 256 0 v).map UInt8.ofNat).map some
  | _ => none

/-- A uint32 field. (encoding/json or encoding/base64, called by serialize/json.go) -/
def jsonU32 (names : List Bytes) (kvs : List (Bytes × JVal)) (name : String) : Option UInt32 :=
  (assign (uintStep (2 ^ 32)) 0 (fieldVals names (ascii name) kvs)).map UInt32.ofNat
/-- An int field. (encoding/json or encoding/base64, called by serialize/json.go) -/
def intField (names : List Bytes) (kvs : List (Bytes × JVal)) (name : String) : Option Int :=
  assign intStep 0 (fieldVals names (ascii name) kvs)
/-- A bool field. (encoding/json or encoding/base64, called by serialize/json.go) -/
def boolField (names : List Bytes) (kvs : List (Bytes × JVal)) (name : String) : Option Bool :=
  assign boolStep false (fieldVals names (ascii name) kvs)
/-- A []byte field. (encoding/json or encoding/base64, called by serialize/json.go) -/
def bytesField (names : List Bytes) (kvs : List (Bytes × JVal)) (name : String) : Option (Option Bytes) :=
  assign bytesStep none (fieldVals names (ascii name) kvs)

/-- A field holding a pointer to a structure: null makes it nil; an object is decoded into a new structure, or into the present
one, so its members add to those of the objects since the last null. encoding/json or encoding/base64, called by serialize/json.go. -/
def ptrStep (old : Option (List (Bytes × JVal))) : JVal → Option (Option (List (Bytes × JVal)))
  | .null => some none
  | .obj kvs => some (some (old.getD [] ++ kvs))
  | _ => none

/-- A pointer field. (encoding/json or encoding/base64, called by serialize/json.go) -/
def ptrField {α : Type} (dec : List (Bytes × JVal) → Option α) (names : List Bytes) (kvs : List (Bytes × JVal)) (name : String) :
    Option (Option α) :=
  let vs := fieldVals names (ascii name) kvs
  if vs.all fun v => match v with | .obj m => (dec m).isSome | _ => true then
    (assign ptrStep none vs).bind fun o => match o with
      | none => some none
      | some m => (dec m).map some
  else none

/-- A slice of pointers to structures: each element null (nil) or an object. encoding/json or encoding/base64, called by serialize/json.go. -/
def sliceStep {α : Type} (dec : List (Bytes × JVal) → Option α) (_old : List (Option α)) : JVal → Option (List (Option α))
  | .null => some []
  | .arr vs => vs.mapM fun v => match v with
    | .null => some none
    | .obj m => (dec m).map some
    | _ => none
  | _ => none

/-- A slice field. (encoding/json or encoding/base64, called by serialize/json.go) -/
def sliceField {α : Type} (dec : List (Bytes × JVal) → Option α) (names : List Bytes) (kvs : List (Bytes × JVal)) (name : String) :
    Option (List (Option α)) :=
  assign (sliceStep dec) [] (fieldVals names (ascii name) kvs)

/-- `json.Unmarshal` into a pointer to a structure whose fields are all zero: null leaves it so.  The scanner refuses a text nested too deep
(`pushParseState`); here it is scanned first.  encoding/json or encoding/base64, called by serialize/json.go. -/
def unmarshalJson {α : Type} (dec : List (Bytes × JVal) → Option α) (s : Bytes) : Option α :=
  (scan s).bind fun v => if maxNestingDepth < v.depth then none else match v with
    | .null => dec []
    | .obj m => dec m
    | _ => none

/-! ### Writing Go values -/

/-- A uint32. (encoding/json or encoding/base64, called by serialize/json.go) -/
def jU32 (n : UInt32) : JVal := .num (natDec n.toNat)
/-- An int. (encoding/json or encoding/base64, called by serialize/json.go) -/
def jInt (n : Int) : JVal := .num (itoa n)
/-- A []byte: nil is null. encoding/json or encoding/base64, called by serialize/json.go. -/
def jBytes : Option Bytes → JVal
  | none => .null
  | some b => .str (b64Enc b)
/-- A pointer to a structure. encoding/json or encoding/base64, called by serialize/json.go. -/
def jPtr {α : Type} (f : α → JVal) : Option α → JVal
  | none => .null
  | some a => f a
/-- A structure: its fields in order of declaration. encoding/json or encoding/base64, called by serialize/json.go. -/
def jStruct (fields : List (String × JVal)) : JVal := .obj (fields.map fun (n, v) => (ascii n, v))

end Verif
