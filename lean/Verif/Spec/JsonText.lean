import Verif.Model.Basic
/-
JSON (RFC 8259) as a relation between documents and their texts, independent of the model of encoding/json, and when one document says what
another one says.
-/
namespace Verif.Spec

/-- A JSON document.  Strings hold their characters (UTF-8), numbers their text. -/
inductive Doc where
  | null
  | bool (b : Bool)
  | num (lit : Bytes)
  | str (s : Bytes)
  | arr (ds : List Doc)
  | obj (ms : List (Bytes × Doc))

/-- Space, tab, line feed, carriage return. -/
def Ws (w : Bytes) : Prop := ∀ c ∈ w, c = 32 ∨ c = 9 ∨ c = 10 ∨ c = 13

def HexDigit (c : UInt8) (n : Nat) : Prop := (ascii "0123456789abcdef")[n]? = some c ∨ (ascii "0123456789ABCDEF")[n]? = some c

/-- The escapes of one character: the letter and what it stands for. -/
def shortEscapes : List (UInt8 × UInt8) := [(34, 34), (92, 92), (47, 47), (98, 8), (102, 12), (110, 10), (114, 13), (116, 9)]

/-- The number that the four digits of a \u escape write. -/
def Hex4 (a b c d : UInt8) (n : Nat) : Prop := ∃ i j k l, HexDigit a i ∧ HexDigit b j ∧ HexDigit c k ∧ HexDigit d l ∧ n = 4096 * i + 256 * j + 16 * k + l

/-- Halves of a surrogate pair. -/
def High (n : Nat) : Prop := 0xD800 ≤ n ∧ n < 0xDC00
def Low (n : Nat) : Prop := 0xDC00 ≤ n ∧ n < 0xE000

/-- A string and a way to write it between quotes: each character as it is or by an escape, those above U+FFFF by a pair of escapes.  An escape of half a
pair alone is read as the replacement character U+FFFD. -/
inductive StrText : Bytes → Bytes → Prop
  | nil : StrText [] []
  | raw {s t} (c : UInt8) : 32 ≤ c → c ≠ 34 → c ≠ 92 → StrText s t → StrText (c :: s) (c :: t)
  | escape {s t} (e c : UInt8) : (e, c) ∈ shortEscapes → StrText s t → StrText (c :: s) (92 :: e :: t)
  | unicode {s t a b c d n} : Hex4 a b c d n → ¬ High n → ¬ Low n → StrText s t →
      StrText (String.utf8EncodeChar (Char.ofNat n) ++ s) (92 :: 117 :: a :: b :: c :: d :: t)
  | pair {s t a b c d e f g h m n} : Hex4 a b c d m → Hex4 e f g h n → High m → Low n → StrText s t →
      StrText (String.utf8EncodeChar (Char.ofNat (0x10000 + (m - 0xD800) * 1024 + (n - 0xDC00))) ++ s)
        (92 :: 117 :: a :: b :: c :: d :: 92 :: 117 :: e :: f :: g :: h :: t)
  | half {s t a b c d m} : Hex4 a b c d m → High m ∨ Low m →
      ¬ (High m ∧ ∃ e f g h n u, t = 92 :: 117 :: e :: f :: g :: h :: u ∧ Hex4 e f g h n ∧ Low n) → StrText s t →
      StrText (String.utf8EncodeChar (Char.ofNat 0xFFFD) ++ s) (92 :: 117 :: a :: b :: c :: d :: t)

def Digit (c : UInt8) : Prop := c ∈ ascii "0123456789"
/-- One or more digits. -/
def Digits (d : Bytes) : Prop := d ≠ [] ∧ ∀ c ∈ d, Digit c

/-- A number: a minus sign or not, an integer part without leading zeros, a fraction or not, an exponent or not. -/
def NumText (l : Bytes) : Prop := ∃ sign int frac exp, l = sign ++ int ++ frac ++ exp ∧ (sign = [] ∨ sign = ascii "-") ∧
  (int = ascii "0" ∨ Digits int ∧ int.head? ≠ some 48) ∧ (frac = [] ∨ ∃ d, Digits d ∧ frac = ascii "." ++ d) ∧
  (exp = [] ∨ ∃ e s d, (e = ascii "e" ∨ e = ascii "E") ∧ (s = [] ∨ s = ascii "+" ∨ s = ascii "-") ∧ Digits d ∧ exp = e ++ s ++ d)

/-- What a piece of text can stand for: a value, the elements of an array, the members of an object. -/
inductive Piece where
  | value (d : Doc)
  | elems (ds : List Doc)
  | members (ms : List (Bytes × Doc))

inductive Text : Piece → Bytes → Prop
  | null : Text (.value .null) (ascii "null")
  | true : Text (.value (.bool true)) (ascii "true")
  | false : Text (.value (.bool false)) (ascii "false")
  | num {l} : NumText l → Text (.value (.num l)) l
  | str {s t} : StrText s t → Text (.value (.str s)) (34 :: (t ++ [34]))
  | noElems {w} : Ws w → Text (.value (.arr [])) (91 :: (w ++ [93]))
  | arr {ds t} : Text (.elems ds) t → Text (.value (.arr ds)) (91 :: (t ++ [93]))
  | noMembers {w} : Ws w → Text (.value (.obj [])) (123 :: (w ++ [125]))
  | obj {ms t} : Text (.members ms) t → Text (.value (.obj ms)) (123 :: (t ++ [125]))
  | elem {w w' d t} : Ws w → Ws w' → Text (.value d) t → Text (.elems [d]) (w ++ (t ++ w'))
  | elemMore {w w' d t ds u} : Ws w → Ws w' → Text (.value d) t → Text (.elems ds) u → Text (.elems (d :: ds)) (w ++ (t ++ (w' ++ 44 :: u)))
  | member {w w1 w2 w3 k kt d t} : Ws w → Ws w1 → Ws w2 → Ws w3 → StrText k kt → Text (.value d) t →
      Text (.members [(k, d)]) (w ++ 34 :: (kt ++ 34 :: (w1 ++ 58 :: (w2 ++ (t ++ w3)))))
  | memberMore {w w1 w2 w3 k kt d t ms u} : Ws w → Ws w1 → Ws w2 → Ws w3 → StrText k kt → Text (.value d) t → Text (.members ms) u →
      Text (.members ((k, d) :: ms)) (w ++ 34 :: (kt ++ 34 :: (w1 ++ 58 :: (w2 ++ (t ++ (w3 ++ 44 :: u))))))

/-- The text is a way to write the document. -/
def Writes (d : Doc) (t : Bytes) : Prop := ∃ w v w', Ws w ∧ Ws w' ∧ Text (.value d) v ∧ t = w ++ (v ++ w')

/-- A name without the difference between upper and lower case: besides A to Z, the Kelvin sign (U+212A) counts as k and the long s (U+017F) as s. -/
def caseless : Bytes → Bytes
  | 0xE2 :: 0x84 :: 0xAA :: s => 107 :: caseless s
  | 0xC5 :: 0xBF :: s => 115 :: caseless s
  | c :: s => (if 65 ≤ c ∧ c ≤ 90 then c + 32 else c) :: caseless s
  | [] => []

/-- The values of the members that have this name, whatever the case. -/
def named (k : Bytes) (ms : List (Bytes × Doc)) : List Doc := (ms.filter fun m => caseless m.1 = caseless k).map (·.2)

mutual
/-- The second document says what the first one says: objects may have their members in another order, written in another case, and more members with
other names. -/
def Doc.Says : Doc → Doc → Prop
  | .null, e => e = .null
  | .bool b, e => e = .bool b
  | .num l, e => e = .num l
  | .str s, e => e = .str s
  | .arr ds, e => ∃ es, e = .arr es ∧ SaysElems ds es
  | .obj ms, e => ∃ ns, e = .obj ns ∧ SaysMembers ms ns
def SaysElems : List Doc → List Doc → Prop
  | [], es => es = []
  | d :: ds, es => ∃ e r, es = e :: r ∧ d.Says e ∧ SaysElems ds r
def SaysMembers : List (Bytes × Doc) → List (Bytes × Doc) → Prop
  | [], _ => True
  | (k, d) :: ms, ns => (∃ e, named k ns = [e] ∧ d.Says e) ∧ SaysMembers ms ns
end

mutual
/-- How deep arrays and objects are nested. -/
def Doc.depth : Doc → Nat
  | .arr ds => elemsDepth ds + 1
  | .obj ms => membersDepth ms + 1
  | _ => 0
def elemsDepth : List Doc → Nat
  | [] => 0
  | d :: ds => max d.depth (elemsDepth ds)
def membersDepth : List (Bytes × Doc) → Nat
  | [] => 0
  | (_, d) :: ms => max d.depth (membersDepth ms)
end

/-- Go's limit. -/
def Doc.Shallow (d : Doc) : Prop := d.depth ≤ 10000

/-- The second text is the first one reformatted: white space, escapes, order and case of members, additional members (nested not too deep). -/
def Reformatted (b t : Bytes) : Prop := ∃ d e, Writes d b ∧ Writes e t ∧ d.Says e ∧ e.Shallow

mutual
/-- The document without the members that are null, in all its objects. -/
def Doc.bare : Doc → Doc
  | .arr ds => .arr (bareElems ds)
  | .obj ms => .obj (bareMembers ms)
  | .null => .null
  | .bool b => .bool b
  | .num l => .num l
  | .str s => .str s
def bareElems : List Doc → List Doc
  | [] => []
  | d :: ds => d.bare :: bareElems ds
def bareMembers : List (Bytes × Doc) → List (Bytes × Doc)
  | [] => []
  | (_, .null) :: ms => bareMembers ms
  | (k, d) :: ms => (k, d.bare) :: bareMembers ms
end

mutual
/-- No object in the document has two members of the same name, whatever the case. -/
def Doc.Distinct : Doc → Prop
  | .arr ds => DistinctElems ds
  | .obj ms => DistinctMembers ms
  | _ => True
def DistinctElems : List Doc → Prop
  | [] => True
  | d :: ds => d.Distinct ∧ DistinctElems ds
def DistinctMembers : List (Bytes × Doc) → Prop
  | [] => True
  | (k, d) :: ms => named k ms = [] ∧ d.Distinct ∧ DistinctMembers ms
end

end Verif.Spec
