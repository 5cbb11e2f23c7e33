import Verif.Spec.Text

/-!
# What JSON is

Independent of the code: the grammar of RFC 8259, with the meaning of strings. The standard leaves open what
bytes that are no UTF-8 and surrogates without a partner mean; as documented for encoding/json of Go, they
mean the replacement character U+FFFD.
-/

namespace Verif

/-- White space: space, tab, line feed, carriage return. -/
def JsonSpace (b : Bytes) : Prop := ∀ c ∈ b, c = 32 ∨ c = 9 ∨ c = 10 ∨ c = 13

/-! ## Strings -/

/-- The digit `c` stands for the number `n`. -/
def IsHexDigit (c : UInt8) (n : Nat) : Prop :=
  (b! "0123456789abcdef")[n]? = some c ∨ (b! "0123456789ABCDEF")[n]? = some c

/-- The four digits `h` stand for the number `n`. -/
def IsHex4 (h : Bytes) (n : Nat) : Prop :=
  ∃ c0 c1 c2 c3 n0 n1 n2 n3, h = [c0, c1, c2, c3] ∧
    IsHexDigit c0 n0 ∧ IsHexDigit c1 n1 ∧ IsHexDigit c2 n2 ∧ IsHexDigit c3 n3 ∧
    n = 4096 * n0 + 256 * n1 + 16 * n2 + n3

/-- The escapes of one character and what they mean: quotation mark, backslash, slash, backspace, form feed,
line feed, carriage return, tab. -/
def jsonEscapes : List (Bytes × UInt8) :=
  [(b! "\\\"", 34), (b! "\\\\", 92), (b! "\\/", 47), (b! "\\b", 8), (b! "\\f", 12), (b! "\\n", 10),
    (b! "\\r", 13), (b! "\\t", 9)]

/-- The UTF-8 form of U+FFFD. -/
def jsonReplacement : Bytes := String.utf8EncodeChar (Char.ofNat 0xFFFD)

/-- An escaped second half of a surrogate pair comes next. -/
def LowSurrogateNext (r : Bytes) : Prop :=
  ∃ h n r', r = b! "\\u" ++ h ++ r' ∧ IsHex4 h n ∧ 0xDC00 ≤ n ∧ n < 0xE000

/-- `JsonString raw s`: between quotation marks, `raw` means the text `s`. -/
inductive JsonString : Bytes → Bytes → Prop where
  | nil : JsonString [] []
  | char {r s : Bytes} (c : Char) (hc : 0x20 ≤ c.toNat) (hq : c ≠ '"') (hb : c ≠ '\\') :
      JsonString r s → JsonString (String.utf8EncodeChar c ++ r) (String.utf8EncodeChar c ++ s)
  | escape {r s e : Bytes} {y : UInt8} (h : (e, y) ∈ jsonEscapes) :
      JsonString r s → JsonString (e ++ r) (y :: s)
  | unicode {r s h : Bytes} (c : Char) (hh : IsHex4 h c.toNat) :
      JsonString r s → JsonString (b! "\\u" ++ h ++ r) (String.utf8EncodeChar c ++ s)
  | pair {r s h h' : Bytes} {n n' : Nat} (c : Char) (hh : IsHex4 h n) (hh' : IsHex4 h' n')
      (hn : 0xD800 ≤ n ∧ n < 0xDC00) (hn' : 0xDC00 ≤ n' ∧ n' < 0xE000)
      (hc : c.toNat = 0x10000 + 0x400 * (n - 0xD800) + (n' - 0xDC00)) :
      JsonString r s → JsonString (b! "\\u" ++ h ++ b! "\\u" ++ h' ++ r) (String.utf8EncodeChar c ++ s)
  | lone {r s h : Bytes} {n : Nat} (hh : IsHex4 h n) (hn : 0xD800 ≤ n ∧ n < 0xE000)
      (hl : n < 0xDC00 → ¬ LowSurrogateNext r) :
      JsonString r s → JsonString (b! "\\u" ++ h ++ r) (jsonReplacement ++ s)
  | invalid {r s : Bytes} (x : UInt8) (hx : ∀ (c : Char) (t : Bytes), x :: r ≠ String.utf8EncodeChar c ++ t) :
      JsonString r s → JsonString (x :: r) (jsonReplacement ++ s)

/-! ## Numbers -/

/-- At least one decimal digit. -/
def JsonDigits (b : Bytes) : Prop := b ≠ [] ∧ ∀ c ∈ b, 48 ≤ c.toNat ∧ c.toNat ≤ 57

/-- A number: perhaps a minus, an integer without superfluous zeros, perhaps a fraction, perhaps an
exponent. -/
def JsonNumber (b : Bytes) : Prop :=
  ∃ sign int frac exp : Bytes, b = sign ++ int ++ frac ++ exp ∧
    (sign = [] ∨ sign = b! "-") ∧
    (int = b! "0" ∨ (JsonDigits int ∧ int.head? ≠ some 48)) ∧
    (frac = [] ∨ ∃ d, frac = b! "." ++ d ∧ JsonDigits d) ∧
    (exp = [] ∨ ∃ e s d, exp = e ++ s ++ d ∧ (e = b! "e" ∨ e = b! "E") ∧ (s = [] ∨ s = b! "+" ∨ s = b! "-") ∧
      JsonDigits d)

/-! ## Values -/

/-- A value, as far as it matters where a text is expected. -/
inductive JsonValue where
  | text (s : Bytes)
  | null
  | other
  deriving DecidableEq, Repr

/-- What a piece of JSON is: a value, the elements of an array, the members of an object. -/
inductive JsonPart where
  | val (v : JsonValue)
  | elements
  | members (l : List (Bytes × JsonValue))

/-- `IsJson p b`: the bytes are such a piece. -/
inductive IsJson : JsonPart → Bytes → Prop where
  | string {raw s : Bytes} : JsonString raw s → IsJson (.val (.text s)) (b! "\"" ++ raw ++ b! "\"")
  | null : IsJson (.val .null) (b! "null")
  | true : IsJson (.val .other) (b! "true")
  | false : IsJson (.val .other) (b! "false")
  | number {b : Bytes} : JsonNumber b → IsJson (.val .other) b
  | emptyArray {w : Bytes} : JsonSpace w → IsJson (.val .other) (b! "[" ++ w ++ b! "]")
  | array {b : Bytes} : IsJson .elements b → IsJson (.val .other) (b! "[" ++ b ++ b! "]")
  | lastElement {w w' b : Bytes} {v : JsonValue} : JsonSpace w → JsonSpace w' → IsJson (.val v) b →
      IsJson .elements (w ++ b ++ w')
  | element {w w' b r : Bytes} {v : JsonValue} : JsonSpace w → JsonSpace w' → IsJson (.val v) b →
      IsJson .elements r → IsJson .elements (w ++ b ++ w' ++ b! "," ++ r)
  | emptyObject {w : Bytes} : JsonSpace w → IsJson (.val .other) (b! "{" ++ w ++ b! "}")
  | object {b : Bytes} {l : List (Bytes × JsonValue)} : IsJson (.members l) b →
      IsJson (.val .other) (b! "{" ++ b ++ b! "}")
  | lastMember {w1 w2 w3 w4 raw k b : Bytes} {v : JsonValue} : JsonSpace w1 → JsonSpace w2 → JsonSpace w3 →
      JsonSpace w4 → JsonString raw k → IsJson (.val v) b →
      IsJson (.members [(k, v)]) (w1 ++ b! "\"" ++ raw ++ b! "\"" ++ w2 ++ b! ":" ++ w3 ++ b ++ w4)
  | member {w1 w2 w3 w4 raw k b r : Bytes} {v : JsonValue} {l : List (Bytes × JsonValue)} : JsonSpace w1 →
      JsonSpace w2 → JsonSpace w3 → JsonSpace w4 → JsonString raw k → IsJson (.val v) b →
      IsJson (.members l) r → IsJson (.members ((k, v) :: l))
        (w1 ++ b! "\"" ++ raw ++ b! "\"" ++ w2 ++ b! ":" ++ w3 ++ b ++ w4 ++ b! "," ++ r)

/-- The bytes are a JSON object with these members, in this order. -/
def IsJsonObject (l : List (Bytes × JsonValue)) (b : Bytes) : Prop :=
  ∃ w body w', JsonSpace w ∧ JsonSpace w' ∧ b = w ++ b! "{" ++ body ++ b! "}" ++ w' ∧
    ((l = [] ∧ JsonSpace body) ∨ IsJson (.members l) body)

/-- The bytes are the JSON value `null`. -/
def IsJsonNull (b : Bytes) : Prop := ∃ w w', JsonSpace w ∧ JsonSpace w' ∧ b = w ++ b! "null" ++ w'

/-- The text under a name: that of the last member of this name, empty if it is `null` or there is none. -/
def memberText (l : List (Bytes × JsonValue)) (k : Bytes) : Bytes :=
  match (l.filter (·.1 = k)).getLast? with
  | some (_, .text s) => s
  | _ => []

end Verif
