import Verif.Model.Label
import Verif.Model.Proto

/-!
# JSON form of dialogue labels

libs/go/aealite/protocols/dialogue_label.go:87-117.

The decoder is `json.Unmarshal` of the Go standard library into a `map[string]string`. Its source
is not in /repo; it is modelled from its published behaviour: the whole input is checked first,
strings are taken apart by bytes and then unquoted (escapes, surrogate pairs, a replacement
character for every invalid byte), the last of several values for a key wins, `null` leaves the
empty string, other values are an error. Left out: the limit of 10000 on nesting.
-/

namespace Verif

namespace Json

open Proto

/-! ## Strings -/

/-- `\` -/
abbrev backslash : UInt8 := 92

/-- `"` -/
abbrev quote : UInt8 := 34

/-- A hexadecimal digit. -/
def hexVal (c : UInt8) : Option Nat :=
  if 48 ≤ c ∧ c ≤ 57 then some (c.toNat - 48)
  else if 97 ≤ c ∧ c ≤ 102 then some (c.toNat - 87)
  else if 65 ≤ c ∧ c ≤ 70 then some (c.toNat - 55)
  else none

/-- The byte meant by a one-character escape; `none` if there is no such escape. -/
def escapeVal (c : UInt8) : Option UInt8 :=
  if c = 34 ∨ c = 92 ∨ c = 47 then some c
  else if c = 98 then some 8
  else if c = 102 then some 12
  else if c = 110 then some 10
  else if c = 114 then some 13
  else if c = 116 then some 9
  else none

/-- Four hexadecimal digits. -/
def hex4 : Bytes → Option (Nat × Bytes)
  | a :: b :: c :: d :: rest =>
    match hexVal a, hexVal b, hexVal c, hexVal d with
    | some a, some b, some c, some d => some (((a * 16 + b) * 16 + c) * 16 + d, rest)
    | _, _, _, _ => none
  | _ => none

/-- State of the scanner inside a string. -/
inductive StrState where
  | plain | escape | hex (left : Nat)     -- `hex n`: n + 1 more digits
  deriving DecidableEq, Repr

/-- The scanner inside a string: `stateInString`, `stateInStringEsc`, `stateInStringEscU…` of
encoding/json. Returns the text up to the closing quote and what follows. -/
def scanString : StrState → Bytes → Option (Bytes × Bytes)
  | _, [] => none
  | .plain, c :: r =>
    if c = quote then some ([], r)
    else if c = backslash then (scanString .escape r).map fun (a, b) => (c :: a, b)
    else if c < 32 then none
    else (scanString .plain r).map fun (a, b) => (c :: a, b)
  | .escape, c :: r =>
    if c = 117 then (scanString (.hex 3) r).map fun (a, b) => (c :: a, b)
    else if (escapeVal c).isSome then (scanString .plain r).map fun (a, b) => (c :: a, b)
    else none
  | .hex n, c :: r =>
    if (hexVal c).isSome then
      match n with
      | 0 => (scanString .plain r).map fun (a, b) => (c :: a, b)
      | n + 1 => (scanString (.hex n) r).map fun (a, b) => (c :: a, b)
    else none

/-- Length of the UTF-8 sequence at the beginning, 0 if it is not valid: `utf8.DecodeRune`. -/
def seqLen : Bytes → Nat
  | [] => 0
  | b0 :: r0 =>
    if b0 < 0x80 then 1
    else match r0 with
    | [] => 0
    | b1 :: r1 =>
      if 0xC2 ≤ b0 && b0 ≤ 0xDF then if isCont b1 then 2 else 0
      else match r1 with
      | [] => 0
      | b2 :: r2 =>
        if b0 == 0xE0 then if 0xA0 ≤ b1 && b1 ≤ 0xBF && isCont b2 then 3 else 0
        else if b0 == 0xED then if 0x80 ≤ b1 && b1 ≤ 0x9F && isCont b2 then 3 else 0
        else if 0xE1 ≤ b0 && b0 ≤ 0xEF then if isCont b1 && isCont b2 then 3 else 0
        else match r2 with
        | [] => 0
        | b3 :: _ =>
          if b0 == 0xF0 then if 0x90 ≤ b1 && b1 ≤ 0xBF && isCont b2 && isCont b3 then 4 else 0
          else if b0 == 0xF4 then if 0x80 ≤ b1 && b1 ≤ 0x8F && isCont b2 && isCont b3 then 4 else 0
          else if 0xF1 ≤ b0 && b0 ≤ 0xF3 then
            if isCont b1 && isCont b2 && isCont b3 then 4 else 0
          else 0

/-- The replacement character U+FFFD. -/
def replacement : Bytes := [0xEF, 0xBF, 0xBD]

/-- `utf8.EncodeRune`; surrogates become the replacement character. -/
def encodeRune (n : Nat) : Bytes :=
  if n < 0x80 then [n.toUInt8]
  else if n < 0x800 then [(0xC0 + n / 64).toUInt8, (0x80 + n % 64).toUInt8]
  else if 0xD800 ≤ n ∧ n < 0xE000 then replacement
  else if n < 0x10000 then
    [(0xE0 + n / 4096).toUInt8, (0x80 + n / 64 % 64).toUInt8, (0x80 + n % 64).toUInt8]
  else if n < 0x110000 then
    [(0xF0 + n / 262144).toUInt8, (0x80 + n / 4096 % 64).toUInt8, (0x80 + n / 64 % 64).toUInt8,
      (0x80 + n % 64).toUInt8]
  else replacement

/-- `\uXXXX` at the beginning. -/
def getu4 : Bytes → Option (Nat × Bytes)
  | 92 :: 117 :: rest => hex4 rest
  | _ => none

/-- `unquote` of encoding/json, for a text that has passed the scanner. The number is fuel, the
length of the text suffices. -/
def unquoteAux : Nat → Bytes → Bytes
  | 0, _ => []
  | _, [] => []
  | f + 1, c :: r =>
    if c = backslash then
      match getu4 (c :: r) with
      | some (n, rest) =>
        if 0xD800 ≤ n ∧ n < 0xE000 then
          match getu4 rest with
          | some (m, rest') =>
            if n < 0xDC00 ∧ 0xDC00 ≤ m ∧ m < 0xE000 then
              encodeRune (0x10000 + (n - 0xD800) * 0x400 + (m - 0xDC00)) ++ unquoteAux f rest'
            else replacement ++ unquoteAux f rest
          | none => replacement ++ unquoteAux f rest
        else encodeRune n ++ unquoteAux f rest
      | none =>
        match r with
        | [] => []
        | x :: rest =>
          match escapeVal x with
          | none => []
          | some y => y :: unquoteAux f rest
    else if seqLen (c :: r) = 0 then replacement ++ unquoteAux f r
    else (c :: r).take (seqLen (c :: r)) ++ unquoteAux f ((c :: r).drop (seqLen (c :: r)))

/-- `unquote` -/
def unquote (raw : Bytes) : Bytes := unquoteAux raw.length raw

/-! ## Values -/

/-- White space of JSON. -/
def isSpace (c : UInt8) : Bool := c = 32 || c = 9 || c = 10 || c = 13

/-- Skip white space. -/
def skipSpace : Bytes → Bytes
  | [] => []
  | c :: r => if isSpace c then skipSpace r else c :: r

/-- A value, as far as it matters for a `map[string]string`. -/
inductive Val where
  | str (s : Bytes)
  | null
  | other
  deriving DecidableEq, Repr

/-- A decimal digit. -/
def isDigit (c : UInt8) : Bool := 48 ≤ c && c ≤ 57

/-- Skip digits. -/
def skipDigits : Bytes → Bytes
  | [] => []
  | c :: r => if isDigit c then skipDigits r else c :: r

/-- At least one digit. -/
def someDigits : Bytes → Option Bytes
  | [] => none
  | c :: r => if isDigit c then some (skipDigits r) else none

/-- The exponent of a number, if there is one. -/
def exponent : Bytes → Option Bytes
  | [] => some []
  | c :: r =>
    if c = 101 ∨ c = 69 then
      match r with
      | [] => none
      | s :: r' => if s = 43 ∨ s = 45 then someDigits r' else someDigits (s :: r')
    else some (c :: r)

/-- The fraction and the exponent of a number. -/
def fraction : Bytes → Option Bytes
  | [] => some []
  | c :: r => if c = 46 then (someDigits r).bind exponent else exponent (c :: r)

/-- A number, after the sign. -/
def number : Bytes → Option Bytes
  | [] => none
  | c :: r =>
    if c = 48 then fraction r
    else if isDigit c then fraction (skipDigits r)
    else none

mutual

/-- A value; white space before it has been skipped. The first argument is fuel. -/
def value : Nat → Bytes → Option (Val × Bytes)
  | 0, _ => none
  | _, [] => none
  | f + 1, c :: r =>
    if c = quote then (scanString .plain r).map fun (a, b) => (.str (unquote a), b)
    else if c = 123 then
      match skipSpace r with
      | 125 :: rest => some (.other, rest)
      | r' => (members f r').map fun (_, rest) => (.other, rest)
    else if c = 91 then
      match skipSpace r with
      | 93 :: rest => some (.other, rest)
      | r' => (elements f r').map fun rest => (.other, rest)
    else if c = 116 then match r with
      | 114 :: 117 :: 101 :: rest => some (.other, rest)
      | _ => none
    else if c = 102 then match r with
      | 97 :: 108 :: 115 :: 101 :: rest => some (.other, rest)
      | _ => none
    else if c = 110 then match r with
      | 117 :: 108 :: 108 :: rest => some (.null, rest)
      | _ => none
    else if c = 45 then (number r).map fun rest => (.other, rest)
    else (number (c :: r)).map fun rest => (.other, rest)

/-- The members of an object up to the closing brace; white space before them has been skipped and
there is at least one. -/
def members : Nat → Bytes → Option (List (Bytes × Val) × Bytes)
  | 0, _ => none
  | _, [] => none
  | f + 1, c :: r =>
    if c = quote then
      match scanString .plain r with
      | none => none
      | some (key, r1) =>
        match skipSpace r1 with
        | [] => none
        | d :: r2 =>
          if d = 58 then
            match value f (skipSpace r2) with
            | none => none
            | some (v, r3) =>
              match skipSpace r3 with
              | [] => none
              | d :: r4 =>
                if d = 44 then
                  (members f (skipSpace r4)).map fun (l, rest) => ((unquote key, v) :: l, rest)
                else if d = 125 then some ([(unquote key, v)], r4)
                else none
          else none
    else none

/-- The elements of an array up to the closing bracket, at least one. -/
def elements : Nat → Bytes → Option Bytes
  | 0, _ => none
  | f + 1, s =>
    match value f s with
    | none => none
    | some (_, r) =>
      match skipSpace r with
      | 44 :: r' => elements f (skipSpace r')
      | 93 :: rest => some rest
      | _ => none

end

/-- The value of a member as text; `none` is an error. -/
def Val.text : Val → Option Bytes
  | .str s => some s
  | .null => some []
  | .other => none

/-- Enter members into a map, in order. -/
def toMap : List (Bytes × Val) → GoMap Bytes Bytes → Option (GoMap Bytes Bytes)
  | [], m => some m
  | (k, v) :: rest, m => v.text.bind fun t => toMap rest (m.set k t)

/-- `json.Unmarshal` into a `map[string]string`. -/
def unmarshalMap (b : Bytes) : Option (GoMap Bytes Bytes) :=
  match skipSpace b with
  | 123 :: r =>
    match skipSpace r with
    | 125 :: rest => if skipSpace rest = [] then some GoMap.empty else none
    | r' =>
      match members (2 * b.length + 2) r' with
      | none => none
      | some (l, rest) => if skipSpace rest = [] then toMap l GoMap.empty else none
  | s =>
    match value (2 * b.length + 2) s with
    | some (.null, rest) => if skipSpace rest = [] then some GoMap.empty else none
    | _ => none

end Json

namespace DialogueLabel

open Json

def keyStarterRef : Bytes := b! "dialogue_starter_reference"
def keyResponderRef : Bytes := b! "dialogue_responder_reference"
def keyOpponent : Bytes := b! "dialogue_opponent_addr"
def keyStarterAddr : Bytes := b! "dialogue_starter_addr"

/-- The map of `MarshalJSON`: dialogue_label.go:89-94 -/
def jsonFields (l : DialogueLabel) : List (Bytes × Bytes) :=
  [(keyStarterRef, l.reference.starter), (keyResponderRef, l.reference.responder),
    (keyOpponent, l.opponent), (keyStarterAddr, l.starterAddr)]

/-- One round of the loop: `"%s": "%s",` -/
def jsonField (f : Bytes × Bytes) : Bytes :=
  b! "\"" ++ f.1 ++ b! "\": \"" ++ f.2 ++ b! "\","

/-- `MarshalJSON`: dialogue_label.go:88-102. `order` is the order in which the map is iterated. -/
def marshalJson (order : List (Bytes × Bytes)) : Bytes :=
  (b! "{" ++ (order.map jsonField).flatten).dropLast ++ b! "}"

/-- `UnmarshalJSON`: dialogue_label.go:105-117. Missing keys give the empty string. -/
def unmarshalJson (b : Bytes) : Option DialogueLabel :=
  (unmarshalMap b).map fun m =>
    { reference := ⟨(m.get keyStarterRef).getD [], (m.get keyResponderRef).getD []⟩
      opponent := (m.get keyOpponent).getD []
      starterAddr := (m.get keyStarterAddr).getD [] }

end DialogueLabel

end Verif
