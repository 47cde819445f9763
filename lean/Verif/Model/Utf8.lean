import Verif.Model.Basic

/-!
# Rust's `str`: `std::str::from_utf8`, `str::as_bytes`, and the `Debug` escapes of `str`

Part of `std`, not of the repository; used by src/types/signature.rs and src/types/profile_id.rs.
A Rust `String`/`&str` is a list of Unicode scalar values (`Char`).
-/

namespace Lcms

/-- A continuation byte `0b10xxxxxx` and its six payload bits (below src/types/signature.rs:15). -/
def cont (b : Byte) : Option Nat :=
  if 0x80 ≤ b.toNat ∧ b.toNat ≤ 0xBF then some (b.toNat - 0x80) else none

/-- One step of `std`'s `run_utf8_validation` together with the scalar value of the sequence
(`next_code_point`).  The ranges are those of `UTF8_CHAR_WIDTH` and of the `match (first, next)` arms
(below src/types/signature.rs:15). -/
def decodeOne : List Byte → Option (Char × List Byte)
  | [] => none
  | b0 :: r0 =>
    if b0.toNat < 0x80 then some (Char.ofNat b0.toNat, r0)
    else if 0xC2 ≤ b0.toNat ∧ b0.toNat ≤ 0xDF then
      match r0 with
      | b1 :: r1 =>
        match cont b1 with
        | some c1 => some (Char.ofNat ((b0.toNat - 0xC0) * 64 + c1), r1)
        | none => none
      | _ => none
    else if 0xE0 ≤ b0.toNat ∧ b0.toNat ≤ 0xEF then
      match r0 with
      | b1 :: b2 :: r2 =>
        match cont b1, cont b2 with
        | some c1, some c2 =>
          if b0.toNat = 0xE0 ∧ b1.toNat < 0xA0 then none
          else if b0.toNat = 0xED ∧ 0x9F < b1.toNat then none
          else some (Char.ofNat ((b0.toNat - 0xE0) * 4096 + c1 * 64 + c2), r2)
        | _, _ => none
      | _ => none
    else if 0xF0 ≤ b0.toNat ∧ b0.toNat ≤ 0xF4 then
      match r0 with
      | b1 :: b2 :: b3 :: r3 =>
        match cont b1, cont b2, cont b3 with
        | some c1, some c2, some c3 =>
          if b0.toNat = 0xF0 ∧ b1.toNat < 0x90 then none
          else if b0.toNat = 0xF4 ∧ 0x8F < b1.toNat then none
          else some (Char.ofNat ((b0.toNat - 0xF0) * 262144 + c1 * 4096 + c2 * 64 + c3), r3)
        | _, _, _ => none
      | _ => none
    else none

/-- The validation loop; `fuel` bounds the number of characters (below src/types/signature.rs:15). -/
def decodeAll : Nat → List Byte → Option (List Char)
  | _, [] => some []
  | 0, _ :: _ => none
  | fuel + 1, b :: bs =>
    match decodeOne (b :: bs) with
    | none => none
    | some (c, r) =>
      match decodeAll fuel r with
      | none => none
      | some cs => some (c :: cs)

/-- `std::str::from_utf8` (`none` = `Err`) (src/types/signature.rs:15, 91). -/
def fromUtf8 (bs : List Byte) : Option (List Char) := decodeAll bs.length bs

/-- `str::as_bytes`.  A `str` is stored as its UTF-8 encoding; Lean's core definition of the encoding of one
scalar value is used (src/types/signature.rs:99). -/
def strBytes (s : List Char) : List Byte := s.flatMap String.utf8EncodeChar

/-- A lower-case hexadecimal digit (src/types/signature.rs:20). -/
def hexDigit (n : Nat) : Char := if n < 10 then Char.ofNat (48 + n) else Char.ofNat (87 + n)

/-- `{:x}` of a number below `16^fuel`: no leading zeros, at least one digit (src/types/signature.rs:20). -/
def hexLower : Nat → Nat → List Char
  | 0, _ => []
  | fuel + 1, n => if n < 16 then [hexDigit n] else hexLower fuel (n / 16) ++ [hexDigit (n % 16)]

/-- `format!(" {:2x} ", b)`: lower-case hex padded on the left with blanks to width 2, blanks around
(src/types/signature.rs:20, src/types/profile_id.rs:15). -/
def hexCell (b : Byte) : List Char :=
  let digits := hexLower 2 b.toNat
  [' '] ++ List.replicate (2 - digits.length) ' ' ++ digits ++ [' ']

/-- `char::escape_debug_ext` as called by `impl Debug for str` (escape_grapheme_extended, double quotes but
not single quotes).  `plain c` is what `std`'s Unicode tables say: printable and not grapheme-extending; the
properties hold for every such table (below src/types/signature.rs:26). -/
def escapeChar (plain : Char → Bool) (c : Char) : List Char :=
  if c = '\x00' then ['\\', '0']
  else if c = '\t' then ['\\', 't']
  else if c = '\r' then ['\\', 'r']
  else if c = '\n' then ['\\', 'n']
  else if c = '"' then ['\\', '"']
  else if c = '\\' then ['\\', '\\']
  else if plain c then [c]
  else ['\\', 'u', '{'] ++ hexLower 8 c.toNat ++ ['}']

/-- `impl Debug for str` (src/types/signature.rs:26). -/
def debugStr (plain : Char → Bool) (s : List Char) : List Char :=
  ['"'] ++ s.flatMap (escapeChar plain) ++ ['"']

/-- `f.debug_struct(name).field("value", &value).finish()`, compact (`{:?}`) and pretty (`{:#?}`) layout
(src/types/signature.rs:26, src/types/profile_id.rs:19). -/
def debugValueStruct (plain : Char → Bool) (pretty : Bool) (name : List Char) (value : List Char) :
    List Char :=
  if pretty then
    name ++ " {\n    value: ".toList ++ debugStr plain value ++ ",\n}".toList
  else
    name ++ " { value: ".toList ++ debugStr plain value ++ " }".toList

end Lcms
