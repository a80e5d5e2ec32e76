import Mathlib.Data.Nat.Digits.Lemmas
/-
Bytes, decimal and hexadecimal text, and line-oriented input, as used by the
persistence code (include/Utilities.hpp).
-/
namespace CDT

/-- A byte of a file or of a `std::string`. -/
abbrev Byte := BitVec 8

/-- File contents and `std::string` values. -/
abbrev Bytes := List Byte

/-- Bytes of an ASCII string literal. -/
def ascii (s : String) : Bytes := s.toList.map fun c => BitVec.ofNat 8 c.toNat

/-- `'\n'`. -/
def newline : Byte := 10#8
/-- `'='`. -/
def equalsSign : Byte := 61#8
/-- `'|'`. -/
def bar : Byte := 124#8
/-- `'-'`. -/
def minusSign : Byte := 45#8

/-- The character of a digit value: `0-9` then `a-z` (fmt's lower-case `x` format). -/
def digitByte (d : ℕ) : Byte := if d < 10 then BitVec.ofNat 8 (48 + d) else BitVec.ofNat 8 (87 + d)

/-- Digits of `n`, most significant first; `0` is one digit. -/
def numeral (base n : ℕ) : Bytes :=
  if n = 0 then [digitByte 0] else (Nat.digits base n).reverse.map digitByte

/-- `fmt::format("{}", n)`, `std::to_string(n)` and `ostream << n` for an unsigned integer. -/
def decimal (n : ℕ) : Bytes := numeral 10 n

/-- `fmt::format("{}", i)` and `std::to_string(i)` for a signed integer. -/
def decimalInt (i : ℤ) : Bytes := if i < 0 then minusSign :: decimal i.natAbs else decimal i.natAbs

/-- `fmt::format("{:016x}", n)`: at least sixteen lower-case digits, zero-padded. -/
def hex16 (n : ℕ) : Bytes :=
  let ds := numeral 16 n
  List.replicate (16 - ds.length) (digitByte 0) ++ ds

/-- Digit value of a character for `std::from_chars` in the given base: `0-9`, `a-z`, `A-Z`. -/
def digitValue (base : ℕ) (b : Byte) : Option ℕ :=
  let n := b.toNat
  let v := if 48 ≤ n ∧ n ≤ 57 then some (n - 48)
    else if 97 ≤ n ∧ n ≤ 122 then some (n - 87)
    else if 65 ≤ n ∧ n ≤ 90 then some (n - 55)
    else none
  v.bind fun d => if d < base then some d else none

/-- Value of a digit sequence, most significant first. -/
def digitsValue (base : ℕ) (ds : List ℕ) : ℕ := ds.foldl (fun v d => v * base + d) 0

/-- The digits-only part of `std::from_chars`, required to consume the whole text: `none` when
there is no digit or another character occurs. -/
def wholeNumeral (base : ℕ) (text : Bytes) : Option ℕ :=
  if text.isEmpty then none else (text.mapM (digitValue base)).map (digitsValue base)

/-- `parse_unsigned` (include/Utilities.hpp:671-685): `std::from_chars` into `uint64_t`, no sign,
whole text consumed, out-of-range values are errors. -/
def parseUnsigned (base : ℕ) (text : Bytes) : Option ℕ :=
  (wholeNumeral base text).bind fun n => if n < 2 ^ 64 then some n else none

/-- `parse_info` and `parse_metadata_integer` (include/Utilities.hpp:687-717):
`std::from_chars` into `Int_precision` (`int32_t`): optional minus sign, whole text consumed,
out-of-range values are errors. -/
def parseInt (text : Bytes) : Option ℤ :=
  match text with
  | [] => none
  | b :: rest =>
    if b = minusSign then
      (wholeNumeral 10 rest).bind fun n => if n ≤ 2 ^ 31 then some (-(n : ℤ)) else none
    else
      (wholeNumeral 10 text).bind fun n => if n < 2 ^ 31 then some (n : ℤ) else none

/-- `std::getline`: fails exactly when no character is left; otherwise returns the characters up to
the newline (which is consumed) or up to the end of the input. -/
def getline (input : Bytes) : Option (Bytes × Bytes) :=
  if input.isEmpty then none
  else some (input.takeWhile (· ≠ newline), (input.dropWhile (· ≠ newline)).tail)

/-- Whitespace of the classic locale: tab, newline, vertical tab, form feed, return, space. -/
def isSpace (b : Byte) : Bool := decide (9 ≤ b.toNat ∧ b.toNat ≤ 13) || decide (b.toNat = 32)

/-- `input >> std::ws`. -/
def skipSpace (input : Bytes) : Bytes := input.dropWhile isSpace

/-- `text.starts_with(prefix)` with the remaining text. -/
def stripPrefix : Bytes → Bytes → Option Bytes
  | [], text => some text
  | _ :: _, [] => none
  | p :: ps, t :: ts => if p = t then stripPrefix ps ts else none

/-- `text.rfind(c)` as the two parts around the last occurrence. -/
def splitLast (c : Byte) : Bytes → Option (Bytes × Bytes)
  | [] => none
  | b :: rest =>
    match splitLast c rest with
    | some (l, r) => some (b :: l, r)
    | none => if b = c then some ([], rest) else none

/-- `text.find(c)` as the two parts around the first occurrence. -/
def splitFirst (c : Byte) : Bytes → Option (Bytes × Bytes)
  | [] => none
  | b :: rest =>
    if b = c then some ([], rest)
    else (splitFirst c rest).map fun (l, r) => (b :: l, r)

end CDT
