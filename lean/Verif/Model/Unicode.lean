import Verif.Model.Prelude

/-!
Model of the Go run-time conversions between strings and runes and of package unicode/utf16.  These are
not part of /repo; they are modelled from the Go specification and standard library documentation (used at
encoding/gsm7/gsm7.go:220 `range string(src)`, :102/:113 `[]byte(string(m))`, encoding/tpdu/userdata.go:193,
:419, encoding/ucs2/ucs2.go:30,:36,:49).
Shifts and masks are written arithmetically.
-/

namespace Verif.Model.Unicode

/-- `utf8.RuneError`, `unicode.ReplacementChar`. -/
def replacement : Rune := 0xFFFD

/-- A Unicode scalar value. -/
def isScalar (r : Rune) : Bool := r < 0xD800 || (0xE000 ≤ r && r ≤ 0x10FFFF)

/-- `string(r)` for one rune (`utf8.AppendRune`): invalid runes become U+FFFD. -/
def encodeRune (r : Rune) : Bytes :=
  let r := if isScalar r then r else replacement
  if r < 0x80 then [UInt8.ofNat r]
  else if r < 0x800 then [UInt8.ofNat (0xC0 + r / 64), UInt8.ofNat (0x80 + r % 64)]
  else if r < 0x10000 then
    [UInt8.ofNat (0xE0 + r / 4096), UInt8.ofNat (0x80 + r / 64 % 64), UInt8.ofNat (0x80 + r % 64)]
  else
    [UInt8.ofNat (0xF0 + r / 262144), UInt8.ofNat (0x80 + r / 4096 % 64),
     UInt8.ofNat (0x80 + r / 64 % 64), UInt8.ofNat (0x80 + r % 64)]

/-- `string(rs)` for a rune slice. -/
def encodeRunes (rs : List Rune) : Bytes := rs.flatMap encodeRune

/-- Continuation byte in the range `lo..hi`. -/
def contIn (lo hi : Nat) (b : UInt8) : Bool := lo ≤ b.toNat && b.toNat ≤ hi

/-- Allowed range of the second byte for a given first byte (`acceptRanges` of package unicode/utf8). -/
def secondOk (b0 : Nat) (b1 : UInt8) : Bool :=
  if b0 = 0xE0 then contIn 0xA0 0xBF b1
  else if b0 = 0xED then contIn 0x80 0x9F b1
  else if b0 = 0xF0 then contIn 0x90 0xBF b1
  else if b0 = 0xF4 then contIn 0x80 0x8F b1
  else contIn 0x80 0xBF b1

/-- `utf8.DecodeRune`: the rune and the number of bytes it occupies (U+FFFD, 1 for invalid input). -/
def decodeRune (b0 : UInt8) (t : Bytes) : Rune × Nat :=
  let x := b0.toNat
  if x < 0x80 then (x, 1)
  else if x < 0xC2 then (replacement, 1)
  else if x < 0xE0 then
    match t with
    | b1 :: _ => if secondOk x b1 then (x % 32 * 64 + b1.toNat % 64, 2) else (replacement, 1)
    | [] => (replacement, 1)
  else if x < 0xF0 then
    match t with
    | b1 :: b2 :: _ =>
      if secondOk x b1 && contIn 0x80 0xBF b2 then
        (x % 16 * 4096 + b1.toNat % 64 * 64 + b2.toNat % 64, 3)
      else (replacement, 1)
    | _ => (replacement, 1)
  else if x < 0xF5 then
    match t with
    | b1 :: b2 :: b3 :: _ =>
      if secondOk x b1 && contIn 0x80 0xBF b2 && contIn 0x80 0xBF b3 then
        (x % 8 * 262144 + b1.toNat % 64 * 4096 + b2.toNat % 64 * 64 + b3.toNat % 64, 4)
      else (replacement, 1)
    | _ => (replacement, 1)
  else (replacement, 1)

/-- Iterate `decodeRune`; `fuel` bounds the number of runes. -/
def decodeRunesAux : Nat → Bytes → List Rune
  | 0, _ => []
  | _ + 1, [] => []
  | fuel + 1, b0 :: t =>
    let d := decodeRune b0 t
    d.1 :: decodeRunesAux fuel (t.drop (d.2 - 1))

/-- `[]rune(string(p))` and the runes visited by `range string(p)`. A string has at most `len(p)` runes. -/
def decodeRunes (p : Bytes) : List Rune := decodeRunesAux p.length p

/-- `utf16.IsSurrogate`. -/
def isSurrogate (r : Rune) : Bool := 0xD800 ≤ r && r < 0xE000

/-- `utf16.DecodeRune`. -/
def utf16DecodeRune (r1 r2 : Rune) : Rune :=
  if 0xD800 ≤ r1 ∧ r1 < 0xDC00 ∧ 0xDC00 ≤ r2 ∧ r2 < 0xE000 then
    (r1 - 0xD800) * 1024 + (r2 - 0xDC00) + 0x10000
  else replacement

/-- `utf16.Encode` for one rune. -/
def utf16EncodeRune (r : Rune) : List Nat :=
  if r < 0xD800 ∨ (0xE000 ≤ r ∧ r < 0x10000) then [r]
  else if 0x10000 ≤ r ∧ r ≤ 0x10FFFF then
    [0xD800 + (r - 0x10000) / 1024 % 1024, 0xDC00 + (r - 0x10000) % 1024]
  else [replacement]

end Verif.Model.Unicode
