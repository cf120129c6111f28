import Verif.Model.Charset
import Verif.Model.Unicode
import Verif.Model.Print

/-! Model of cmd/charsets/charsets.go: what it prints, as octets.  Negative runes are not modelled. -/

namespace Verif.Model.Charsets
open Unicode

/-- `charsetName`, charsets.go:13-28. -/
def charsetName : List Bytes :=
  [b!"Basic (default)", b!"Turkish", b!"Spanish", b!"Portuguese", b!"Bengali", b!"Gujaranti", b!"Hindi", b!"Kannada",
   b!"Malayalam", b!"Oriya", b!"Punjabi", b!"Tamil", b!"Telugu", b!"Urdu"]

/-- A number in lower case hex (`%x`). -/
def hexAux : Nat → Nat → Bytes
  | 0, n => [hexDig (n % 16)]
  | fuel + 1, n => if n < 16 then [hexDig n] else hexAux fuel (n / 16) ++ [hexDig (n % 16)]

@[inherit_doc hexAux] def hexNat (n : Nat) : Bytes := hexAux n n

/-- `%04x`. -/
def hex04 (n : Nat) : Bytes := List.replicate (4 - (hexNat n).length) 0x30 ++ hexNat n

/-- `specials`, charsets.go:43-50. -/
def specials : List (Nat × Bytes) :=
  [(0x0a, b!"LF"), (0x0d, b!"CR"), (0x0c, b!"FF"), (0x20, b!"SP"), (0x1b, b!"ESC"), (0x20ac, [0x20, 0xe2, 0x82, 0xac])]

/-- `%3s`: spaces in front up to a width of three characters. -/
def width3 (s : Bytes) : Bytes := List.replicate (3 - (decodeRunes s).length) 0x20 ++ s

/-- What is printed for one septet, charsets.go:60-70. -/
def cell (m : Charset.Decoder) (k : UInt8) : Bytes :=
  match m.lookup k with
  | some v =>
    match specials.lookup v with
    | some s => width3 s ++ b!"  "
    | none => if v ≥ 0x400 then hex04 v ++ b!" " else b!"  " ++ encodeRune v ++ b!"  "
  | none => b!"     "

/-- One row, charsets.go:57-72. -/
def row (m : Charset.Decoder) (r : Nat) : Bytes :=
  b!"0x_" ++ hexNat r ++ b!": " ++ (List.range 8).flatMap (fun c => cell m (byteOf ((c * 0x10 + r : Nat) : Int))) ++ b!"\n"

/-- The line above the rows, charsets.go:51-55. -/
def heading : Bytes := b!"      " ++ (List.range 8).flatMap (fun c => b!"0x" ++ decimal c ++ b!"_ ") ++ b!"\n"

/-- `Display`, charsets.go:42-74. -/
def Display (m : Charset.Decoder) : Bytes := heading ++ (List.range 16).flatMap (row m)

/-- The body of the loop of `main`, charsets.go:32-37. -/
def both (nli : Nat) : M Bytes := do
  let name ← idx charsetName nli
  return name ++ b!" Locking (NLI=" ++ decimal nli ++ b!")\n" ++ Display (Charset.NewDecoder nli) ++ b!"\n" ++
    (name ++ b!" Shift (NLI=" ++ decimal nli ++ b!")\n" ++ Display (Charset.NewExtDecoder nli) ++ b!"\n")

/-- `main`, charsets.go:30-39: `nli` runs from `charset.Default` (0) to `charset.Urdu` (13). -/
def main : M Bytes := do
  let parts ← (List.range 14).mapM both
  return parts.flatten

end Verif.Model.Charsets
