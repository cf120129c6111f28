import Verif.Model.CounterPrint
import Verif.Model.Charsets

/-! Model of the `Error` methods: the text of each error, as octets. -/

namespace Verif.Model
open Unicode Charsets

/-- An upper case hex digit from a lower case one. -/
def upDig (c : UInt8) : UInt8 := if c ≥ 0x61 then c - 32 else c

/-- The digits of `%U`: upper case hex, at least four. -/
def hexU (n : Nat) : Bytes := (hex04 n).map upDig

/-- `%x` of each octet of `%#v` of a `[]byte`. -/
def goBytes : Bytes → Bytes
  | [] => b!"}"
  | [b] => b!"0x" ++ hexNat b.toNat ++ b!"}"
  | b :: bs => b!"0x" ++ hexNat b.toNat ++ b!", " ++ goBytes bs

/-- `strconv.IsPrint` of a rune below 0x100. -/
def isPrintByte (b : UInt8) : Bool := (0x20 ≤ b ∧ b < 0x7f) ∨ (0xa1 ≤ b ∧ b ≠ 0xad)

/-- What follows the code point in `%#U`. -/
def quoted (b : UInt8) : Bytes := if isPrintByte b then b!" '" ++ encodeRune b.toNat ++ b!"'" else []

/-- The text of each error, `Error`: tpdu/error.go:56-95, sms error.go:11-29, bcd.go:79-89, semioctet.go:92-100, gsm7.go:251-260,
ucs2.go:63-70, and that of the errors of packages io and encoding/hex which the code passes on.  `%c` of a rune writes its UTF-8;
runes are not negative (they come from ranging over a string).  A nil `[]byte` would be shown as `[]byte(nil)`, but `Decode` of
package ucs2 always gives two octets.  Field names are ASCII. -/
def Err.Error : Err → Bytes
  | .underflow => b!"underflow"
  | .overlength => b!"overlength"
  | .invalid => b!"invalid"
  | .missing => b!"missing"
  | .nonZero => b!"non-zero fill"
  | .oddUCS2Length => b!"odd UCS2 length"
  | .unsupportedSmsType st => b!"unsupported SMS type: 0x" ++ hexNat st.toNat
  | .bcdInvalidOctet b => b!"bcd: invalid octet: 0x" ++ hex02 b
  | .bcdInvalidInteger i => b!"bcd: invalid integer: " ++ SmsCounter.showInt i
  | .semiInvalidDigit b => b!"semioctet: invalid digit: '" ++ (encodeRune b.toNat ++ b!"' - 0x" ++ hexNat b.toNat)
  | .semiMissingFill => b!"semioctet: last src octet missing expected fill"
  | .gsm7InvalidSeptet b => b!"gsm7: invalid septet 0x" ++ hex02 b
  | .gsm7InvalidUTF8 r => b!"gsm7: invalid utf8 '" ++ (encodeRune r ++ b!"' (U+" ++ hexU r ++ b!")")
  | .ucs2Dangling bs => b!"ucs2: dangling surrogate: []byte{" ++ goBytes bs
  | .ucs2InvalidLength => b!"ucs2: length must be even"
  | .decode f o e => b!"tpdu: error decoding " ++ (SmsCounter.octets f ++ b!" at octet " ++ decimal o ++ b!": " ++ e.Error)
  | .encode f e => b!"tpdu: error encoding " ++ (SmsCounter.octets f ++ b!": " ++ e.Error)
  | .closed => b!"closed"
  | .dcsConflict => b!"DCS conflict"
  | .duplicateSegment => b!"duplicate segment"
  | .reassemblyInconsistency => b!"reassembly inconsistency"
  | .eof => b!"EOF"
  | .hexInvalidByte b => b!"encoding/hex: invalid byte: U+" ++ (hexU b.toNat ++ quoted b)
  | .hexOddLength => b!"encoding/hex: odd length hex string"

end Verif.Model
