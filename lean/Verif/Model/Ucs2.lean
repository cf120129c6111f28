import Verif.Model.Unicode

/-! Model of encoding/ucs2/ucs2.go. -/

namespace Verif.Model.Ucs2
open Unicode

/-- `binary.BigEndian.Uint16` of two bytes. -/
def be16 (h l : UInt8) : Nat := h.toNat * 256 + l.toNat

/-- Result of `ucs2.Decode`: Go returns the runes and an error together. -/
structure DecodeResult where
  runes : List Rune
  err : Option Err
  deriving DecidableEq

/-- The loop of `ucs2.Decode`, ucs2.go:28-39, on `src[ri:]`.  `ri >= len(src)-3` is "fewer than four bytes
remain".  A single left-over byte cannot occur (the length is even); the loop would stop there. -/
def decodeLoop : Bytes → DecodeResult
  | h :: l :: rest =>
    let r := be16 h l
    if isSurrogate r then
      match rest with
      | h2 :: l2 :: rest2 =>
        let d := decodeLoop rest2
        ⟨utf16DecodeRune r (be16 h2 l2) :: d.runes, d.err⟩
      | rest => ⟨[], some (.ucs2Dangling (h :: l :: rest))⟩
    else
      let d := decodeLoop rest
      ⟨r :: d.runes, d.err⟩
  | _ => ⟨[], none⟩

/-- `ucs2.Decode`, ucs2.go:19-41. -/
def Decode (src : Bytes) : DecodeResult :=
  if src.length = 0 then ⟨[], none⟩
  else if src.length % 2 = 1 then ⟨[], some .ucs2InvalidLength⟩
  else decodeLoop src

/-- `binary.BigEndian.PutUint16`. -/
def putBE16 (u : Nat) : Bytes := [UInt8.ofNat (u / 256), UInt8.ofNat (u % 256)]

/-- `ucs2.Encode`, ucs2.go:45-57. -/
def Encode (src : List Rune) : Bytes := (src.flatMap utf16EncodeRune).flatMap putBE16

end Verif.Model.Ucs2
