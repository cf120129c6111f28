import Verif.Model.Prelude

/-! Model of encoding/semioctet/semioctet.go. -/

namespace Verif.Model.Semioctet

/-- `decodeDigits = "0123456789*#abcF"`, semioctet.go:13-15. -/
def decodeDigits : Bytes :=
  [0x30, 0x31, 0x32, 0x33, 0x34, 0x35, 0x36, 0x37, 0x38, 0x39, 0x2a, 0x23, 0x61, 0x62, 0x63, 0x46]

/-- `dst[wi] = d`, where `out = dst[:wi]` and `n = len(dst)`: panics when the buffer is full. -/
def push (n : Nat) (out : Bytes) (d : UInt8) : M Bytes :=
  if out.length < n then .ok (out ++ [d]) else panicM .index

/-- Result of `semioctet.Decode`: the digits or the error, and the number of octets read (returned in
both cases by the Go function). -/
structure DecodeResult where
  digits : Except Err Bytes
  read : Nat
  deriving DecidableEq

/-- The loop of `semioctet.Decode`, semioctet.go:27-43.  `n = len(dst)`, `out = dst[:wi]`; the remaining
input is `src[ri:]`. -/
def decodeLoop (n : Nat) : Bytes → Bytes → Nat → M DecodeResult
  | [], out, ri => .ok ⟨.ok out, ri⟩
  | o :: src, out, ri =>
    if out.length < n then do
      let d ← idx decodeDigits (o &&& 0x0f).toNat
      let out ← if d ≠ 0x46 then push n out d else .ok out
      let d ← idx decodeDigits (o >>> 4).toNat
      let ri : Nat := ri + 1
      if out.length = n ∧ d ≠ 0x46 then .ok ⟨.error .semiMissingFill, ri⟩
      else if d = 0x46 then decodeLoop n src out ri
      else do
        let out ← push n out d
        decodeLoop n src out ri
    else .ok ⟨.ok out, ri⟩

/-- `semioctet.Decode(dst, src)`, semioctet.go:24-45, with `n = len(dst)`. -/
def Decode (n : Nat) (src : Bytes) : M DecodeResult := decodeLoop n src [] 0

/-- The map `encodeDigits`, semioctet.go:47-50. -/
def encodeDigits (d : UInt8) : Option Nat :=
  if d = 0x30 then some 0 else if d = 0x31 then some 1 else if d = 0x32 then some 2
  else if d = 0x33 then some 3 else if d = 0x34 then some 4 else if d = 0x35 then some 5
  else if d = 0x36 then some 6 else if d = 0x37 then some 7 else if d = 0x38 then some 8
  else if d = 0x39 then some 9 else if d = 0x2a then some 10 else if d = 0x23 then some 11
  else if d = 0x61 then some 12 else if d = 0x62 then some 13 else if d = 0x63 then some 14
  else none

/-- The loop of `semioctet.Encode`, semioctet.go:66-84; `hi` is `some p` when a low nibble `p` is pending. -/
def encodeLoop : Bytes → Option Nat → M Bytes
  | [], none => .ok []
  | [], some p => .ok [byteOf (p ||| 0xf0 : Nat)]
  | d :: src, hi =>
    match encodeDigits d with
    | none => fail (.semiInvalidDigit d)
    | some e =>
      match hi with
      | some p => do
        let rest ← encodeLoop src none
        .ok (byteOf (p ||| (e <<< 4) : Nat) :: rest)
      | none => encodeLoop src (some e)

/-- `semioctet.Encode`, semioctet.go:57-86. -/
def Encode (src : Bytes) : M Bytes := encodeLoop src none

end Verif.Model.Semioctet
