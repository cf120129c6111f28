import Verif.Model.Address

/-! Model of encoding/pdumode/pdu.go, encoding/pdumode/smscaddress.go and of encoding/hex (standard
library, from its documentation). -/

namespace Verif.Model

namespace SMSCAddress

/-- `SMSCAddress.MarshalBinary`, smscaddress.go:27-41. -/
def MarshalBinary (a : Address) : M Bytes := do
  let addr ← wrapE "addr" (Semioctet.Encode a.Addr)
  if addr.length = 0 then return [0]
  let l := addr.length + 1
  return byteOf l :: a.TOA :: addr

/-- `SMSCAddress.UnmarshalBinary`, smscaddress.go:47-73: updated receiver and number of bytes read.  The
count returned together with an error is not used by any caller and is not modelled. -/
def UnmarshalBinary (a : Address) (src : Bytes) : M (Address × Nat) :=
  if src.length < 1 then fail (newDecodeError "length" 0 .underflow)
  else do
    let l := (← idx src 0).toNat
    if l = 0 then return (a, 1)
    if src.length < 2 then fail (newDecodeError "toa" 1 .underflow)
    else do
      let toa ← idx src 1
      let ri : Nat := 2
      let l := l - 1
      if src.length < ri + l then fail (newDecodeError "addr" ri .underflow)
      else do
        let s ← slice src ri (ri + l : Nat)
        let d ← Semioctet.Decode (l * 2) s
        match d.digits with
        | .error e => fail (newDecodeError "addr" ri e)
        | .ok baddr => return (⟨toa, baddr⟩, ri + d.read)

end SMSCAddress

namespace Hex

/-- The value of a hex digit (either case), `encoding/hex`. -/
def fromHexChar (c : UInt8) : Option UInt8 :=
  if 0x30 ≤ c ∧ c ≤ 0x39 then some (c - 0x30)
  else if 0x61 ≤ c ∧ c ≤ 0x66 then some (c - 0x61 + 10)
  else if 0x41 ≤ c ∧ c ≤ 0x46 then some (c - 0x41 + 10)
  else none

/-- `hex.DecodeString`. -/
def DecodeString : Bytes → M Bytes
  | [] => .ok []
  | [c] => match fromHexChar c with
    | none => fail (.hexInvalidByte c)
    | some _ => fail .hexOddLength
  | c :: d :: rest =>
    match fromHexChar c with
    | none => fail (.hexInvalidByte c)
    | some a => match fromHexChar d with
      | none => fail (.hexInvalidByte d)
      | some b => do
        let r ← DecodeString rest
        return ((a <<< 4) ||| b) :: r

/-- `hextable[i]`, lower case. -/
def hexDigit (i : UInt8) : UInt8 := if i < 10 then 0x30 + i else 0x61 + (i - 10)

/-- `hex.EncodeToString`. -/
def EncodeToString (b : Bytes) : Bytes := b.flatMap fun (v : UInt8) => [hexDigit (v >>> 4), hexDigit (v &&& 0x0f)]

end Hex

/-- `pdumode.PDU`, pdu.go:12-18. -/
structure PDU where
  SMSC : Address := {}
  TPDU : Bytes := []
  deriving DecidableEq, Repr

namespace PDU

/-- `PDU.UnmarshalBinary`, pdu.go:45-52. -/
def unmarshalBinary (p : PDU) (src : Bytes) : M PDU := do
  let (smsc, n) ← SMSCAddress.UnmarshalBinary p.SMSC src
  let t ← slice src n src.length
  return ⟨smsc, t⟩

/-- `pdumode.UnmarshalBinary`, pdu.go:23-31. -/
def UnmarshalBinary (src : Bytes) : M PDU := ({} : PDU).unmarshalBinary src

/-- `PDU.UnmarshalHexString`, pdu.go:55-61. -/
def unmarshalHexString (p : PDU) (s : Bytes) : M PDU := do
  let b ← Hex.DecodeString s
  p.unmarshalBinary b

/-- `pdumode.UnmarshalHexString`, pdu.go:34-42. -/
def UnmarshalHexString (s : Bytes) : M PDU := ({} : PDU).unmarshalHexString s

/-- `PDU.MarshalBinary`, pdu.go:64-71. -/
def MarshalBinary (p : PDU) : M Bytes := do
  let dst ← SMSCAddress.MarshalBinary p.SMSC
  return dst ++ p.TPDU

/-- `PDU.MarshalHexString`, pdu.go:74-80. -/
def MarshalHexString (p : PDU) : M Bytes := do
  let b ← p.MarshalBinary
  return Hex.EncodeToString b

end PDU
end Verif.Model
