import Verif.Model.Semioctet
import Verif.Model.SevenBit
import Verif.Model.Gsm7

/-! Model of encoding/tpdu/address.go. -/

namespace Verif.Model

/-- `tpdu.Address`, address.go:13-16.  The default value is the Go zero value. -/
structure Address where
  TOA : UInt8 := 0
  Addr : Bytes := []
  deriving DecidableEq, Repr, Inhabited

namespace Address

/-- `TonInternational`, address.go:169. -/
def TonInternational : UInt8 := 1
/-- `TonAlphanumeric`, address.go:181. -/
def TonAlphanumeric : UInt8 := 5
/-- `NpISDN`, address.go:200. -/
def NpISDN : UInt8 := 1

/-- `Address.TypeOfNumber`, address.go:154-156. -/
def TypeOfNumber (a : Address) : UInt8 := (a.TOA >>> 4) &&& 0x07

/-- `Address.NumberingPlan`, address.go:139-141. -/
def NumberingPlan (a : Address) : UInt8 := a.TOA &&& 0x0f

/-- `Address.SetTypeOfNumber`, address.go:149-151 (argument reduced to a byte: the code masks it with 7). -/
def SetTypeOfNumber (a : Address) (ton : UInt8) : Address :=
  { a with TOA := (andNot a.TOA 0x70) ||| ((ton &&& 0x7) <<< 4) }

/-- `Address.SetNumberingPlan`, address.go:144-146 (argument reduced to a byte). -/
def SetNumberingPlan (a : Address) (np : UInt8) : Address :=
  { a with TOA := (andNot a.TOA 0x0f) ||| (np &&& 0x0f) }

/-- `Address.SetNumber`, address.go:129-136. -/
def SetNumber (a : Address) (number : Bytes) : Address :=
  let number := match number with
    | 0x2b :: rest => rest
    | n => n
  let a := a.SetTypeOfNumber TonInternational
  let a := a.SetNumberingPlan NpISDN
  { a with Addr := number }

/-- `Address.Number`, address.go:119-124. -/
def Number (a : Address) : Bytes :=
  if a.TypeOfNumber = TonInternational then 0x2b :: a.Addr else a.Addr

/-- `NewAddress(FromNumber(number))`, address.go:22-41. -/
def NewFromNumber (number : Bytes) : Address :=
  let a := ({} : Address).SetNumber number
  { a with TOA := a.TOA ||| 0x80 }

/-- `NewAddress()` without options, address.go:22-30. -/
def New : Address := { TOA := 0x80, Addr := [] }

/-- `Address.MarshalBinary`, address.go:47-71. -/
def MarshalBinary (a : Address) : M Bytes :=
  if a.TypeOfNumber = TonAlphanumeric then do
    let addr ← wrapE "addr" ((Gsm7.NewEncoder []).WithoutExt.Encode a.Addr)
    let l := (addr.length * 7 + 3) / 4
    let addr := Gsm7.Pack7Bit addr 0
    return byteOf l :: a.TOA :: addr
  else do
    let addr ← wrapE "addr" (Semioctet.Encode a.Addr)
    let l := a.Addr.length
    return byteOf l :: a.TOA :: addr

/-- `Address.UnmarshalBinary`, address.go:77-116: the address and the number of bytes read.  The count
returned together with an error is not used by any caller and is not modelled; the receiver is replaced as
a whole (the code sets both fields on success). -/
def UnmarshalBinary (src : Bytes) : M (Address × Nat) :=
  if src.length < 2 then fail (newDecodeError "addr" 0 .underflow)
  else do
    let l := (← idx src 0).toNat
    let ol := (l + 1) / 2
    let toa ← idx src 1
    let ton := (toa >>> 4) &&& 0x07
    let ri : Nat := 2
    if src.length < ri + ol then fail (newDecodeError "addr" ri .underflow)
    else if ton = TonAlphanumeric then do
      let s ← slice src ri (ri + ol : Nat)
      let u := Gsm7.Unpack7Bit s 0
      let u ← if (u.length * 7 + 3) / 4 > l then slice u 0 (u.length - 1 : Int) else .ok u
      let baddr ← wrapD "addr" ri ((Gsm7.NewDecoder []).WithoutExt.Strict.Decode u)
      return (⟨toa, baddr⟩, ri + ol)
    else do
      let s ← slice src ri (ri + ol : Nat)
      let d ← Semioctet.Decode l s
      match d.digits with
      | .error e => fail (newDecodeError "addr" ri e)
      | .ok baddr =>
        if d.read ≠ ol ∨ baddr.length < l then fail (newDecodeError "addr" ri .underflow)
        else return (⟨toa, baddr⟩, ri + d.read)

end Address
end Verif.Model
