import Verif.Model.Prelude

/-! Model of encoding/bcd/bcd.go. -/

namespace Verif.Model.Bcd

/-- `bcd.Decode`, bcd.go:15-22. -/
def Decode (bcd : UInt8) : M Int :=
  let msn := bcd &&& 0x0f
  let lsn := bcd >>> 4
  if msn > 9 ∨ lsn > 9 then fail (.bcdInvalidOctet bcd)
  else .ok (msn * 10 + lsn).toNat

/-- `bcd.DecodeSigned`, bcd.go:26-37. -/
def DecodeSigned (bcd : UInt8) : M Int :=
  let msn := bcd &&& 0x07
  let lsn := bcd >>> 4
  if lsn > 9 then fail (.bcdInvalidOctet bcd)
  else
    let retval : Int := (msn * 10 + lsn).toNat
    if bcd &&& 0x08 ≠ 0 then .ok (-retval) else .ok retval

/-- `bcd.Encode`, bcd.go:43-51.  `(msn << 4) | lsn` is computed on Go ints below 256 (here: `Nat`). -/
def Encode (u : Int) : M UInt8 :=
  if u < 0 ∨ u > 99 then fail (.bcdInvalidInteger u)
  else
    let msn := (u.tmod 10).toNat
    let lsn := (u.tdiv 10).toNat
    .ok (byteOf ((msn <<< 4) ||| lsn : Nat))

/-- `bcd.EncodeSigned`, bcd.go:58-71. -/
def EncodeSigned (s : Int) : M UInt8 :=
  if s < -79 ∨ s > 79 then fail (.bcdInvalidInteger s)
  else
    let b : Nat := if s < 0 then 0x08 else 0
    let s := if s < 0 then -s else s
    let msn := (s.tmod 10).toNat
    let lsn := (s.tdiv 10).toNat
    .ok (byteOf (b ||| (msn <<< 4) ||| lsn : Nat))

end Verif.Model.Bcd
