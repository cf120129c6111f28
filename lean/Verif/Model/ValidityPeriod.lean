import Verif.Model.Time
import Verif.Model.Float

/-! Model of encoding/tpdu/validityperiod.go.  Durations are integers in nanoseconds. -/

namespace Verif.Model

/-- `time.Second`, `time.Minute`, `time.Hour`. -/
def second : Int := 1000000000
@[inherit_doc second] def minute : Int := 60 * second
@[inherit_doc second] def hour : Int := 60 * minute

/-- `ValidityPeriodFormat` constants, validityperiod.go:171-187. -/
def VpfNotPresent : UInt8 := 0
@[inherit_doc VpfNotPresent] def VpfEnhanced : UInt8 := 1
@[inherit_doc VpfNotPresent] def VpfRelative : UInt8 := 2
@[inherit_doc VpfNotPresent] def VpfAbsolute : UInt8 := 3

/-- `EnhancedValidityPeriodFormat` constants, validityperiod.go:194-212. -/
def EvpfNotPresent : UInt8 := 0
@[inherit_doc EvpfNotPresent] def EvpfRelative : UInt8 := 1
@[inherit_doc EvpfNotPresent] def EvpfRelativeSeconds : UInt8 := 2
@[inherit_doc EvpfNotPresent] def EvpfRelativeHHMMSS : UInt8 := 3

/-- `ValidityPeriod`, validityperiod.go:15-20. -/
structure ValidityPeriod where
  Format : UInt8 := 0
  Time : GoTime := {}
  Duration : Int := 0
  EFI : UInt8 := 0
  deriving DecidableEq, Repr, Inhabited

/-- `durationToRelative`, validityperiod.go:214-231. -/
def durationToRelative (d : Int) : UInt8 :=
  if d < hour * 12 then
    let t := byteOf (d.tdiv (minute * 5))
    if t > 1 then t - 1 else t
  else if d < hour * 24 then 119 + byteOf (d.tdiv (minute * 30))
  else if d < hour * 24 * 30 then 166 + byteOf (d.tdiv (hour * 24))
  else if d < hour * 24 * 7 * 63 then 192 + byteOf (d.tdiv (hour * 24 * 7))
  else 255

/-- `relativeToDuration`, validityperiod.go:233-244 (`t+1`, `t-119`, ... are byte arithmetic). -/
def relativeToDuration (t : UInt8) : Int :=
  if t < 144 then minute * 5 * (t + 1).toNat
  else if t < 168 then minute * 30 * (t - 119).toNat
  else if t < 197 then hour * 24 * (t - 166).toNat
  else hour * 24 * 7 * (t - 192).toNat

namespace ValidityPeriod

/-- `SetAbsolute`, validityperiod.go:28-33. -/
def SetAbsolute (v : ValidityPeriod) (t : GoTime) : ValidityPeriod :=
  { v with Format := VpfAbsolute, Duration := 0, Time := t, EFI := 0 }
/-- `SetRelative`, validityperiod.go:36-41. -/
def SetRelative (v : ValidityPeriod) (d : Int) : ValidityPeriod :=
  { v with Format := VpfRelative, Duration := d, Time := {}, EFI := 0 }
/-- `SetEnhanced`, validityperiod.go:45-50. -/
def SetEnhanced (v : ValidityPeriod) (d : Int) (efi : UInt8) : ValidityPeriod :=
  { v with Format := VpfEnhanced, Duration := d, Time := {}, EFI := efi }

/-- `ValidityPeriod.MarshalBinary`, validityperiod.go:53-92.  `int(d.Hours())` etc. round to
double precision, see `Float.whole`. -/
def MarshalBinary (v : ValidityPeriod) : M Bytes :=
  if v.Format = VpfAbsolute then Timestamp.MarshalBinary v.Time
  else if v.Format = VpfEnhanced then
    let evpf := v.EFI &&& 0x07
    if evpf > EvpfRelativeHHMMSS then fail (encodeError "fi" .invalid)
    else if evpf = EvpfRelative then
      .ok [v.EFI, durationToRelative v.Duration, 0, 0, 0, 0, 0]
    else if evpf = EvpfRelativeSeconds then
      let secs := v.Duration.tdiv second
      let secs := if secs > 255 then 255 else secs
      .ok [v.EFI, byteOf secs, 0, 0, 0, 0, 0]
    else if evpf = EvpfRelativeHHMMSS then do
      let h ← wrapE "enhanced" (Bcd.Encode ((Float.whole v.Duration hour).tmod 100))
      let m ← wrapE "enhanced" (Bcd.Encode ((Float.whole v.Duration minute).tmod 60))
      let s ← wrapE "enhanced" (Bcd.Encode ((Float.whole v.Duration second).tmod 60))
      return [v.EFI, h, m, s, 0, 0, 0]
    else .ok [v.EFI, 0, 0, 0, 0, 0, 0]
  else if v.Format = VpfRelative then .ok [durationToRelative v.Duration]
  else if v.Format = VpfNotPresent then .ok []
  else fail (encodeError "vpf" .invalid)

/-- The loop checking that the unused octets are zero, validityperiod.go:158-162. -/
def checkZero (src : Bytes) : Nat → Nat → M Unit
  | _, 0 => .ok ()
  | i, fuel + 1 => do
    if i < 7 then
      let b ← idx src i
      if b ≠ 0 then fail (newDecodeError "enhanced" i .nonZero)
      else checkZero src (i + 1) fuel
    else .ok ()

/-- `unmarshalVPEnhanced`, validityperiod.go:128-166.  The loop of :158 runs at most 6 times. -/
def unmarshalVPEnhanced (v : ValidityPeriod) (src : Bytes) : M (ValidityPeriod × Nat) :=
  if src.length < 7 then fail .underflow
  else do
    let efi ← idx src 0
    let evpf := efi &&& 0x7
    let (d, used) ← (
      if evpf = EvpfNotPresent then .ok (0, 0)
      else if evpf = EvpfRelative then do
        let b ← idx src 1
        return (relativeToDuration b, 1)
      else if evpf = EvpfRelativeSeconds then do
        let b ← idx src 1
        return (second * (b.toNat : Int), 1)
      else if evpf = EvpfRelativeHHMMSS then do
        let h ← wrapD "enhanced" 1 (Bcd.Decode (← idx src 1))
        let m ← wrapD "enhanced" 1 (Bcd.Decode (← idx src 2))
        let s ← wrapD "enhanced" 1 (Bcd.Decode (← idx src 3))
        return (h * hour + m * minute + s * second, 3)
      else fail (newDecodeError "enhanced" 0 .invalid) : M (Int × Nat))
    checkZero src (used + 1) 6
    return ({ v with EFI := efi, Duration := d }, 7)

/-- `ValidityPeriod.UnmarshalBinary`, validityperiod.go:98-126: updated receiver and count of bytes read. -/
def UnmarshalBinary (v : ValidityPeriod) (src : Bytes) (vpf : UInt8) : M (ValidityPeriod × Nat) :=
  let v := { v with Format := VpfNotPresent }
  if vpf = VpfAbsolute then do
    let t ← Timestamp.UnmarshalBinary src
    return ({ v with Time := t, Format := vpf }, 7)
  else if vpf = VpfEnhanced then do
    let (v, used) ← unmarshalVPEnhanced v src
    return ({ v with Format := vpf }, used)
  else if vpf = VpfRelative then
    if src.length < 1 then fail .underflow
    else do
      let b ← idx src 0
      return ({ v with Duration := relativeToDuration b, Format := vpf }, 1)
  else if vpf = VpfNotPresent then .ok (v, 0)
  else fail (newDecodeError "vpf" 0 .invalid)

end ValidityPeriod
end Verif.Model
