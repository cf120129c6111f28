import Verif.Model.Address
import Verif.Model.ValidityPeriod
import Verif.Model.UserData

/-! Model of encoding/tpdu/tpdu.go (except segmentation, see `Model/Segment.lean`),
encoding/tpdu/firstoctet.go and encoding/tpdu/options.go. -/

namespace Verif.Model

namespace FirstOctet

/-- Bit masks, firstoctet.go:74-128. -/
def FoMTIMask : UInt8 := 0x3
@[inherit_doc FoMTIMask] def FoVPFMask : UInt8 := 0x18
@[inherit_doc FoMTIMask] def FoUDHI : UInt8 := 0x40

/-- `FirstOctet.MTI`, firstoctet.go:21-23. -/
def MTI (f : UInt8) : UInt8 := f &&& FoMTIMask
/-- `FirstOctet.VPF`, firstoctet.go:51-53. -/
def VPF (f : UInt8) : UInt8 := (f &&& FoVPFMask) >>> 3
/-- `FirstOctet.UDHI`, firstoctet.go:70-72. -/
def UDHI (f : UInt8) : Bool := f &&& FoUDHI ≠ 0
/-- `FirstOctet.WithMTI`, firstoctet.go:56-60 (argument as `byte(mti)`). -/
def WithMTI (f mti : UInt8) : UInt8 := (andNot f FoMTIMask) ||| mti
/-- `FirstOctet.WithVPF`, firstoctet.go:63-67. -/
def WithVPF (f vpf : UInt8) : UInt8 := (andNot f FoVPFMask) ||| (vpf <<< 3)

end FirstOctet

/-- `tpdu.TPDU`, tpdu.go:17-113.  Defaults are the Go zero values. -/
structure TPDU where
  Direction : Int := 0
  FirstOctet : UInt8 := 0
  OA : Address := {}
  FCS : UInt8 := 0
  MR : UInt8 := 0
  CT : UInt8 := 0
  MN : UInt8 := 0
  DA : Address := {}
  RA : Address := {}
  PI : UInt8 := 0
  SCTS : GoTime := {}
  DT : GoTime := {}
  ST : UInt8 := 0
  PID : UInt8 := 0
  DCS : UInt8 := 0
  VP : ValidityPeriod := {}
  UDH : Model.UDH := []
  UD : Bytes := []
  deriving DecidableEq, Repr, Inhabited

/-- `MT`, `MO`, tpdu.go:1018-1024. -/
def MT : Int := 0
@[inherit_doc MT] def MO : Int := 1

/-- `SmsType` constants, tpdu.go:1035-1053. -/
def SmsDeliver : UInt8 := 0
@[inherit_doc SmsDeliver] def SmsDeliverReport : UInt8 := 1
@[inherit_doc SmsDeliver] def SmsSubmitReport : UInt8 := 2
@[inherit_doc SmsDeliver] def SmsSubmit : UInt8 := 3
@[inherit_doc SmsDeliver] def SmsStatusReport : UInt8 := 4
@[inherit_doc SmsDeliver] def SmsCommand : UInt8 := 5

/-- `smsType`, tpdu.go:1089-1091. -/
def smsType (mt : UInt8) (dir : Int) : UInt8 := (mt <<< 1) ||| byteOf dir

/-- `SmsType.String`, tpdu.go:1065-1082. -/
def smsTypeString (st : UInt8) : String :=
  if st = SmsDeliver then "SmsDeliver"
  else if st = SmsDeliverReport then "SmsDeliverReport"
  else if st = SmsSubmitReport then "SmsSubmitReport"
  else if st = SmsSubmit then "SmsSubmit"
  else if st = SmsStatusReport then "SmsStatusReport"
  else if st = SmsCommand then "SmsCommand"
  else "Unknown"

/-- `decode7Bit`, tpdu.go:897-918. -/
def decode7Bit (sml udhl : Nat) (src : Bytes) : M Bytes :=
  let fillBits : Nat := if udhl > 0 then (if udhl % 7 ≠ 0 then 7 - udhl % 7 else 0) else 0
  let sml : Int := if udhl > 0 then (sml : Int) - ((udhl * 8 + fillBits) / 7 : Nat) else sml
  let sm := Gsm7.Unpack7Bit src fillBits
  if (sm.length : Int) < sml then fail .underflow
  else if (sm.length : Int) > sml then do
    if (sm.length : Int) > sml + 1 then fail .overlength
    else
      let b ← idx sm sml
      if b ≠ 0 then fail .overlength
      else slice sm 0 sml
  else .ok sm

namespace TPDU

/-- `TPDU.Alphabet`, tpdu.go:140-142. -/
def Alphabet (t : TPDU) : Model.Alphabet × Option Err := DCS.Alphabet t.DCS

/-- `TPDU.ConcatInfo`, tpdu.go:146-148. -/
def ConcatInfo (t : TPDU) : Option UDH.Concat := UDH.ConcatInfo t.UDH

/-- `TPDU.SmsType`, tpdu.go:299-301. -/
def SmsType (t : TPDU) : UInt8 := smsType (FirstOctet.MTI t.FirstOctet) t.Direction

/-- `TPDU.SetSmsType`, tpdu.go:304-311, with `SmsType.MTI`/`Direction`, tpdu.go:1056-1063. -/
def SetSmsType (t : TPDU) (st : Int) : M TPDU :=
  if st < 0 ∨ st > 5 then fail .invalid
  else .ok { t with
    Direction := st % 2
    FirstOctet := FirstOctet.WithMTI t.FirstOctet (byteOf (st / 2)) }

/-- `TPDU.SetDCS`, tpdu.go:258-261. -/
def SetDCS (t : TPDU) (dcs : UInt8) : TPDU := { t with PI := t.PI ||| PI.PiDCS, DCS := dcs }

/-- `TPDU.SetPID`, tpdu.go:264-267. -/
def SetPID (t : TPDU) (pid : UInt8) : TPDU := { t with PI := t.PI ||| PI.PiPID, PID := pid }

/-- `TPDU.SetVP`, tpdu.go:271-275. -/
def SetVP (t : TPDU) (vp : ValidityPeriod) : TPDU :=
  { t with
    FirstOctet := (andNot t.FirstOctet FirstOctet.FoVPFMask) ||| ((vp.Format <<< 3) &&& FirstOctet.FoVPFMask)
    VP := vp }

/-- `TPDU.SetUD`, tpdu.go:278-285; `none` is a nil slice. -/
def SetUD (t : TPDU) (ud : Option Bytes) : TPDU :=
  match ud with
  | none => { t with UD := [], PI := (andNot t.PI PI.PiUDL) }
  | some ud => { t with UD := ud, PI := t.PI ||| PI.PiUDL }

/-- `TPDU.SetUDH`, tpdu.go:288-296; `none` is a nil slice. -/
def SetUDH (t : TPDU) (udh : Option Model.UDH) : TPDU :=
  match udh with
  | none => { t with UDH := [], FirstOctet := (andNot t.FirstOctet FirstOctet.FoUDHI) }
  | some udh => { t with
      UDH := udh, PI := t.PI ||| PI.PiUDL, FirstOctet := t.FirstOctet ||| FirstOctet.FoUDHI }

/-- `TPDU.UDHI`, tpdu.go:369-371. -/
def UDHI (t : TPDU) : Bool := FirstOctet.UDHI t.FirstOctet

/-- `TPDU.UDBlockSize`, tpdu.go:319-362. `bs &^ 1` on an int is `bs - bs % 2`. -/
def UDBlockSize (t : TPDU) : Int :=
  let st := t.SmsType
  let bs : Int :=
    if st = SmsSubmit ∨ st = SmsDeliver then 140
    else if st = SmsCommand then 146
    else if st = SmsSubmitReport then (if t.FCS = 0 then 152 else 151)
    else if st = SmsDeliverReport then (if t.FCS = 0 then 159 else 158)
    else if st = SmsStatusReport then 131
    else 0
  let alpha := t.Alphabet.1
  let udhl := t.UDH.UDHL
  if alpha = .a7Bit then
    let bs := (bs * 8).tdiv 7
    if udhl = 0 then bs
    else bs - (((udhl + 1) * 8 + 6) / 7 : Nat)
  else
    let bs := if udhl > 0 then bs - (udhl + 1 : Nat) else bs
    if alpha = .ucs2 then bs - bs % 2 else bs

/-- `TPDU.encodeUserData`, tpdu.go:928-967. -/
def encodeUserData (t : TPDU) : M Bytes :=
  let udh := t.UDH.MarshalBinary
  match t.Alphabet with
  | (_, some e) => fail (encodeError "alphabet" e)
  | (alphabet, none) =>
    if alphabet = .a7Bit then
      let fillBits := if udh.length % 7 ≠ 0 then 7 - udh.length % 7 else 0
      let ud := Gsm7.Pack7Bit t.UD fillBits
      let udl := if t.UD.length > 0 then t.UD.length + (udh.length * 8 + fillBits) / 7
                 else (udh.length * 8) / 7
      .ok (byteOf udl :: udh ++ ud)
    else if alphabet = .ucs2 ∧ t.UD.length % 2 = 1 then fail (encodeError "sm" .oddUCS2Length)
    else
      let udl := t.UD.length + udh.length
      .ok (byteOf udl :: udh ++ t.UD)

/-- `TPDU.decodeUserData`, tpdu.go:833-891.  `DCS.Alphabet` never returns `reserved`, so the final switch
has three cases. -/
def decodeUserData (t : TPDU) (src : Bytes) : M TPDU :=
  if src.length < 1 then fail (newDecodeError "udl" 0 .underflow)
  else do
    let udl := (← idx src 0).toNat
    if udl = 0 then return t
    let ri : Nat := 1
    match t.Alphabet with
    | (_, some e) => fail (newDecodeError "alphabet" ri e)
    | (alphabet, none) =>
      let sml7 := if alphabet = .a7Bit then udl else 0
      let udl := if alphabet = .a7Bit then (sml7 * 7 + 7) / 8 else udl
      if src.length < ri + udl then fail (newDecodeError "sm" ri .underflow)
      else if src.length > ri + udl then fail (newDecodeError "ud" ri .overlength)
      else do
        let (udh, udhl) ← (
          if t.UDHI then do
            let s ← slice src ri src.length
            wrapD "udh" ri (UDH.UnmarshalBinary s)
          else .ok ([], 0) : M (Model.UDH × Nat))
        let ri : Nat := ri + udhl
        if ri = src.length then return { t with UDH := udh }
        let s ← slice src ri src.length
        if alphabet = .a7Bit then
          let sm ← wrapD "sm" ri (decode7Bit sml7 udhl s)
          return { t with UD := sm, UDH := udh }
        else if alphabet = .ucs2 ∧ s.length % 2 = 1 then fail (newDecodeError "sm" ri .oddUCS2Length)
        else return { t with UD := s, UDH := udh }

/-- `marshalCommand`, tpdu.go:403-416. -/
def marshalCommand (t : TPDU) : M Bytes := do
  let da ← wrapE "da" t.DA.MarshalBinary
  return [t.FirstOctet, t.MR, t.PID, t.CT, t.MN] ++ da ++ [byteOf t.UD.length] ++ t.UD

/-- `marshalDeliver`, tpdu.go:418-439. -/
def marshalDeliver (t : TPDU) : M Bytes := do
  let oa ← wrapE "oa" t.OA.MarshalBinary
  let scts ← wrapE "scts" (Timestamp.MarshalBinary t.SCTS)
  let ud ← wrapE "ud" t.encodeUserData
  return [t.FirstOctet] ++ oa ++ [t.PID, t.DCS] ++ scts ++ ud

/-- The optional PID and DCS octets, e.g. tpdu.go:457-462. -/
def piOctets (t : TPDU) : Bytes :=
  (if PI.PID t.PI then [t.PID] else []) ++ (if PI.DCS t.PI then [t.DCS] else [])

/-- `if t.PI.UDL() { ud, err = t.encodeUserData() }`, e.g. tpdu.go:443-449. -/
def optUserData (t : TPDU) : M Bytes :=
  if PI.UDL t.PI then wrapE "ud" t.encodeUserData else .ok []

/-- `marshalDeliverReport`, tpdu.go:441-465. -/
def marshalDeliverReport (t : TPDU) : M Bytes := do
  let ud ← t.optUserData
  return [t.FirstOctet] ++ (if t.FCS ≠ 0 then [t.FCS] else []) ++ [t.PI] ++ t.piOctets ++ ud

/-- `marshalStatusReport`, tpdu.go:467-506. -/
def marshalStatusReport (t : TPDU) : M Bytes := do
  let ra ← wrapE "ra" t.RA.MarshalBinary
  let scts ← wrapE "scts" (Timestamp.MarshalBinary t.SCTS)
  let dt ← wrapE "dt" (Timestamp.MarshalBinary t.DT)
  let ud ← t.optUserData
  let b := [t.FirstOctet, t.MR] ++ ra ++ scts ++ dt ++ [t.ST]
  if t.PI = 0 then return b
  return b ++ [t.PI] ++ t.piOctets ++ ud

/-- `marshalSubmit`, tpdu.go:508-532. -/
def marshalSubmit (t : TPDU) : M Bytes := do
  let da ← wrapE "da" t.DA.MarshalBinary
  let ud ← wrapE "ud" t.encodeUserData
  let vp ← if t.VP.Format ≠ VpfNotPresent then wrapE "vp" t.VP.MarshalBinary else .ok []
  return [t.FirstOctet, t.MR] ++ da ++ [t.PID, t.DCS] ++ vp ++ ud

/-- `marshalSubmitReport`, tpdu.go:534-562. -/
def marshalSubmitReport (t : TPDU) : M Bytes := do
  let scts ← wrapE "scts" (Timestamp.MarshalBinary t.SCTS)
  let ud ← t.optUserData
  return [t.FirstOctet] ++ (if t.FCS ≠ 0 then [t.FCS] else []) ++ [t.PI] ++ scts ++ t.piOctets ++ ud

/-- `TPDU.MarshalBinary`, tpdu.go:379-401. -/
def MarshalBinary (t : TPDU) : M Bytes :=
  let st := t.SmsType
  if st = SmsDeliver then wrapE (smsTypeString st) t.marshalDeliver
  else if st = SmsDeliverReport then wrapE (smsTypeString st) t.marshalDeliverReport
  else if st = SmsSubmitReport then wrapE (smsTypeString st) t.marshalSubmitReport
  else if st = SmsSubmit then wrapE (smsTypeString st) t.marshalSubmit
  else if st = SmsStatusReport then wrapE (smsTypeString st) t.marshalStatusReport
  else if st = SmsCommand then wrapE (smsTypeString st) t.marshalCommand
  else fail (.unsupportedSmsType st)

/-- `(*bytes.Buffer).ReadByte` on the unread part of the buffer: the byte and what remains. -/
def readByte (b : Bytes) : M (UInt8 × Bytes) :=
  match b with
  | [] => fail .eof
  | x :: b => .ok (x, b)

/-- `unmarshalCommand`, tpdu.go:597-626.  The buffer is represented by its unread part `b`, so
`len(src)-b.Len()` is `src.length - b.length`. -/
def unmarshalCommand (t : TPDU) (src : Bytes) : M TPDU := do
  let b := src
  let (mr, b) ← wrapD "mr" (src.length - b.length) (readByte b)
  let (pid, b) ← wrapD "pid" (src.length - b.length) (readByte b)
  let (ct, b) ← wrapD "ct" (src.length - b.length) (readByte b)
  let (mn, b) ← wrapD "mn" (src.length - b.length) (readByte b)
  let (da, n) ← wrapD "da" (src.length - b.length) (Address.UnmarshalBinary b)
  let b := b.drop n
  let t := { t with MR := mr, PID := pid, CT := ct, MN := mn, DA := da, DCS := DCS.Dcs8BitData }
  wrapD "ud" (src.length - b.length) (t.decodeUserData b)

/-- `unmarshalDeliver`, tpdu.go:628-653. -/
def unmarshalDeliver (t : TPDU) (src : Bytes) : M TPDU := do
  let (oa, n) ← wrapD "oa" 0 (Address.UnmarshalBinary src)
  let b ← slice src n src.length
  let (pid, b) ← wrapD "pid" (src.length - b.length) (readByte b)
  let (dcs, b) ← wrapD "dcs" (src.length - b.length) (readByte b)
  let scts ← wrapD "scts" (src.length - b.length) (Timestamp.UnmarshalBinary b)
  let b := b.drop 7
  let t := { t with OA := oa, PID := pid, DCS := dcs, SCTS := scts }
  wrapD "ud" (src.length - b.length) (t.decodeUserData b)

/-- `if len(src) <= ri { return NewDecodeError(f, ri, ErrUnderflow) }; ... = src[ri]; ri++`. -/
def readAt (f : String) (src : Bytes) (ri : Nat) : M UInt8 :=
  if src.length ≤ ri then fail (newDecodeError f ri .underflow)
  else idx src ri

/-- The optional fields announced by `t.PI`, starting at `ri`: tpdu.go:667-686 (deliver report),
:733-752 (status report), :809-828 (submit report) are identical. -/
def unmarshalOptionals (t : TPDU) (src : Bytes) (ri : Nat) : M TPDU := do
  let (t, ri) ← (
    if PI.PID t.PI then do
      let b ← readAt "pid" src ri
      return ({ t with PID := b }, ri + 1)
    else .ok (t, ri) : M (TPDU × Nat))
  let (t, ri) ← (
    if PI.DCS t.PI then do
      let b ← readAt "dcs" src ri
      return ({ t with DCS := b }, ri + 1)
    else .ok (t, ri) : M (TPDU × Nat))
  if PI.UDL t.PI then do
    let s ← slice src ri src.length
    wrapD "ud" ri (t.decodeUserData s)
  else .ok t

/-- `unmarshalDeliverReport`, tpdu.go:655-688. -/
def unmarshalDeliverReport (t : TPDU) (src : Bytes) : M TPDU := do
  let fcs ← readAt "fcs" src 0
  let pi ← readAt "pi" src 1
  unmarshalOptionals { t with FCS := fcs, PI := pi } src 2

/-- `unmarshalStatusReport` and `unmarshalSROptionals`, tpdu.go:690-754. -/
def unmarshalStatusReport (t : TPDU) (src : Bytes) : M TPDU := do
  let mr ← readAt "mr" src 0
  let ri : Nat := 1
  let s ← slice src ri src.length
  let (ra, n) ← wrapD "ra" ri (Address.UnmarshalBinary s)
  let ri : Nat := ri + n
  if src.length < ri + 7 then fail (newDecodeError "scts" ri .underflow)
  else do
    let s ← slice src ri (ri + 7 : Nat)
    let scts ← wrapD "scts" ri (Timestamp.UnmarshalBinary s)
    let ri : Nat := ri + 7
    if src.length < ri + 7 then fail (newDecodeError "dt" ri .underflow)
    else do
      let s ← slice src ri (ri + 7 : Nat)
      let dt ← wrapD "dt" ri (Timestamp.UnmarshalBinary s)
      let ri : Nat := ri + 7
      let st ← readAt "st" src ri
      let ri : Nat := ri + 1
      let t := { t with MR := mr, RA := ra, SCTS := scts, DT := dt, ST := st }
      if src.length > ri then do
        let pi ← idx src ri
        unmarshalOptionals { t with PI := pi } src (ri + 1)
      else .ok t

/-- `unmarshalSubmit`, tpdu.go:756-787. -/
def unmarshalSubmit (t : TPDU) (src : Bytes) : M TPDU := do
  let mr ← readAt "mr" src 0
  let ri : Nat := 1
  let s ← slice src ri src.length
  let (da, n) ← wrapD "da" ri (Address.UnmarshalBinary s)
  let ri : Nat := ri + n
  let pid ← readAt "pid" src ri
  let ri : Nat := ri + 1
  let dcs ← readAt "dcs" src ri
  let ri : Nat := ri + 1
  let s ← slice src ri src.length
  let (vp, n) ← wrapD "vp" ri (t.VP.UnmarshalBinary s (FirstOctet.VPF t.FirstOctet))
  let ri : Nat := ri + n
  let t := { t with MR := mr, DA := da, PID := pid, DCS := dcs, VP := vp }
  let s ← slice src ri src.length
  wrapD "ud" ri (t.decodeUserData s)

/-- `unmarshalSubmitReport`, tpdu.go:789-830. -/
def unmarshalSubmitReport (t : TPDU) (src : Bytes) : M TPDU := do
  let fcs ← readAt "fcs" src 0
  let pi ← readAt "pi" src 1
  let ri : Nat := 2
  if src.length < ri + 7 then fail (newDecodeError "scts" ri .underflow)
  else do
    let s ← slice src ri (ri + 7 : Nat)
    let scts ← wrapD "scts" ri (Timestamp.UnmarshalBinary s)
    unmarshalOptionals { t with FCS := fcs, PI := pi, SCTS := scts } src (ri + 7)

/-- `TPDU.UnmarshalBinary`, tpdu.go:568-595.  On error the (partially updated) receiver is
dropped; see `Model/Into.lean` for it. -/
def UnmarshalBinary (t : TPDU) (src : Bytes) : M TPDU :=
  if src.length < 1 then fail (newDecodeError "tpdu.firstOctet" 0 .underflow)
  else do
    let fo ← idx src 0
    let t := { t with FirstOctet := fo }
    let st := t.SmsType
    let body ← slice src 1 src.length
    if st = SmsDeliver then wrapD (smsTypeString st) 1 (t.unmarshalDeliver body)
    else if st = SmsDeliverReport then wrapD (smsTypeString st) 1 (t.unmarshalDeliverReport body)
    else if st = SmsSubmitReport then wrapD (smsTypeString st) 1 (t.unmarshalSubmitReport body)
    else if st = SmsSubmit then wrapD (smsTypeString st) 1 (t.unmarshalSubmit body)
    else if st = SmsStatusReport then wrapD (smsTypeString st) 1 (t.unmarshalStatusReport body)
    else if st = SmsCommand then wrapD (smsTypeString st) 1 (t.unmarshalCommand body)
    else fail (newDecodeError "tpdu.firstOctet" 0 (.unsupportedSmsType st))

end TPDU

/-- The `tpdu.Option`s provided by the package: tpdu.go:997-1000, :1027-1030, :1085-1087, dcs.go:58-61,
options.go:13-58. -/
inductive TpduOption where
  | messageType (mti : UInt8)
  | direction (d : Int)
  | smsType (st : Int)
  | dcs (d : UInt8)
  | da (a : Address)
  | oa (a : Address)
  | udh (u : UDH)
  deriving DecidableEq, Repr

/-- `ApplyTPDUOption` of each option. -/
def TpduOption.apply (t : TPDU) : TpduOption → M TPDU
  | .messageType mti => .ok { t with FirstOctet := FirstOctet.WithMTI t.FirstOctet mti }
  | .direction d => .ok { t with Direction := d }
  | .smsType st => t.SetSmsType st
  | .dcs d => .ok (t.SetDCS d)
  | .da a => .ok { t with DA := a }
  | .oa a => .ok { t with OA := a }
  | .udh u => .ok { t with UDH := u }

/-- `tpdu.New`, tpdu.go:116-125. -/
def TPDU.New (options : List TpduOption) : M TPDU :=
  options.foldlM TpduOption.apply { OA := Address.New, DA := Address.New, RA := Address.New }

/-- `tpdu.NewDeliver`, tpdu.go:128-131. -/
def TPDU.NewDeliver (options : List TpduOption) : M TPDU := TPDU.New (.smsType 0 :: options)

/-- `tpdu.NewSubmit`, tpdu.go:134-137. -/
def TPDU.NewSubmit (options : List TpduOption) : M TPDU := TPDU.New (.smsType 3 :: options)

end Verif.Model
