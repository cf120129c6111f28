import Verif.Model.Tpdu

/-!
Model of what `TPDU.UnmarshalBinary` leaves in its receiver when it fails (tpdu.go:568-891).  The functions of
`Model/Tpdu.lean` drop the receiver on error; here each assignment to a field happens where it does in the code.
-/

namespace Verif.Model

/-- Code that assigns to the fields of a TPDU and may fail: the outcome, and the TPDU afterwards. -/
def Into (α : Type) : Type := TPDU → Except Fault α × TPDU

namespace Into

/-- Returning a value. -/
def ret {α : Type} (a : α) : Into α := fun t => (.ok a, t)

/-- One statement after the other; an error ends the function. -/
def seq {α β : Type} (m : Into α) (f : α → Into β) : Into β := fun t =>
  match m t with
  | (.ok a, t) => f a t
  | (.error e, t) => (.error e, t)

instance : Monad Into where
  pure := ret
  bind := seq

/-- An expression that does not assign to the TPDU. -/
def eval {α : Type} (m : M α) : Into α := fun t => (m, t)

/-- An assignment to a field. -/
def assign (f : TPDU → TPDU) : Into Unit := fun t => (.ok (), f t)

/-- The TPDU. -/
def this : Into TPDU := fun t => (.ok t, t)

/-- `if err != nil { return NewDecodeError(f, o, err) }` -/
def wrap {α : Type} (f : String) (o : Nat) (m : Into α) : Into α := fun t =>
  match m t with
  | (.error (.err e), t) => (.error (.err (newDecodeError f o e)), t)
  | r => r

end Into

open Into

/-- `t.X, err = b.ReadByte()`: at the end of the buffer, which is `b`, `ReadByte` returns 0, and 0 is assigned. -/
def readByteInto (set : UInt8 → TPDU → TPDU) (b : Bytes) : Into Bytes :=
  match b with
  | [] => do
    assign (set 0)
    eval (fail .eof)
  | x :: b => do
    assign (set x)
    return b

/-- `ValidityPeriod.UnmarshalBinary`, validityperiod.go:98-126, on the field VP: the format is cleared first
(:99); the other fields are assigned only on success (:104-107, :111-113, :119-120, :163-164). -/
def unmarshalVPInto (src : Bytes) (vpf : UInt8) : Into Nat := fun t =>
  match t.VP.UnmarshalBinary src vpf with
  | .ok (vp, n) => (.ok n, { t with VP := vp })
  | .error f => (.error f, { t with VP := { t.VP with Format := VpfNotPresent } })

/-- `decodeUserData`, tpdu.go:833-891: the fields are assigned (:873, :882, :888, :890) after all that can fail. -/
def decodeUserDataInto (src : Bytes) : Into Unit := fun t =>
  match t.decodeUserData src with
  | .ok t' => (.ok (), t')
  | .error f => (.error f, t)

/-- `unmarshalCommand`, tpdu.go:597-626. -/
def unmarshalCommandInto (src : Bytes) : Into Unit := do
  let b := src
  let b ← wrap "mr" (src.length - b.length) (readByteInto (fun x t => { t with MR := x }) b)
  let b ← wrap "pid" (src.length - b.length) (readByteInto (fun x t => { t with PID := x }) b)
  let b ← wrap "ct" (src.length - b.length) (readByteInto (fun x t => { t with CT := x }) b)
  let b ← wrap "mn" (src.length - b.length) (readByteInto (fun x t => { t with MN := x }) b)
  -- address.go:77-116 assigns to the address after all that can fail
  let (da, n) ← eval (wrapD "da" (src.length - b.length) (Address.UnmarshalBinary b))
  assign fun t => { t with DA := da }
  let b := b.drop n
  assign fun t => { t with DCS := DCS.Dcs8BitData }
  wrap "ud" (src.length - b.length) (decodeUserDataInto b)

/-- `unmarshalDeliver`, tpdu.go:628-653. -/
def unmarshalDeliverInto (src : Bytes) : Into Unit := do
  let (oa, n) ← eval (wrapD "oa" 0 (Address.UnmarshalBinary src))
  assign fun t => { t with OA := oa }
  let b ← eval (slice src n src.length)
  let b ← wrap "pid" (src.length - b.length) (readByteInto (fun x t => { t with PID := x }) b)
  -- tpdu.go:638: into a variable
  let (dcs, b) ← eval (wrapD "dcs" (src.length - b.length) (TPDU.readByte b))
  assign fun t => { t with DCS := dcs }
  -- timestamp.go:45-75 assigns to the timestamp after all that can fail
  let scts ← eval (wrapD "scts" (src.length - b.length) (Timestamp.UnmarshalBinary b))
  assign fun t => { t with SCTS := scts }
  let b := b.drop 7
  wrap "ud" (src.length - b.length) (decodeUserDataInto b)

/-- The optional fields announced by `t.PI`, tpdu.go:667-686, :733-752, :809-828. -/
def unmarshalOptionalsInto (src : Bytes) (ri : Nat) : Into Unit := do
  let t ← this
  let ri ← (
    if PI.PID t.PI then do
      let b ← eval (TPDU.readAt "pid" src ri)
      assign fun t => { t with PID := b }
      return ri + 1
    else return ri : Into Nat)
  let ri ← (
    if PI.DCS t.PI then do
      let b ← eval (TPDU.readAt "dcs" src ri)
      assign fun t => { t with DCS := b }
      return ri + 1
    else return ri : Into Nat)
  if PI.UDL t.PI then do
    let s ← eval (slice src ri src.length)
    wrap "ud" ri (decodeUserDataInto s)
  else return ()

/-- `unmarshalDeliverReport`, tpdu.go:655-688. -/
def unmarshalDeliverReportInto (src : Bytes) : Into Unit := do
  let fcs ← eval (TPDU.readAt "fcs" src 0)
  assign fun t => { t with FCS := fcs }
  let pi ← eval (TPDU.readAt "pi" src 1)
  assign fun t => { t with PI := pi }
  unmarshalOptionalsInto src 2

/-- `unmarshalStatusReport` and `unmarshalSROptionals`, tpdu.go:690-754. -/
def unmarshalStatusReportInto (src : Bytes) : Into Unit := do
  let mr ← eval (TPDU.readAt "mr" src 0)
  assign fun t => { t with MR := mr }
  let ri : Nat := 1
  let s ← eval (slice src ri src.length)
  let (ra, n) ← eval (wrapD "ra" ri (Address.UnmarshalBinary s))
  assign fun t => { t with RA := ra }
  let ri : Nat := ri + n
  if src.length < ri + 7 then eval (fail (newDecodeError "scts" ri .underflow))
  else do
    let s ← eval (slice src ri (ri + 7 : Nat))
    let scts ← eval (wrapD "scts" ri (Timestamp.UnmarshalBinary s))
    assign fun t => { t with SCTS := scts }
    let ri : Nat := ri + 7
    if src.length < ri + 7 then eval (fail (newDecodeError "dt" ri .underflow))
    else do
      let s ← eval (slice src ri (ri + 7 : Nat))
      let dt ← eval (wrapD "dt" ri (Timestamp.UnmarshalBinary s))
      assign fun t => { t with DT := dt }
      let ri : Nat := ri + 7
      let st ← eval (TPDU.readAt "st" src ri)
      assign fun t => { t with ST := st }
      let ri : Nat := ri + 1
      if src.length > ri then do
        let pi ← eval (idx src ri)
        assign fun t => { t with PI := pi }
        unmarshalOptionalsInto src (ri + 1)
      else return ()

/-- `unmarshalSubmit`, tpdu.go:756-787. -/
def unmarshalSubmitInto (src : Bytes) : Into Unit := do
  let mr ← eval (TPDU.readAt "mr" src 0)
  assign fun t => { t with MR := mr }
  let ri : Nat := 1
  let s ← eval (slice src ri src.length)
  let (da, n) ← eval (wrapD "da" ri (Address.UnmarshalBinary s))
  assign fun t => { t with DA := da }
  let ri : Nat := ri + n
  let pid ← eval (TPDU.readAt "pid" src ri)
  assign fun t => { t with PID := pid }
  let ri : Nat := ri + 1
  let dcs ← eval (TPDU.readAt "dcs" src ri)
  assign fun t => { t with DCS := dcs }
  let ri : Nat := ri + 1
  let s ← eval (slice src ri src.length)
  let t ← this
  let n ← wrap "vp" ri (unmarshalVPInto s (FirstOctet.VPF t.FirstOctet))
  let ri : Nat := ri + n
  let s ← eval (slice src ri src.length)
  wrap "ud" ri (decodeUserDataInto s)

/-- `unmarshalSubmitReport`, tpdu.go:789-830. -/
def unmarshalSubmitReportInto (src : Bytes) : Into Unit := do
  let fcs ← eval (TPDU.readAt "fcs" src 0)
  assign fun t => { t with FCS := fcs }
  let pi ← eval (TPDU.readAt "pi" src 1)
  assign fun t => { t with PI := pi }
  let ri : Nat := 2
  if src.length < ri + 7 then eval (fail (newDecodeError "scts" ri .underflow))
  else do
    let s ← eval (slice src ri (ri + 7 : Nat))
    let scts ← eval (wrapD "scts" ri (Timestamp.UnmarshalBinary s))
    assign fun t => { t with SCTS := scts }
    unmarshalOptionalsInto src (ri + 7)

/-- `TPDU.UnmarshalBinary`, tpdu.go:568-595, with what is in the receiver afterwards. -/
def UnmarshalInto (src : Bytes) : Into Unit := do
  if src.length < 1 then eval (fail (newDecodeError "tpdu.firstOctet" 0 .underflow))
  else do
    let fo ← eval (idx src 0)
    assign fun t => { t with FirstOctet := fo }
    let t ← this
    let st := t.SmsType
    let body ← eval (slice src 1 src.length)
    if st = SmsDeliver then wrap (smsTypeString st) 1 (unmarshalDeliverInto body)
    else if st = SmsDeliverReport then wrap (smsTypeString st) 1 (unmarshalDeliverReportInto body)
    else if st = SmsSubmitReport then wrap (smsTypeString st) 1 (unmarshalSubmitReportInto body)
    else if st = SmsSubmit then wrap (smsTypeString st) 1 (unmarshalSubmitInto body)
    else if st = SmsStatusReport then wrap (smsTypeString st) 1 (unmarshalStatusReportInto body)
    else if st = SmsCommand then wrap (smsTypeString st) 1 (unmarshalCommandInto body)
    else do
      assign fun t => { t with FirstOctet := 0 }
      eval (fail (newDecodeError "tpdu.firstOctet" 0 (.unsupportedSmsType st)))

end Verif.Model
