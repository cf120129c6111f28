import Verif.Model.Collector
import Verif.Model.PduMode

/-!
Model of the commands cmd/smssubmit/smssubmit.go, cmd/smsdeliver/smsdeliver.go and cmd/smsdecode/smsdecode.go.
The values of the flags are arguments; the parsing of the command line is in CommandLine.  What is printed is
modelled as a list of events; the text that is printed is in Dump and CmdPrint.
-/

namespace Verif.Model

namespace SmsSubmit

/-- What `main` prints. -/
inductive Out where
  | usage
  /-- `log.Println(err)` -/
  | failed (e : Err)
  /-- the hex strings, one for each TPDU -/
  | tpdus (hex : List Bytes)
  deriving DecidableEq, Repr

/-- `b, _ := p.MarshalBinary()` and `hex.EncodeToString(b)`, smssubmit.go:42-43, :47-48: the error is ignored,
and then `b` is nil (all of tpdu.go:403-590 return nil with an error). -/
def hexLine (p : TPDU) : M Bytes :=
  match p.MarshalBinary with
  | .ok b => .ok (Hex.EncodeToString b)
  | .error (.err _) => .ok (Hex.EncodeToString [])
  | .error (.panic k) => .error (.panic k)

/-- `main`, smssubmit.go:19-50, with the flags `-number`, `-message` and `-language`.  One TPDU is printed in
the same way as several, apart from its heading. -/
def main (number msg : Bytes) (nli : Int) : M Out :=
  if number = [] ∨ msg = [] then .ok .usage
  else
    let options : List Sms.EncoderOption :=
      [Sms.AsSubmit, Sms.To number] ++ (if nli ≠ 0 then [.charsets (.charset [nli])] else [])
    match Sms.Encode msg options with
    | .error (.err e) => .ok (.failed e)
    | .error (.panic k) => .error (.panic k)
    | .ok pdus => do
      let lines ← pdus.mapM hexLine
      return .tpdus lines

end SmsSubmit

namespace SmsDeliver
open Collector

/-- What `main` prints or logs. -/
inductive Line where
  /-- `log.Fatal(err)`: ends the program -/
  | fatal (e : Err)
  | unmarshalError (e : Err)
  | collectError (e : Err)
  | decodeError (e : Err)
  /-- `%s: %s` of the number of the originator and the text -/
  | message (number text : Bytes)
  | incomplete (key : Bytes) (segments : List (Option TPDU))
  deriving DecidableEq, Repr

/-- `sms.Decode(pdus)` of a slice of pointers, sms.go:34-61: the pointers before the first nil pointer are
decoded in order (an error other than a dangling surrogate returns at once), then the nil pointer is
dereferenced by `s.Alphabet()` (sms.go:35). -/
def decodePtrs (d : List (Option Ptr)) : M Bytes :=
  let segs := (d.takeWhile Option.isSome).filterMap fun p => p.map (·.pdu)
  if segs.length = d.length then Sms.Decode segs []
  else match Sms.Decode segs [] with
    | .ok _ => panicM .nil
    | .error (.err (.ucs2Dangling _)) => panicM .nil
    | .error e => .error e

/-- What is printed of the result of `Collect`, smsdeliver.go:50-62.  A nil slice is `[]`: `Collect` never
returns an empty slice that is not nil. -/
def report (d : List (Option Ptr)) (err : Option Err) : M (List Line) :=
  let pre : List Line := match err with
    | some e => [.collectError e]
    | none => []
  if d = [] then .ok pre
  else match decodePtrs d with
    | .error (.err e) => .ok (pre ++ [.decodeError e])
    | .error (.panic k) => .error (.panic k)
    | .ok msg => do
      let p0 ← idx d 0
      match p0 with
      | none => panicM .nil
      | some p => return pre ++ [.message p.pdu.OA.Number msg]

/-- The octets of the TPDU of an argument, smsdeliver.go:32-44. -/
def octets (pm : Bool) (a : Bytes) : M Bytes := do
  let b ← Hex.DecodeString a
  if pm then do
    let pdu ← PDU.UnmarshalBinary b
    return pdu.TPDU
  else return b

/-- The loop of `main` and the report of what is incomplete, smsdeliver.go:31-69.  The map returned by
`Pipes` is listed in the order of the model's association list; Go's order is unspecified. -/
def loop (pm : Bool) : State → List Bytes → M (List Line)
  | s, [] => .ok ((Pipes s).map fun kp => .incomplete kp.1 ((deref s kp.2).map fun p => p.map (·.pdu)))
  | s, a :: args =>
    match octets pm a with
    | .error (.err e) => .ok [.fatal e]
    | .error (.panic k) => .error (.panic k)
    | .ok tb =>
      match Sms.Unmarshal tb MT with
      | .error (.err e) => do
        let rest ← loop pm s args
        return .unmarshalError e :: rest
      | .error (.panic k) => .error (.panic k)
      | .ok t => do
        let (s, o) ← Collect s t
        match o with
        | .returned d err => do
          let lines ← report d err
          let rest ← loop pm s args
          return lines ++ rest
        | _ => loop pm s args  -- unreachable: `Collect` returns

/-- `main`, smsdeliver.go:20-70, for at least one argument; `pm` is the flag `-p`. -/
def main (pm : Bool) (args : List Bytes) : M (List Line) := loop pm (New false false) args

end SmsDeliver

namespace SmsDecode

/-- `decode`, smsdecode.go:41-61. -/
def decode (s : Bytes) (pm mo : Bool) : M (TPDU × Option Address) := do
  let b ← Hex.DecodeString s
  let (b, a) ← (if pm then do
      let pdu ← PDU.UnmarshalHexString s
      return (pdu.TPDU, some pdu.SMSC)
    else return (b, none) : M (Bytes × Option Address))
  let p ← Sms.Unmarshal b (if mo then MO else MT)
  return (p, a)

/-- The function chosen by `dumpTPDU`, smsdecode.go:68-93; for another type `dump` is nil and calling it
panics. -/
inductive Dump where
  | command | deliver | deliverReport | statusReport | submit | submitReport
  deriving DecidableEq, Repr

@[inherit_doc Dump] def dumpTPDU (t : TPDU) : M Dump :=
  let st := t.SmsType
  if st = SmsCommand then .ok .command
  else if st = SmsDeliver then .ok .deliver
  else if st = SmsDeliverReport then .ok .deliverReport
  else if st = SmsStatusReport then .ok .statusReport
  else if st = SmsSubmit then .ok .submit
  else if st = SmsSubmitReport then .ok .submitReport
  else panicM .nil

/-- What `main` does, smsdecode.go:22-39, for one argument: the error of `log.Fatal`, or what is dumped.  What is
printed is in Dump.  The only other operation that can panic, `udh[0]` of `dumpUDH`
(smsdecode.go:226), is executed when the header is not nil; a header built by `Unmarshal` that is not nil has
an element (userdata.go:78-95 appends to a nil slice). -/
def main (s : Bytes) (pm mo : Bool) : M (Except Err (Option Address × TPDU × Dump)) :=
  match decode s pm mo with
  | .error (.err e) => .ok (.error e)
  | .error (.panic k) => .error (.panic k)
  | .ok (t, smsc) => do
    let d ← dumpTPDU t
    return .ok (smsc, t, d)

end SmsDecode
end Verif.Model
