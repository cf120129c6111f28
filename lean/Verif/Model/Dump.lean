import Verif.Model.Print
import Verif.Model.Cmd

/-! Model of what cmd/smsdecode/smsdecode.go prints.  Each function gives the list of what its calls of
`fmt.Fprintf` write, without the LF at the end of each. -/

namespace Verif.Model
namespace SmsDecode

/-- `dumpSMSC`, smsdecode.go:63-66. -/
def dumpSMSC (a : Address) : List Bytes := [b!"SMSC: " ++ a.Number]

/-- `TP-MTI: 0x%02x %s` of the type of a TPDU. -/
def mtiLine (t : TPDU) : Bytes :=
  b!"TP-MTI: 0x" ++ hex02 (SmsType.MTI t.SmsType) ++ b!" " ++ MessageType.String (SmsType.MTI t.SmsType)

/-- The lines after the first of `dumpCD`, `dumpUD` and `dumpUDH`. -/
def indented (ls : List Bytes) : List Bytes := ls.map fun l => b!"       " ++ l

/-- `dumpCD`, smsdecode.go:203-209; `strings.Split` returns at least one line. -/
def dumpCD (ud : Bytes) : List Bytes :=
  match splitLF (Hex.Dump ud) with
  | [] => []
  | l :: ls => (b!"TP-CD: " ++ l) :: indented ls

/-- `dumpVP`, smsdecode.go:211-223. -/
def dumpVP (vp : ValidityPeriod) : List Bytes :=
  if vp.Format = VpfNotPresent then [b!"TP-VP: Not Present"]
  else if vp.Format = VpfAbsolute then [b!"TP-VP: Absolute - " ++ Timestamp.String vp.Time]
  else if vp.Format = VpfEnhanced then
    [b!"TP-VP: Enhanced " ++ EnhancedValidityPeriodFormat.String (EnhancedFormat vp.EFI) ++ b!" - " ++
      Duration.String vp.Duration]
  else if vp.Format = VpfRelative then [b!"TP-VP: Relative - " ++ Duration.String vp.Duration]
  else []

/-- `ID: %d  Data: %v` of an information element. -/
def showIE (ie : IE) : Bytes := b!"ID: " ++ decimal ie.ID.toNat ++ b!"  Data: " ++ showBytes ie.Data

/-- `dumpUDH`, smsdecode.go:225-231, and the test before its calls: nothing is printed for a nil header.  A header built by
`Unmarshal` that is not nil has an element. -/
def dumpUDH : UDH → List Bytes
  | [] => []
  | ie :: ies => (b!"TP-UDH: " ++ showIE ie) :: indented (ies.map showIE)

/-- `dumpUD`, smsdecode.go:233-239. -/
def dumpUD (ud : Bytes) : List Bytes :=
  match splitLF (trimSpace (Hex.Dump ud)) with
  | [] => []
  | l :: ls => (b!"TP-UD: " ++ l) :: indented ls

/-- `dumpCommand`, smsdecode.go:95-107. -/
def dumpCommand (t : TPDU) : List Bytes :=
  [mtiLine t,
    b!"TP-UDHI: " ++ showBool (FirstOctet.UDHI t.FirstOctet),
    b!"TP-SRR: " ++ showBool (FirstOctet.SRR t.FirstOctet),
    b!"TP-MR: " ++ decimal t.MR.toNat,
    b!"TP-PID: 0x" ++ hex02 t.PID,
    b!"TP-CT: 0x" ++ hex02 t.CT,
    b!"TP-MN: " ++ decimal t.MN.toNat,
    b!"TP-DA: " ++ t.DA.Number,
    b!"TP-SCTS: " ++ Timestamp.String t.SCTS,
    b!"TP-CDL: " ++ decimal t.UD.length] ++
  dumpCD t.UD

/-- `dumpDeliver`, smsdecode.go:109-124. -/
def dumpDeliver (t : TPDU) : List Bytes :=
  [mtiLine t,
    b!"TP-MMS: " ++ showBool (FirstOctet.MMS t.FirstOctet),
    b!"TP-LP: " ++ showBool (FirstOctet.LP t.FirstOctet),
    b!"TP-RP: " ++ showBool (FirstOctet.RP t.FirstOctet),
    b!"TP-UDHI: " ++ showBool (FirstOctet.UDHI t.FirstOctet),
    b!"TP-SRI: " ++ showBool (FirstOctet.SRI t.FirstOctet),
    b!"TP-OA: " ++ t.OA.Number,
    b!"TP-PID: 0x" ++ hex02 t.PID,
    b!"TP-DCS: " ++ DCS.String t.DCS,
    b!"TP-SCTS: " ++ Timestamp.String t.SCTS] ++
  dumpUDH t.UDH ++
  dumpUD t.UD

/-- `dumpDeliverReport`, smsdecode.go:126-141. -/
def dumpDeliverReport (t : TPDU) : List Bytes :=
  [mtiLine t,
    b!"TP-UDHI: " ++ showBool (FirstOctet.UDHI t.FirstOctet),
    b!"TP-FCS: 0x" ++ hex02 t.FCS,
    b!"TP-PI: " ++ PI.String t.PI] ++
  (if PI.PID t.PI then [b!"TP-PID: 0x" ++ hex02 t.PID] else []) ++
  (if PI.DCS t.PI then [b!"TP-DCS: " ++ DCS.String t.DCS] else []) ++
  dumpUDH t.UDH ++
  dumpUD t.UD

/-- `dumpStatusReport`, smsdecode.go:143-165. -/
def dumpStatusReport (t : TPDU) : List Bytes :=
  [mtiLine t,
    b!"TP-UDHI: " ++ showBool (FirstOctet.UDHI t.FirstOctet),
    b!"TP-MMS: " ++ showBool (FirstOctet.MMS t.FirstOctet),
    b!"TP-LP: " ++ showBool (FirstOctet.LP t.FirstOctet),
    b!"TP-SRQ: " ++ showBool (FirstOctet.SRQ t.FirstOctet),
    b!"TP-MR: " ++ decimal t.MR.toNat,
    b!"TP-RA: " ++ t.RA.Number,
    b!"TP-SCTS: " ++ Timestamp.String t.SCTS,
    b!"TP-DT: " ++ Timestamp.String t.DT,
    b!"TP-ST: 0x" ++ hex02 t.ST,
    b!"TP-PI: " ++ PI.String t.PI] ++
  (if PI.PID t.PI then [b!"TP-PID: 0x" ++ hex02 t.PID] else []) ++
  (if PI.DCS t.PI then [b!"TP-DCS: " ++ DCS.String t.DCS] else []) ++
  dumpUDH t.UDH ++
  dumpUD t.UD

/-- `dumpSubmit`, smsdecode.go:167-183. -/
def dumpSubmit (t : TPDU) : List Bytes :=
  [mtiLine t,
    b!"TP-RD: " ++ showBool (FirstOctet.RD t.FirstOctet),
    b!"TP-VPF: 0x" ++ hex02 (FirstOctet.VPF t.FirstOctet) ++ b!" " ++ ValidityPeriodFormat.String (FirstOctet.VPF t.FirstOctet),
    b!"TP-RP: " ++ showBool (FirstOctet.RP t.FirstOctet),
    b!"TP-UDHI: " ++ showBool (FirstOctet.UDHI t.FirstOctet),
    b!"TP-SRR: " ++ showBool (FirstOctet.SRR t.FirstOctet),
    b!"TP-MR: " ++ decimal t.MR.toNat,
    b!"TP-DA: " ++ t.DA.Number,
    b!"TP-PID: 0x" ++ hex02 t.PID,
    b!"TP-DCS: " ++ DCS.String t.DCS] ++
  dumpVP t.VP ++
  dumpUDH t.UDH ++
  dumpUD t.UD

/-- `dumpSubmitReport`, smsdecode.go:185-201. -/
def dumpSubmitReport (t : TPDU) : List Bytes :=
  [mtiLine t,
    b!"TP-UDHI: " ++ showBool (FirstOctet.UDHI t.FirstOctet),
    b!"TP-FCS: 0x" ++ hex02 t.FCS,
    b!"TP-PI: " ++ PI.String t.PI,
    b!"TP-SCTS: " ++ Timestamp.String t.SCTS] ++
  (if PI.PID t.PI then [b!"TP-PID: 0x" ++ hex02 t.PID] else []) ++
  (if PI.DCS t.PI then [b!"TP-DCS: " ++ DCS.String t.DCS] else []) ++
  dumpUDH t.UDH ++
  dumpUD t.UD

/-- The function that `dumpTPDU` calls. -/
def Dump.run : Dump → TPDU → List Bytes
  | .command => dumpCommand
  | .deliver => dumpDeliver
  | .deliverReport => dumpDeliverReport
  | .statusReport => dumpStatusReport
  | .submit => dumpSubmit
  | .submitReport => dumpSubmitReport

/-- The name that `dumpTPDU` prints, smsdecode.go:71-90. -/
def Dump.name : Dump → Bytes
  | .command => b!"SMS-COMMAND"
  | .deliver => b!"SMS-DELIVER"
  | .deliverReport => b!"SMS-DELIVER-REPORT"
  | .statusReport => b!"SMS-STATUS-REPORT"
  | .submit => b!"SMS-SUBMIT"
  | .submitReport => b!"SMS-SUBMIT-REPORT"

/-- What `main` prints, smsdecode.go:31-38, once it has an SMSC address, a TPDU and the function for its type. -/
def printed (smsc : Option Address) (t : TPDU) (d : Dump) : List Bytes :=
  (match smsc with
    | none => []
    | some a => dumpSMSC a) ++
  [b!"TPDU: " ++ d.name] ++ d.run t

/-- The text that `main` prints for one argument, or the error of `log.Fatal`. -/
def text (s : Bytes) (pm mo : Bool) : M (Except Err Bytes) := do
  let r ← main s pm mo
  match r with
  | .error e => return .error e
  | .ok (smsc, t, d) => return .ok ((printed smsc t d).flatMap fun l => l ++ b!"\n")

end SmsDecode
end Verif.Model
