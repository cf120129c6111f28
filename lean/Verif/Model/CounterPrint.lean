import Verif.Model.Counter
import Verif.Model.Print

/-! Model of what cmd/smscounter prints. -/

namespace Verif.Model.SmsCounter

/-- `%d`. -/
def showInt (i : Int) : Bytes := if i < 0 then b!"-" ++ decimal i.natAbs else decimal i.natAbs

/-- The octets of an ASCII string (the encodings that `NewCount` names are ASCII). -/
def octets (s : String) : Bytes := s.toList.map fun c => UInt8.ofNat c.toNat

/-- `Count.String`, smscounter.go:109-116. -/
def Count.String (c : Count) : Bytes :=
  b!"encoding: " ++ octets c.Encoding ++ b!"\n" ++
  b!"messages: " ++ showInt c.Messages ++ b!"\n" ++
  b!"total length: " ++ showInt c.Tlen ++ b!"\n" ++
  b!"last PDU length: " ++ showInt c.Llen ++ b!"\n" ++
  b!"per_message: " ++ showInt c.Pdulen ++ b!"\n" ++
  b!"remaining: " ++ showInt c.Remaining ++ b!"\n"

/-- What the command does: it shows its usage, or prints to the standard output, or logs an error. -/
inductive Outcome where
  | usage
  | printed (out : Bytes)
  | failed (e : Err)
  deriving DecidableEq

/-- `main`, smscounter.go:23-40, after the parsing of the flags (which is in CommandLine). -/
def main (msg : Bytes) (nli : Int) : M Outcome :=
  if msg = [] then .ok .usage
  else match NewCount msg nli with
    | .ok c => .ok (.printed c.String)
    | .error (.err e) => .ok (.failed e)
    | .error f => .error f

end Verif.Model.SmsCounter
