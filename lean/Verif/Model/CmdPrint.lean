import Verif.Model.Print
import Verif.Model.Cmd

/-! Model of what cmd/smssubmit and cmd/smsdeliver write to the standard output.  What they log (package log) and
their usage go to the standard error. -/

namespace Verif.Model

namespace SmsSubmit

/-- The calls of `fmt.Printf`, smssubmit.go:41-49. -/
def stdout : Out → Bytes
  | .tpdus [h] => b!"Submit TPDU:\n" ++ h ++ b!"\n"
  | .tpdus hs => hs.zipIdx.flatMap fun p => b!"Submit TPDU " ++ decimal (p.2 + 1) ++ b!":\n" ++ p.1 ++ b!"\n"
  | _ => []

end SmsSubmit

namespace SmsDeliver

/-- `fmt.Println` of a slice of pointers: `addr i` is the text of the address in slot `i`, which is not modelled. -/
def showPtrs (addr : Nat → Bytes) (segments : List (Option TPDU)) : Bytes :=
  b!"[" ++ [0x20].intercalate (segments.zipIdx.map fun p => match p.1 with
    | none => b!"<nil>"
    | some _ => addr p.2) ++ b!"]"

/-- The call of `fmt.Printf` and those of `fmt.Println` (which puts a space between its operands),
smsdeliver.go:61, :67-68.  Errors are logged (smsdeliver.go:35, :41, :47, :52, :58). -/
def lineText (addr : Bytes → Nat → Bytes) : Line → Bytes
  | .message number text => number ++ b!": " ++ text ++ b!"\n"
  | .incomplete key segments => b!"incomplete reassembly:  " ++ key ++ b!"\n" ++ showPtrs (addr key) segments ++ b!"\n"
  | _ => []

/-- The standard output. -/
def stdout (addr : Bytes → Nat → Bytes) (lines : List Line) : Bytes := lines.flatMap (lineText addr)

end SmsDeliver
end Verif.Model
