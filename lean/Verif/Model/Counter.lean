import Verif.Model.Sms

/-! Model of cmd/smscounter/smscounter.go. -/

namespace Verif.Model.SmsCounter
open Sms

/-- `Count`, smscounter.go:100-107. -/
structure Count where
  Encoding : String := ""
  Messages : Int := 0
  Tlen : Int := 0
  Llen : Int := 0
  Pdulen : Int := 0
  Remaining : Int := 0
  deriving DecidableEq, Repr

/-- `hasEscapes`, smscounter.go:78-87. -/
def hasEscapes (pdus : List TPDU) : Bool := pdus.any fun p => p.UD.any fun d => d = 0x1b

/-- `NewCount`, smscounter.go:43-76. -/
def NewCount (msg : Bytes) (nli : Int) : M Count := do
  let options : List EncoderOption := if nli ≠ 0 then [.charsets (.charset [nli])] else []
  let pdus ← Sms.Encode msg options
  let p0 ← idx pdus 0
  let pl ← idx pdus (pdus.length - 1 : Int)
  let alpha := p0.Alphabet.1
  let lastLen : Int := pl.UD.length
  let pm := p0.UDBlockSize
  let enc := match alpha with
    | .a7Bit => if hasEscapes pdus then "7BIT_EX" else "7BIT"
    | .a8Bit => "8BIT"
    | .ucs2 => "UCS-2"
    | .reserved => ""
  let lastLen := if alpha = .ucs2 then lastLen.tdiv 2 else lastLen
  let pm := if alpha = .ucs2 then pm.tdiv 2 else pm
  let messages : Int := pdus.length
  return { Encoding := enc, Pdulen := pm, Llen := lastLen, Remaining := pm - lastLen,
           Messages := messages, Tlen := pm * (messages - 1) + lastLen }

end Verif.Model.SmsCounter
