import Verif.Model.Sms

/-! What a list of encoder options asks for. -/

namespace Verif.Spec
open Verif.Model
open Verif.Model.Sms (EncoderOption)

/-- What the last option that says something about a matter says about it. -/
def lastSaid {α : Type} (says : EncoderOption → Option α) (options : List EncoderOption) : Option α :=
  options.reverse.findSome? says

/-- The matters.  A template says something about each of them, an option for a TPDU only about its own. -/
def saysTemplate : EncoderOption → Option TPDU
  | .template t => some t
  | _ => none
@[inherit_doc saysTemplate] def saysDA : EncoderOption → Option Address
  | .template t => some t.DA
  | .templateOption (.da a) => some a
  | _ => none
@[inherit_doc saysTemplate] def saysOA : EncoderOption → Option Address
  | .template t => some t.OA
  | .templateOption (.oa a) => some a
  | _ => none
@[inherit_doc saysTemplate] def saysUDH : EncoderOption → Option UDH
  | .template t => some t.UDH
  | .templateOption (.udh u) => some u
  | _ => none
@[inherit_doc saysTemplate] def saysDCS : EncoderOption → Option UInt8
  | .template t => some t.DCS
  | .templateOption (.dcs d) => some d
  | _ => none
/-- Whether the coding scheme was given by an option of its own, which also marks it as present in the
parameter indicator. -/
def saysMarked : EncoderOption → Option Bool
  | .template _ => some false
  | .templateOption (.dcs _) => some true
  | _ => none
/-- Types of SMS are 0 to 5; others are ignored.  The odd ones are sent by the mobile (direction 1). -/
def saysDirection : EncoderOption → Option Int
  | .template t => some t.Direction
  | .templateOption (.direction d) => some d
  | .templateOption (.smsType n) => if 0 ≤ n ∧ n ≤ 5 then some (n % 2) else none
  | _ => none
/-- The message type indicator, the two low bits of the first octet: half the type of the SMS. -/
def saysMTI : EncoderOption → Option UInt8
  | .template t => some (t.FirstOctet &&& 3)
  | .templateOption (.messageType m) => some m
  | .templateOption (.smsType n) => if 0 ≤ n ∧ n ≤ 5 then some (UInt8.ofNat (n / 2).toNat) else none
  | _ => none

/-- The tables offered, in the order of the options. -/
def saidTables (options : List EncoderOption) : List CharsetOpt :=
  options.filterMap fun
    | .charsets o => some o
    | _ => none

/-- The message types given are of two bits. -/
def MTIsKnown (options : List EncoderOption) : Prop :=
  ∀ m, EncoderOption.templateOption (.messageType m) ∈ options → m ≤ 3

/-- The template that the options ask for. -/
def saidTemplate (options : List EncoderOption) : TPDU :=
  let t := (lastSaid saysTemplate options).getD {}
  { t with
    Direction := (lastSaid saysDirection options).getD 0
    FirstOctet := (t.FirstOctet &&& 0xfc) ||| (lastSaid saysMTI options).getD 0
    OA := (lastSaid saysOA options).getD {}
    DA := (lastSaid saysDA options).getD {}
    PI := t.PI ||| (if lastSaid saysMarked options = some true then 2 else 0)
    DCS := (lastSaid saysDCS options).getD 0
    UDH := (lastSaid saysUDH options).getD [] }

/-- The options ask for the same. -/
def SameSaid (as bs : List EncoderOption) : Prop :=
  lastSaid saysTemplate as = lastSaid saysTemplate bs ∧ lastSaid saysDA as = lastSaid saysDA bs ∧
  lastSaid saysOA as = lastSaid saysOA bs ∧ lastSaid saysUDH as = lastSaid saysUDH bs ∧
  lastSaid saysDCS as = lastSaid saysDCS bs ∧ lastSaid saysMarked as = lastSaid saysMarked bs ∧
  lastSaid saysDirection as = lastSaid saysDirection bs ∧ lastSaid saysMTI as = lastSaid saysMTI bs ∧
  saidTables as = saidTables bs

end Verif.Spec
