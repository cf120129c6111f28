import Verif.Model.Cmd

/-! What smsdeliver is to print, in terms of the functions of the library. -/

namespace Verif.Spec.Deliver
open Verif.Model Verif.Model.Collector
open Verif.Model.SmsDeliver (Line)

/-- The argument is the TPDU `b` in hex, with `-p` after the address of a service centre. -/
def Octets (pm : Bool) (a b : Bytes) : Prop :=
  ∃ raw, Hex.DecodeString a = .ok raw ∧ if pm then ∃ p, PDU.UnmarshalBinary raw = .ok p ∧ p.TPDU = b else raw = b

/-- The argument is not in hex, or with `-p` begins with no address. -/
def Unreadable (pm : Bool) (a : Bytes) (e : Err) : Prop :=
  Hex.DecodeString a = .error (.err e) ∨
    pm = true ∧ ∃ raw, Hex.DecodeString a = .ok raw ∧ PDU.UnmarshalBinary raw = .error (.err e)

/-- What an argument amounts to: no TPDU, or a TPDU and the lines printed when it is collected. -/
inductive Item where
  | broken (e : Err)
  | collected (t : TPDU) (lines : List Line)

/-- The argument is such an item. -/
def Item.Of (pm : Bool) (a : Bytes) : Item → Prop
  | .broken e => ∃ b, Octets pm a b ∧ Sms.Unmarshal b MT = .error (.err e)
  | .collected t _ => ∃ b, Octets pm a b ∧ Sms.Unmarshal b MT = .ok t

/-- The lines printed for the argument. -/
def Item.lines : Item → List Line
  | .broken e => [.unmarshalError e]
  | .collected _ ls => ls

/-- The TPDU, with the lines. -/
def Item.tpdu : Item → Option (TPDU × List Line)
  | .broken _ => none
  | .collected t ls => some (t, ls)

/-- What is printed of the segments that are returned.  If none is missing: the number of the originator of the
first and the text they decode to, or the error of decoding.  If one is missing those before it do not decode. -/
inductive Told : List (Option Ptr) → List Line → Prop
  | nothing : Told [] []
  | message (p : Ptr) (segs : List Ptr) (text : Bytes)
      (h : Sms.Decode ((p :: segs).map (·.pdu)) [] = .ok text) :
      Told ((p :: segs).map some) [.message p.pdu.OA.Number text]
  | error (p : Ptr) (segs : List Ptr) (e : Err)
      (h : Sms.Decode ((p :: segs).map (·.pdu)) [] = .error (.err e)) :
      Told ((p :: segs).map some) [.decodeError e]
  | missing (segs : List Ptr) (later : List (Option Ptr)) (e : Err)
      (h : Sms.Decode (segs.map (·.pdu)) [] = .error (.err e)) (h' : ∀ b, e ≠ .ucs2Dangling b) :
      Told (segs.map some ++ none :: later) [.decodeError e]

/-- The lines for what `Collect` returns: its error, if any, and what it returns. -/
def Said : Output → List Line → Prop
  | .returned d err, lines => ∃ rest, lines = (err.map Line.collectError).toList ++ rest ∧ Told d rest
  | _, _ => False

/-- What is printed at the end of what is incomplete. -/
def waiting (s : State) : List Line :=
  (Pipes s).map fun kp => .incomplete kp.1 ((deref s kp.2).map fun p => p.map (·.pdu))

/-- What the arguments print: those up to the first that is unreadable, one after the other; then, if there is
none, what is still incomplete, and otherwise nothing but the error. -/
def Prints (pm : Bool) (s0 : State) (args : List Bytes) (lines : List Line) : Prop :=
  ∃ firsts later items s os,
    args = firsts ++ later ∧ firsts.length = items.length ∧ (∀ p ∈ firsts.zip items, p.2.Of pm p.1) ∧
    run s0 ((items.filterMap Item.tpdu).map fun t => .collect t.1) = .ok (s, os) ∧
    (∀ p ∈ os.zip (items.filterMap Item.tpdu), Said p.1 p.2.2) ∧
    ((later = [] ∧ lines = items.flatMap Item.lines ++ waiting s) ∨
      ∃ a l e, later = a :: l ∧ Unreadable pm a e ∧ lines = items.flatMap Item.lines ++ [.fatal e])

end Verif.Spec.Deliver
