import Verif.Spec.Reassembly

/-! A history of a Collector as one message sees it. -/

namespace Verif.Spec
open Verif.Model Verif.Model.Collector
open Verif.Spec.Reassembly (Parts Input Result)

/-- The TPDUs of a set of segments. -/
def pdus (l : List (Option Ptr)) : Parts := l.map (Option.map (·.pdu))

/-- What comes out, as TPDUs. -/
def result : Output → Result
  | .silent => .silent
  | .returned d e => .returned (pdus d) e
  | .handled d => .handled (pdus d)

/-- The key timers and reassemblies of the message are filed under. -/
def keyOf (m : Ident) : Bytes := formatKey m.type m.peer m.ref m.count

/-- The segment number, if the TPDU is a segment of the message. -/
def segOf (m : Ident) (pdu : TPDU) : Option Nat :=
  match pdu.ConcatInfo with
  | some c =>
    if 2 ≤ c.segments ∧ 1 ≤ c.seqno ∧ c.seqno ≤ c.segments ∧ (pdu.SmsType = SmsSubmit ∨ pdu.SmsType = SmsDeliver) ∧
      m = ⟨pdu.SmsType, peer pdu, c.mref, c.segments⟩ then some c.seqno else none
  | none => none

/-- The number of the timer among the timers of the message, if it is one. -/
def timerOf (m : Ident) (s : State) (i : Nat) : Option Nat :=
  match s.timers[i]? with
  | some t => if t.key = keyOf m then some ((s.timers.take i).filter (fun t => t.key = keyOf m)).length else none
  | none => none

/-- What the event is to the message: the arrival of a segment of it, something about a timer of it, or
the closing of the Collector.  Anything else is of no concern. -/
def seen (m : Ident) (s : State) : Event → Option Input
  | .collect pdu => (segOf m pdu).map (fun seq => .segment seq pdu)
  | .fire i => (timerOf m s i).map .fire
  | .expire i => (timerOf m s i).map .expire
  | .handle i => (timerOf m s i).map .handle
  | .close => some .close

/-- The events of the history that concern the message, each with what came out. -/
def watch (m : Ident) (s : State) : List Event → List (Input × Result)
  | [] => []
  | e :: es =>
    match step s e with
    | .ok (s', o) => ((seen m s e).map (fun i => (i, result o))).toList ++ watch m s' es
    | .error _ => []

/-- Only TPDUs the Collector supports are collected. -/
def FineEvent : Event → Prop
  | .collect pdu => Fine pdu
  | _ => True

end Verif.Spec
