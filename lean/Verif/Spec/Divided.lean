import Verif.Spec.Trace

/-! C127: TPDUs that arrive are divided between several Collectors. -/

namespace Verif.Spec
open Verif.Model Verif.Model.Collector
open Verif.Spec.Reassembly (Result)

/-- The TPDUs are sent to Collectors, by number, so that segments of one message go to the same one. -/
def KeepsTogether (to : TPDU → Nat) : Prop :=
  ∀ (m : Ident) (i j : Nat) (p q : TPDU), SegmentOf m i p → SegmentOf m j q → to p = to q

/-- The event concerns Collector `k`: a TPDU that goes there, or the closing of all. -/
def goesTo (to : TPDU → Nat) (k : Nat) : Event → Bool
  | .collect pdu => to pdu == k
  | .close => true
  | _ => false

/-- Messages with segments that go to Collector `k`. -/
def Goes (to : TPDU → Nat) (k : Nat) (m : Ident) : Prop := ∃ (i : Nat) (p : TPDU), SegmentOf m i p ∧ to p = k

open Classical in
/-- The number of the timer among the timers of messages that go to Collector `k`, if it is one. -/
noncomputable def timerAt (to : TPDU → Nat) (k : Nat) (s : State) (i : Nat) : Option Nat :=
  let mine (t : Timer) : Prop := ∃ m, Goes to k m ∧ t.key = keyOf m
  match s.timers[i]? with
  | some t => if mine t then some ((s.timers.take i).filter (fun t => mine t)).length else none
  | none => none

/-- What the event is to Collector `k`: the arrival of a TPDU that goes there, something about a timer of one of its
messages, or the closing of all.  Anything else is of no concern. -/
noncomputable def eventAt (to : TPDU → Nat) (k : Nat) (s : State) : Event → Option Event
  | .collect pdu => if to pdu = k then some (.collect pdu) else none
  | .fire i => (timerAt to k s i).map .fire
  | .expire i => (timerAt to k s i).map .expire
  | .handle i => (timerAt to k s i).map .handle
  | .close => some .close

/-- The events of the history of a single Collector that concern Collector `k`, each with what came out of the single
one. -/
noncomputable def share (to : TPDU → Nat) (k : Nat) (s : State) : List Event → List (Event × Result)
  | [] => []
  | e :: es =>
    match step s e with
    | .ok (s', o) => ((eventAt to k s e).map (fun e' => (e', result o))).toList ++ share to k s' es
    | .error _ => []

/-- Nothing happens but calls of `Collect` and `Close`: no timeout runs out. -/
def NoTimer : Event → Prop
  | .collect _ => True
  | .close => True
  | _ => False

/-- The segments pending of a message, if there are any, as `Pipes` shows them. -/
def pendingOf (m : Ident) (s : State) : Option (List (Option TPDU)) :=
  ((Pipes s).lookup (keyOf m)).map fun p => pdus (deref s p)

end Verif.Spec
