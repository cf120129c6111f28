import Verif.Spec.Arrival

/-! Segments that arrive more than once. -/

namespace Verif.Spec
open Verif.Model Verif.Model.Collector
open Verif.Spec.Reassembly (Parts Result)

/-- What is answered to segments of a message that arrive one after the other, where `since` are those that
arrived since the message was last complete: the message, by the segment that completes it; an error to a
segment whose number has arrived already; nothing to any other.  And what has arrived since the message was
last complete, in the end. -/
def rounds (m : Ident) (since : List TPDU) : List TPDU → List (Parts × Option Err) × List TPDU
  | [] => ([], since)
  | pdu :: l =>
    if ∀ q ∈ partsOf m (since ++ [pdu]), q ≠ none then
      let (rs, rest) := rounds m [] l
      ((partsOf m (since ++ [pdu]), none) :: rs, rest)
    else
      let (rs, rest) := rounds m (since ++ [pdu]) l
      (([], if ∃ q ∈ since, segOf m q = segOf m pdu then some .duplicateSegment else none) :: rs, rest)

/-- The segments of the message among TPDUs. -/
def segmentsOf (m : Ident) (l : List TPDU) : List TPDU := l.filter (fun pdu => (segOf m pdu).isSome)

/-- The answers to the calls that were given segments of the message. -/
def answers (m : Ident) (arrival : List TPDU) (os : List Output) : List Result :=
  ((arrival.zip os).filter (fun x => (segOf m x.1).isSome)).map (fun x => result x.2)

end Verif.Spec
