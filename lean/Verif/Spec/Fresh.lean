import Verif.Model.Collector

/-! The same history with calls and timers numbered from another number on. -/

namespace Verif.Spec
open Verif.Model Verif.Model.Collector

/-- An event of a timer that is among the first `n`. -/
def isOld (n : Nat) : Event → Bool
  | .fire i => i < n
  | .expire i => i < n
  | .handle i => i < n
  | _ => false

/-- The event with timers numbered as if the first `n` had not been. -/
def asNew (n : Nat) : Event → Event
  | .fire i => .fire (i - n)
  | .expire i => .expire (i - n)
  | .handle i => .handle (i - n)
  | e => e

/-- The events that are not of the first `n` timers, with the timers numbered as if those had not been. -/
def newEvents (n : Nat) (es : List Event) : List Event := (es.filter fun e => !isOld n e).map (asNew n)

/-- What came out of those events that are (not) of the first `n` timers. -/
def outputsOf (old : Bool) (n : Nat) (es : List Event) (os : List Output) : List Output :=
  ((es.zip os).filter fun x => isOld n x.1 == old).map (·.2)

/-- A TPDU given by the call that is numbered `k` later. -/
def laterPtr (k : Nat) (p : Ptr) : Ptr := { p with id := p.id + k }

/-- The TPDUs are those of calls numbered `k` later. -/
def laterOutput (k : Nat) : Output → Output
  | .silent => .silent
  | .returned d err => .returned (d.map (·.map (laterPtr k))) err
  | .handled d => .handled (d.map (·.map (laterPtr k)))

end Verif.Spec
