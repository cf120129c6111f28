import Verif.Spec.Collect

/-! Reassembly of one single message, on its own: what a Collector is expected to do for every message
it is sent segments of. -/

namespace Verif.Spec.Reassembly
open Verif.Model

/-- The parts received of a message, by segment number; `none` if not received. -/
abbrev Parts := List (Option TPDU)

/-- A timeout: counting down; run out, with the parts then received; its callback under way; no longer of
interest (stopped, or the callback is done). -/
inductive Clock where
  | counting
  | fired (parts : Parts)
  | expired (parts : Parts)
  | over
  deriving DecidableEq

/-- The reassembly: the parts pending, with the number of the clock that limits the wait, if any. -/
structure View where
  pending : Option (Parts × Option Nat)
  clocks : List Clock
  closed : Bool

/-- What happens to the reassembly. -/
inductive Input where
  /-- segment number `seq` arrives -/
  | segment (seq : Nat) (pdu : TPDU)
  | fire (clock : Nat)
  | expire (clock : Nat)
  | handle (clock : Nat)
  | close

/-- What comes out. -/
inductive Result where
  | silent
  | returned (parts : Parts) (err : Option Err)
  | handled (parts : Parts)
  deriving DecidableEq

/-- At the start. -/
def start : View := ⟨none, [], false⟩

/-- Wait for more parts, with a new clock if there is a timeout. -/
def wait (timeout : Bool) (v : View) (parts : Parts) : View :=
  if timeout then { v with pending := some (parts, some v.clocks.length), clocks := v.clocks ++ [.counting] }
  else { v with pending := some (parts, none) }

/-- A clock stops mattering. -/
def cancel (clocks : List Clock) : Option Nat → List Clock
  | some i => clocks.set i .over
  | none => clocks

/-- Has the clock run out? -/
def ranOut (clocks : List Clock) : Option Nat → Bool
  | some i => match clocks[i]? with
    | some (.fired _) => true
    | _ => false
  | none => false

/-- Has the segment of that number been received? -/
def received (parts : Parts) (seq : Nat) : Bool :=
  match parts[seq - 1]? with
  | some (some _) => true
  | _ => false

/-- A segment arrives. -/
def segment (timeout : Bool) (count : Nat) (v : View) (seq : Nat) (pdu : TPDU) : View × Result :=
  if v.closed then (v, .returned [] (some .closed))
  else
    let first := (List.replicate count none).set (seq - 1) (some pdu)
    match v.pending with
    | none => (wait timeout v first, .returned [] none)
    | some (parts, clock) =>
      if received parts seq then (v, .returned [] (some .duplicateSegment))
      else if ranOut v.clocks clock then (wait timeout v first, .returned [] none)
      else
        let parts := parts.set (seq - 1) (some pdu)
        let v := { v with clocks := cancel v.clocks clock }
        if ∀ q ∈ parts, q ≠ none then ({ v with pending := none }, .returned parts none)
        else (wait timeout v parts, .returned [] none)

/-- One step of the reassembly of a message of `count` segments. -/
def step (timeout handler : Bool) (count : Nat) (v : View) : Input → View × Result
  | .segment seq pdu => segment timeout count v seq pdu
  | .fire i =>
    match v.pending, v.clocks[i]? with
    | some (parts, _), some .counting => ({ v with clocks := v.clocks.set i (.fired parts) }, .silent)
    | _, _ => (v, .silent)
  | .expire i =>
    match v.clocks[i]? with
    | some (.fired parts) =>
      ({ v with pending := if v.pending.any (fun q => q.2 = some i) then none else v.pending
                clocks := v.clocks.set i (.expired parts) }, .silent)
    | _ => (v, .silent)
  | .handle i =>
    match v.clocks[i]? with
    | some (.expired parts) =>
      ({ v with clocks := v.clocks.set i .over }, if handler then .handled parts else .silent)
    | _ => (v, .silent)
  | .close =>
    ({ v with closed := true
              clocks := if v.closed then v.clocks else v.clocks.map (fun c => if c = .counting then .over else c) },
      .silent)

/-- A history of one message. -/
def run (timeout handler : Bool) (count : Nat) (v : View) : List Input → View × List Result
  | [] => (v, [])
  | i :: is =>
    let (v, r) := step timeout handler count v i
    let (v, rs) := run timeout handler count v is
    (v, r :: rs)

end Verif.Spec.Reassembly
