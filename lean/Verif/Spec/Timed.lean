import Verif.Spec.Rounds

/-! Histories of a Collector in real time.

`time.AfterFunc(d, f)` (collect.go:130) starts `f` no earlier than `d` after the call; how much later is up to
the runtime.  The model of the Collector (Model/Collector.lean) knows only whether there is a timeout, and lets
timers fire at any event; here every event has a time, and timers fire in accordance with it. -/

namespace Verif.Spec.Timed
open Verif.Model Verif.Model.Collector Verif.Spec

/-- Events with the times they happen at. -/
abbrev History := List (Int × Event)

/-- The events, without times. -/
def events (h : History) : List Event := h.map (·.2)

/-- Time does not go backwards. -/
def Ordered (h : History) : Prop := (h.map (·.1)).Pairwise (· ≤ ·)

/-- The calls of `Collect`, with their times. -/
def arrivals (h : History) : List (Int × TPDU) :=
  h.filterMap (fun x => match x.2 with | .collect pdu => some (x.1, pdu) | _ => none)

/-- The segments of the message that arrive, with the times they arrive at. -/
def segs (m : Ident) (h : History) : List (Int × TPDU) := (arrivals h).filter (fun x => (segOf m x.2).isSome)

/-- `P now e s set` holds at every event of the history, where `now` is the time of the event `e`, `s` is the
state before it, and `set` are the times at which the timers of `s` were created. -/
def Along (P : Int → Event → State → List Int → Prop) (s : State) (set : List Int) : History → Prop
  | [] => True
  | (now, e) :: h => P now e s set ∧
    match step s e with
    | .ok (s', _) => Along P s' (set ++ List.replicate (s'.timers.length - s.timers.length) now) h
    | .error _ => True

/-- No timer fires earlier than `d` after it was created. -/
def Timely (d : Int) : State → List Int → History → Prop :=
  Along fun now e s set => ∀ i t τ, e = .fire i → s.timers[i]? = some t → t.state = .armed → set[i]? = some τ → τ + d ≤ now

/-- No timer is in one of these states later than `lag` after it was created. -/
def Prompt (states : List TimerState) (lag : Int) : State → List Int → History → Prop :=
  Along fun now _ s set => ∀ (i : Nat) t τ, s.timers[i]? = some t → t.state ∈ states → set[i]? = some τ → now ≤ τ + lag

/-- The segments of a message that arrive, arrive in time, where `since` arrived since the message was last
complete, and the last of these that was new arrived at `last`: any other segment arrives less than `d` later. -/
def Brisk (d : Int) (m : Ident) (since : List TPDU) (last : Int) : List (Int × TPDU) → Prop
  | [] => True
  | (now, pdu) :: l =>
    (since ≠ [] → now < last + d) ∧
    if ∀ q ∈ partsOf m (since ++ [pdu]), q ≠ none then Brisk d m [] now l
    else Brisk d m (since ++ [pdu]) (if ∃ q ∈ since, segOf m q = segOf m pdu then last else now) l

/-- What the calls that were given segments of the message answered, as TPDUs. -/
def answers (m : Ident) (es : List Event) (os : List Output) : List (Reassembly.Parts × Option Err) :=
  (((collected es).zip (replies os)).filter (fun x => (segOf m x.1).isSome)).map (fun x => (pdus x.2.1, x.2.2))

/-- Of the segments `d`, where call `c` of `Collect` was made at time `times[c]`, any but the last one was
followed by another within `lag`. -/
def Chained (lag : Int) (times : List Int) (d : List (Option Ptr)) : Prop :=
  ∀ ptr, some ptr ∈ d → (∀ q, some q ∈ d → q.id ≤ ptr.id) ∨
    ∃ q x y, some q ∈ d ∧ ptr.id < q.id ∧ times[ptr.id]? = some x ∧ times[q.id]? = some y ∧ y ≤ x + lag

/-- What is answered to segments of a message that arrive one after the other, if whatever has not become complete
is forgotten once no new segment of it has arrived for more than `lag`.  As `rounds`, where `since` are those that
arrived since the message was last complete or forgotten, and the last of these that was new arrived at `last`. -/
def epochs (lag : Int) (m : Ident) (since : List TPDU) (last : Int) : List (Int × TPDU) → List (Reassembly.Parts × Option Err)
  | [] => []
  | (now, pdu) :: l =>
    let since := if last + lag < now then [] else since
    if ∀ q ∈ partsOf m (since ++ [pdu]), q ≠ none then (partsOf m (since ++ [pdu]), none) :: epochs lag m [] now l
    else if ∃ q ∈ since, segOf m q = segOf m pdu then
      ([], some .duplicateSegment) :: epochs lag m (since ++ [pdu]) last l
    else ([], none) :: epochs lag m (since ++ [pdu]) now l

/-- The segments arrive so that there is no doubt what is forgotten: any that arrives when the message is not complete
arrives less than `d` or more than `lag` after the last new one. -/
def Clear (d lag : Int) (m : Ident) (since : List TPDU) (last : Int) : List (Int × TPDU) → Prop
  | [] => True
  | (now, pdu) :: l =>
    (since ≠ [] → now < last + d ∨ last + lag < now) ∧
    let since := if last + lag < now then [] else since
    if ∀ q ∈ partsOf m (since ++ [pdu]), q ≠ none then Clear d lag m [] now l
    else if ∃ q ∈ since, segOf m q = segOf m pdu then Clear d lag m (since ++ [pdu]) last l
    else Clear d lag m (since ++ [pdu]) now l

end Verif.Spec.Timed
