import Verif.Model.Sms

/-!
Model of collect.go.

The Collector is a labelled transition system.  Every method holds the mutex for its whole body, so a call is
one atomic step; a timer goes through three separate steps: it *fires* (the runtime starts the goroutine),
the goroutine executes its critical section (*expire*, collect.go:133-138) and finally calls the handler
(*handle*, collect.go:139-141).  `time.AfterFunc`/`Timer.Stop` are modelled from the documentation of package
time: `Stop` returns true, and prevents the firing, exactly when the timer has not fired and was not stopped.
-/

namespace Verif.Model

/-- Decimal digits of a number, most significant first (`%d` of a non-negative int).  The fuel is the
number itself, which exceeds the number of digits. -/
def decimalAux : Nat → Nat → Bytes
  | 0, n => [UInt8.ofNat (48 + n % 10)]
  | fuel + 1, n =>
    if n < 10 then [UInt8.ofNat (48 + n)]
    else decimalAux fuel (n / 10) ++ [UInt8.ofNat (48 + n % 10)]

@[inherit_doc decimalAux] def decimal (n : Nat) : Bytes := decimalAux n n

/-- A lower case hex digit. -/
def hexDig (n : Nat) : UInt8 := if n < 10 then UInt8.ofNat (48 + n) else UInt8.ofNat (87 + n)

/-- `%02x` of a byte. -/
def hex02 (b : UInt8) : Bytes := [hexDig (b.toNat / 16), hexDig (b.toNat % 16)]

/-- `fmt.Sprintf("%d:%02x:%s:%d:%d", st, toa, addr, concatRef, segments)`, collect.go:152-157. -/
def formatKey (st : UInt8) (a : Address) (concatRef segments : Nat) : Bytes :=
  decimal st.toNat ++ [0x3a] ++ hex02 a.TOA ++ [0x3a] ++ a.Addr ++ [0x3a] ++ decimal concatRef ++
    [0x3a] ++ decimal segments

/-- `pduKey`, collect.go:147-169: the key and the error returned with it. -/
def pduKey (pdu : TPDU) (segments concatRef : Nat) : Bytes × Option Err :=
  let st := pdu.SmsType
  if st = SmsSubmit then (formatKey st pdu.DA concatRef segments, none)
  else if st = SmsDeliver then (formatKey st pdu.OA concatRef segments, none)
  else ([], some (.unsupportedSmsType st))

namespace Collector

/-- A `*tpdu.TPDU`: `Collect` takes its argument by value and stores the address of the copy, so every call
creates a distinct pointer, identified here by the number of the call. -/
structure Ptr where
  id : Nat
  pdu : TPDU
  deriving DecidableEq, Repr

/-- State of a timer created by `time.AfterFunc`. -/
inductive TimerState where
  /-- counting down -/ | armed
  /-- the goroutine has been started but has not yet acquired the mutex -/ | fired
  /-- the critical section is done, the handler has not been called yet -/ | expired
  /-- the callback has returned -/ | done
  /-- stopped before firing -/ | stopped
  deriving DecidableEq, Repr

/-- A timer with the variables captured by its callback. -/
structure Timer where
  state : TimerState
  key : Bytes
  pipe : Nat
  deriving DecidableEq, Repr

/-- `pipe`, collect.go:173-177; `cleanup` is an index into `State.timers`. -/
structure Pipe where
  cleanup : Option Nat
  segments : List (Option Ptr)
  frags : Nat
  deriving DecidableEq, Repr

/-- `Collector`, collect.go:17-23, with the heap of pipes ever allocated (`*pipe` is an index into it), the
timers ever created, and the number of `Collect` calls so far. -/
structure State where
  pipes : List (Bytes × Nat)
  heap : List Pipe
  timers : List Timer
  closed : Bool
  /-- `duration != 0` -/
  timeout : Bool
  /-- `expiryHandler != nil` -/
  handler : Bool
  calls : Nat
  deriving DecidableEq, Repr

/-- `NewCollector`, collect.go:53-61, with `WithReassemblyTimeout` (:40-50) reduced to whether the duration
is non-zero and whether the handler is non-nil. -/
def New (timeout handler : Bool) : State := ⟨[], [], [], false, timeout, handler, 0⟩

/-- What a caller (or the expiry handler) observes of a step. -/
inductive Output where
  | silent
  /-- `Collect` returned these segments (nil pointers are `none`) and this error. -/
  | returned (d : List (Option Ptr)) (err : Option Err)
  /-- the expiry handler was called with these segments -/
  | handled (d : List (Option Ptr))
  deriving DecidableEq, Repr

/-- `p.cleanup.Stop()`: whether the timer was stopped, and the timers afterwards. -/
def stopTimer (timers : List Timer) (i : Nat) : Bool × List Timer :=
  match timers[i]? with
  | some t => if t.state = .armed then (true, timers.set i { t with state := .stopped }) else (false, timers)
  | none => (false, timers)

/-- Map assignment `c.pipes[key] = p` and `delete(c.pipes, key)`. -/
def mapSet (m : List (Bytes × Nat)) (k : Bytes) (v : Nat) : List (Bytes × Nat) :=
  (k, v) :: m.filter (fun e => e.1 ≠ k)
@[inherit_doc mapSet] def mapDelete (m : List (Bytes × Nat)) (k : Bytes) : List (Bytes × Nat) :=
  m.filter (fun e => e.1 ≠ k)

/-- The part of `Collect` from `p.segments[seqno-1] = &pdu` on, collect.go:125-144, for the pipe `p`. -/
def place (s : State) (ptr : Ptr) (key : Bytes) (keyErr : Option Err) (segments seqno p : Nat) :
    M (State × Output) := do
  let pipe ← idx s.heap p
  -- collect.go:125: `seqno-1` is not negative here
  if seqno - 1 < pipe.segments.length then
    let pipe := { pipe with segments := pipe.segments.set (seqno - 1) (some ptr), frags := pipe.frags + 1 }
    if pipe.frags = segments then
      return ({ s with pipes := mapDelete s.pipes key, heap := s.heap.set p pipe },
        .returned pipe.segments none)
    else if s.timeout then
      let pipe := { pipe with cleanup := some s.timers.length }
      return ({ s with heap := s.heap.set p pipe, timers := s.timers ++ [⟨.armed, key, p⟩] },
        .returned [] keyErr)
    else
      return ({ s with heap := s.heap.set p pipe }, .returned [] keyErr)
  else panicM .index

/-- `c.pipes[key] = &pipe{nil, make([]*tpdu.TPDU, segments), 0}`, collect.go:122-123, then :125-144. -/
def placeNew (s : State) (ptr : Ptr) (key : Bytes) (keyErr : Option Err) (segments seqno : Nat) :
    M (State × Output) :=
  place { s with
    pipes := mapSet s.pipes key s.heap.length
    heap := s.heap ++ [⟨none, List.replicate segments none, 0⟩] } ptr key keyErr segments seqno s.heap.length

/-- `Collect`, collect.go:95-145. -/
def Collect (s : State) (pdu : TPDU) : M (State × Output) :=
  let ptr : Ptr := ⟨s.calls, pdu⟩
  let s := { s with calls := s.calls + 1 }
  if s.closed then .ok (s, .returned [] (some .closed))
  else match pdu.ConcatInfo with
    | none => .ok (s, .returned [some ptr] none)
    | some ci =>
      if ci.segments < 2 then .ok (s, .returned [some ptr] none)
      else if ci.seqno < 1 ∨ ci.seqno > ci.segments then
        .ok (s, .returned [] (some .reassemblyInconsistency))
      else
        let (key, keyErr) := pduKey pdu ci.segments ci.mref
        match s.pipes.lookup key with
        | none => placeNew s ptr key keyErr ci.segments ci.seqno
        | some p => do
          let pipe ← idx s.heap p
          let cur ← idx pipe.segments (ci.seqno - 1 : Nat)
          if cur.isSome then return (s, .returned [] (some .duplicateSegment))
          else match pipe.cleanup with
            | none => place s ptr key keyErr ci.segments ci.seqno p
            | some tid =>
              let (stopped, timers) := stopTimer s.timers tid
              let s := { s with timers := timers }
              if stopped then place s ptr key keyErr ci.segments ci.seqno p
              else placeNew s ptr key keyErr ci.segments ci.seqno

/-- Stopping the timers of all pipes in the map, collect.go:71-75. -/
def stopAll (heap : List Pipe) : List (Bytes × Nat) → List Timer → List Timer
  | [], timers => timers
  | (_, p) :: rest, timers =>
    match heap[p]? with
    | some pipe => match pipe.cleanup with
      | some tid => stopAll heap rest (stopTimer timers tid).2
      | none => stopAll heap rest timers
    | none => stopAll heap rest timers

/-- `Close`, collect.go:64-76. -/
def Close (s : State) : State :=
  if s.closed then s
  else { s with closed := true, timers := stopAll s.heap s.pipes s.timers }

/-- `Pipes`, collect.go:81-89: the map from keys to slices; a slice is a reference to the pipe's array. -/
def Pipes (s : State) : List (Bytes × Nat) := s.pipes

/-- What a slice obtained from `Pipes` shows at state `s`. -/
def deref (s : State) (p : Nat) : List (Option Ptr) := ((s.heap[p]?).map (·.segments)).getD []

/-- The timer `i` runs out and the runtime starts its callback. -/
def fire (s : State) (i : Nat) : State :=
  match s.timers[i]? with
  | some t => if t.state = .armed then { s with timers := s.timers.set i { t with state := .fired } } else s
  | none => s

/-- The critical section of the callback, collect.go:133-138. -/
def expire (s : State) (i : Nat) : State :=
  match s.timers[i]? with
  | some t =>
    if t.state = .fired then
      { s with
        pipes := if s.pipes.lookup t.key = some t.pipe then mapDelete s.pipes t.key else s.pipes
        timers := s.timers.set i { t with state := .expired } }
    else s
  | none => s

/-- The call of the expiry handler, collect.go:139-141. -/
def handle (s : State) (i : Nat) : State × Output :=
  match s.timers[i]? with
  | some t =>
    if t.state = .expired then
      ({ s with timers := s.timers.set i { t with state := .done } },
        if s.handler then .handled (deref s t.pipe) else .silent)
    else (s, .silent)
  | none => (s, .silent)

/-- Everything that can happen to a Collector.  A timer event for a timer that is not in the required
state does not happen (it leaves the state unchanged and is silent). -/
inductive Event where
  | collect (pdu : TPDU)
  | fire (timer : Nat)
  | expire (timer : Nat)
  | handle (timer : Nat)
  | close
  deriving DecidableEq, Repr

/-- One step. -/
def step (s : State) : Event → M (State × Output)
  | .collect pdu => Collect s pdu
  | .fire i => .ok (fire s i, .silent)
  | .expire i => .ok (expire s i, .silent)
  | .handle i => .ok (handle s i)
  | .close => .ok (Close s, .silent)

/-- A history: the final state and the outputs, in order. -/
def run (s : State) : List Event → M (State × List Output)
  | [] => .ok (s, [])
  | e :: es => do
    let (s, o) ← step s e
    let (s, os) ← run s es
    return (s, o :: os)

end Collector
end Verif.Model
