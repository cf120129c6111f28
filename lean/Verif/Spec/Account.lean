import Verif.Spec.Trace

/-! Where the segments given to a Collector are. -/

namespace Verif.Spec
open Verif.Model Verif.Model.Collector

/-- The TPDUs passed to `Collect`, call by call. -/
def collected (es : List Event) : List TPDU := es.filterMap (fun e => match e with | .collect pdu => some pdu | _ => none)

/-- What the calls of `Collect` returned, call by call. -/
def replies (os : List Output) : List (List (Option Ptr) × Option Err) :=
  os.filterMap (fun o => match o with | .returned d e => some (d, e) | _ => none)

/-- A place where a segment can be. -/
inductive Place where
  /-- in the result of the event, a call of `Collect` -/
  | returned (event slot : Nat)
  /-- in what the expiry handler was called with at the event -/
  | handled (event slot : Nat)
  /-- in the pending reassembly of that key -/
  | pending (key : Bytes) (slot : Nat)
  /-- in a reassembly whose timer has run out, and is no longer pending, but is still to be handed over -/
  | expiring (timer slot : Nat)
  /-- in a reassembly whose timer has run out, where there is no handler to hand it to -/
  | discarded (timer slot : Nat)
  deriving DecidableEq

/-- The TPDU of call `c` is at that place, after a history with outputs `os` that led to `s`. -/
def At (os : List Output) (s : State) (c : Nat) : Place → Prop
  | .returned i j => ∃ d e ptr, os[i]? = some (.returned d e) ∧ d[j]? = some (some ptr) ∧ ptr.id = c
  | .handled i j => ∃ d ptr, os[i]? = some (.handled d) ∧ d[j]? = some (some ptr) ∧ ptr.id = c
  | .pending k j => ∃ p ptr, (Pipes s).lookup k = some p ∧ (deref s p)[j]? = some (some ptr) ∧ ptr.id = c
  | .expiring i j => ∃ t ptr, s.timers[i]? = some t ∧
      (t.state = .expired ∨ (t.state = .fired ∧ ∀ k, (Pipes s).lookup k ≠ some t.pipe)) ∧
      (deref s t.pipe)[j]? = some (some ptr) ∧ ptr.id = c
  | .discarded i j => s.handler = false ∧ ∃ t ptr, s.timers[i]? = some t ∧ t.state = .done ∧
      (deref s t.pipe)[j]? = some (some ptr) ∧ ptr.id = c

end Verif.Spec
