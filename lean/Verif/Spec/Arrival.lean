import Verif.Spec.Account

/-! Vocabulary for the arrival of the segments of a message. -/

namespace Verif.Spec
open Verif.Model Verif.Model.Collector
open Verif.Spec.Reassembly (Parts)

/-- `segs` are the segments of the message, in sequence. -/
structure SegmentsOf (m : Ident) (segs : List TPDU) : Prop where
  count : segs.length = m.count
  multi : 2 ≤ m.count
  seg : ∀ (j : Nat) (pdu : TPDU), segs[j]? = some pdu → SegmentOf m (j + 1) pdu

/-- The first TPDU among those that arrived that has the segment number. -/
def firstOf (m : Ident) (arrived : List TPDU) (seq : Nat) : Option TPDU :=
  arrived.find? (fun pdu => segOf m pdu = some seq)

/-- What has arrived of the message, by segment number. -/
def partsOf (m : Ident) (arrived : List TPDU) : Parts := (List.range m.count).map (fun j => firstOf m arrived (j + 1))

/-- All segments of the message have arrived. -/
def Covered (m : Ident) (arrived : List TPDU) : Prop := ∀ seq, 1 ≤ seq → seq ≤ m.count → firstOf m arrived seq ≠ none

/-- The message as returned by calls of `Collect`: every result that is made of segments of the message. -/
def deliveries (m : Ident) (os : List Output) : List Parts :=
  os.filterMap (fun o => match o with
    | .returned d _ => if d ≠ [] ∧ ∀ q ∈ d, ∃ ptr, q = some ptr ∧ (segOf m ptr.pdu).isSome then some (pdus d) else none
    | _ => none)

/-- The complete messages that calls of `Collect` returned. -/
def returns (os : List Output) : List Parts :=
  os.filterMap (fun o => match o with
    | .returned d _ => if d ≠ [] then some (pdus d) else none
    | _ => none)

end Verif.Spec
