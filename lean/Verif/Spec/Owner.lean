import Verif.Model.Collector

/-! C115: someone who holds a slice of the Collector's writes to it. -/

namespace Verif.Spec
open Verif.Model Verif.Model.Collector

/-- The state of the Collector after someone who holds the slice `p` has set its elements, and the TPDUs they point to,
to `d`. -/
def overwrite (s : State) (p : Nat) (d : List (Option Ptr)) : State :=
  { s with heap := s.heap.modify p (fun pipe => { pipe with segments := d }) }

/-- A history in which, between the events, the holder of the slice `p` writes to it. -/
abbrev Writing := List (Event ⊕ List (Option Ptr))

/-- What happens to the Collector, leaving out what the holder of the slice does. -/
def Writing.events (l : Writing) : List Event := l.filterMap Sum.getLeft?

/-- What the holder writes. -/
def Writing.writes (l : Writing) : List (List (Option Ptr)) := l.filterMap Sum.getRight?

/-- The final state and the outputs of such a history. -/
def runWriting (p : Nat) (s : State) : Writing → M (State × List Output)
  | [] => .ok (s, [])
  | .inl e :: l => do
    let (s, o) ← step s e
    let (s, os) ← runWriting p s l
    return (s, o :: os)
  | .inr d :: l => runWriting p (overwrite s p d) l

end Verif.Spec
