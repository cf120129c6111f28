import Verif.Model.Buffer
import Verif.Spec.Memory

/-! What is in memory of a TPDU. -/

namespace Verif.Spec
open Verif.Model Verif.Model.Alias Verif.Model.Buffer

/-- Position `p` of array `a` is in the slice or can be written by appending to it. -/
def Covers (s : Slice) (a p : Nat) : Prop := a = s.arr ∧ s.off ≤ p ∧ p < s.off + s.cap

/-- Nothing is in both slices, or in the unused capacity of either. -/
def Disjoint (s t : Slice) : Prop := ∀ a p, Covers s a p → ¬ Covers t a p

/-- The slices of a TPDU: the user data and the data of each information element. -/
def slicesOf (o : Loaded) : List Slice := o.ud :: o.udh.map (·.data)

/-- A receiver with one buffer: each message is stored at its start and then handled by `f`, and what that returns is kept.
Afterwards there are all the outcomes, and the memory as it is then. -/
def receiveAll {α : Type} (f : Slice → Heap α) (buf : Slice) : List (List UInt8) → Mem UInt8 → List (M α) × Mem UInt8
  | [], m => ([], m)
  | b :: bs, m =>
    let r := f { buf with len := b.length } (m.write buf.arr buf.off b)
    let q := receiveAll f buf bs r.2
    (r.1 :: q.1, q.2)

/-- `sms.Unmarshal` of what follows the address of the SMSC in the octets from a modem. -/
def fromModem (grow : Nat → Nat) (dirn : Int) (src : Slice) : Heap Loaded := do
  let p ← unmarshalPDU src
  Buffer.Unmarshal grow p.2 dirn

/-- The TPDU as it is given to `Decode`: the user data is where it is, the header as a value. -/
def segmentOf (m : Mem UInt8) (o : Loaded) : Seg := ⟨o.load m, o.ud⟩

end Verif.Spec
