import Verif.Spec.Collect

/-! When `Collect` refuses a TPDU. -/

namespace Verif.Spec
open Verif.Model Verif.Model.Collector

/-- The name in `Pipes` of the reassembly to which a segment belongs: that of its message, and the empty name for a type that is
not supported. -/
noncomputable def pipeName (pdu : TPDU) (n ref : Nat) : Bytes :=
  open Classical in if Supported pdu then formatKey pdu.SmsType (peer pdu) ref n else []

/-- What `Pipes` shows in place `j` of the reassembly of that name. -/
def Shown (s : State) (name : Bytes) (j : Nat) (ptr : Ptr) : Prop :=
  ∃ p, (Pipes s).lookup name = some p ∧ (deref s p)[j]? = some (some ptr)

/-- The TPDU says it is a segment with an impossible number. -/
def Impossible (pdu : TPDU) : Prop := ∃ c, pdu.ConcatInfo = some c ∧ 2 ≤ c.segments ∧ (c.seqno < 1 ∨ c.seqno > c.segments)

/-- The TPDU is a segment, of which `Pipes` shows another one already. -/
def Repeated (s : State) (pdu : TPDU) : Prop := ∃ n seq ref ptr, Segment pdu n seq ref ∧ Shown s (pipeName pdu n ref) (seq - 1) ptr

/-- The call of `Collect` was given the TPDU and led from `s` to `s'`: it returned the TPDU, or `Pipes` shows it in its place. -/
def Accepted (s s' : State) (pdu : TPDU) (d : List (Option Ptr)) : Prop :=
  some ⟨s.calls, pdu⟩ ∈ d ∨ ∃ n seq ref, Segment pdu n seq ref ∧ Shown s' (pipeName pdu n ref) (seq - 1) ⟨s.calls, pdu⟩

end Verif.Spec
