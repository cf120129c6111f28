import Verif.Model.Collector

/-! Vocabulary for statements about reassembly. -/

namespace Verif.Spec
open Verif.Model

/-- The TPDU is segment `seq` of `n` of a message with reference `ref`, and `n` is at least 2. -/
structure Segment (pdu : TPDU) (n seq ref : Nat) : Prop where
  info : pdu.ConcatInfo = some ⟨n, seq, ref⟩
  multi : 2 ≤ n
  pos : 1 ≤ seq
  le : seq ≤ n

/-- The TPDU says it is one of several segments of a message (but maybe with an impossible segment number). -/
def MultiPart (pdu : TPDU) : Prop := ∃ c, pdu.ConcatInfo = some c ∧ 2 ≤ c.segments

/-- SMS-SUBMIT or SMS-DELIVER. -/
def Supported (pdu : TPDU) : Prop := pdu.SmsType = SmsSubmit ∨ pdu.SmsType = SmsDeliver

/-- Multi-part TPDUs are of a type the Collector supports. -/
def Fine (pdu : TPDU) : Prop := MultiPart pdu → Supported pdu

/-- The other party: the destination of a submission, the originator of a delivery. -/
def peer (pdu : TPDU) : Address := if pdu.SmsType = SmsSubmit then pdu.DA else pdu.OA

/-- What identifies the message a segment belongs to: type, other party, reference and number of segments. -/
structure Ident where
  type : UInt8
  peer : Address
  ref : Nat
  count : Nat
  deriving DecidableEq

/-- The TPDU is segment `seq` of the message `m`. -/
def SegmentOf (m : Ident) (seq : Nat) (pdu : TPDU) : Prop :=
  Segment pdu m.count seq m.ref ∧ Supported pdu ∧ pdu.SmsType = m.type ∧ peer pdu = m.peer

end Verif.Spec
