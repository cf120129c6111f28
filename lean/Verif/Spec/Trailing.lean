import Verif.Model.Tpdu

/-! Where the user data length is in a TPDU, as 3GPP TS 23.040 lays it out (9.2.2, 9.2.3). -/

namespace Verif.Spec.Trailing
open Verif.Model

/-- An octet of a TPDU as a number. -/
def octet (p : Bytes) (i : Nat) : Nat := ((p[i]?).getD 0).toNat

/-- The octets of an address whose length octet is at `i`: the length, the type and two digits in each octet. -/
def address (p : Bytes) (i : Nat) : Nat := 2 + (octet p i + 1) / 2

/-- The octets of the validity period, whose format is in bits 3 and 4 of the first octet:
none, 7 (enhanced), 1 (relative) or 7 (absolute). -/
def period (p : Bytes) : Nat :=
  match octet p 0 / 8 % 4 with
  | 0 => 0
  | 2 => 1
  | _ => 7

/-- The octets of the optional PID and DCS, which are announced in bits 0 and 1 of the parameter indicator at `i`. -/
def optionals (p : Bytes) (i : Nat) : Nat := octet p i % 2 + octet p i / 2 % 2

/-- first octet, reference, destination, PID, DCS, validity period -/
def submit (p : Bytes) : Nat := 2 + address p 2 + 2 + period p
/-- first octet, originator, PID, DCS, time stamp -/
def deliver (p : Bytes) : Nat := 1 + address p 1 + 2 + 7
/-- first octet, reference, PID, command type, message number, destination -/
def command (p : Bytes) : Nat := 5 + address p 5
/-- first octet, failure cause, parameter indicator, PID, DCS -/
def deliverReport (p : Bytes) : Nat := 3 + optionals p 2
/-- first octet, failure cause, parameter indicator, time stamp, PID, DCS -/
def submitReport (p : Bytes) : Nat := 3 + 7 + optionals p 2
/-- where the parameter indicator of a status report is: after the first octet, the reference, the recipient, two time
stamps and the status -/
def statusIndicator (p : Bytes) : Nat := 2 + address p 2 + 7 + 7 + 1
/-- parameter indicator, PID, DCS -/
def statusReport (p : Bytes) : Nat := statusIndicator p + 1 + optionals p (statusIndicator p)

/-- Whether the parameter indicator at `i` says that there is a user data length: bit 2. -/
def hasLength (p : Bytes) (i : Nat) : Prop := octet p i / 4 % 2 = 1

instance (p : Bytes) (i : Nat) : Decidable (hasLength p i) := by unfold hasLength; infer_instance

end Verif.Spec.Trailing
