import Verif.Model.Tpdu

/-! The TPDUs of messages, numbered otherwise. -/

namespace Verif.Spec
open Verif.Model

/-- The element with its first octet, the reference of an element of concatenation, replaced. -/
def withRef (ref : UInt8) (ie : IE) : IE := { ie with Data := ie.Data.set 0 ref }

/-- The TPDUs of one message, given message references from the `m`-th on and, in the last element of the headers if
there are several TPDUs, the `c`-th concatenation reference.  Both count 1, 2, ... , as octets. -/
def renumbered (m c : Nat) (pdus : List TPDU) : List TPDU :=
  pdus.mapIdx fun k p => { p with
    MR := UInt8.ofNat (m + k + 1)
    UDH := if pdus.length < 2 then p.UDH else p.UDH.dropLast ++ (p.UDH.getLast?.map (withRef (UInt8.ofNat (c + 1)))).toList }

/-- The TPDUs of messages numbered one after the other, when `m` TPDUs and `c` messages of several TPDUs went before. -/
def numbered (m c : Nat) : List (List TPDU) → List (List TPDU)
  | [] => []
  | pdus :: rest => renumbered m c pdus :: numbered (m + pdus.length) (if pdus.length < 2 then c else c + 1) rest

end Verif.Spec
