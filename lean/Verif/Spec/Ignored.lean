import Verif.Model.Collector

/-! What of a TPDU matters to who receives it. -/

namespace Verif.Spec
open Verif.Model Verif.Model.Collector

/-- The elements that are used: concatenation with a reference of 8 or 16 bits, national language single shift and locking
shift (TS 23.040 9.2.3.24). -/
def Heeded (ie : IE) : Bool := ie.ID == 0 || ie.ID == 8 || ie.ID == 24 || ie.ID == 25

/-- The TPDUs have the same type, addresses, alphabet, user data and elements of those kinds, in the same order.  Anything
else, other elements of the header in particular, may differ. -/
structure SameUse (t t' : TPDU) : Prop where
  type : t.SmsType = t'.SmsType
  oa : t.OA = t'.OA
  da : t.DA = t'.DA
  alphabet : t.Alphabet.1 = t'.Alphabet.1
  ud : t.UD = t'.UD
  udh : t.UDH.filter Heeded = t'.UDH.filter Heeded

/-- Two lists, element by element. -/
inductive Both {α β : Type} (R : α → β → Prop) : List α → List β → Prop
  | nil : Both R [] []
  | cons {a b l l'} : R a b → Both R l l' → Both R (a :: l) (b :: l')

/-- What happens to two Collectors, the same but for the TPDUs. -/
inductive SameEvent : Event → Event → Prop
  | collect {t t'} : SameUse t t' → SameEvent (.collect t) (.collect t')
  | other {e} : SameEvent e e

/-- The TPDU of the same call, or none. -/
inductive SamePlace : Option Ptr → Option Ptr → Prop
  | none : SamePlace none none
  | some {p p'} : p.id = p'.id → SameUse p.pdu p'.pdu → SamePlace (some p) (some p')

/-- The same answer, but for what differs in the TPDUs. -/
inductive SameOutput : Output → Output → Prop
  | silent : SameOutput .silent .silent
  | returned {d d' e} : Both SamePlace d d' → SameOutput (.returned d e) (.returned d' e)
  | handled {d d'} : Both SamePlace d d' → SameOutput (.handled d) (.handled d')

end Verif.Spec
