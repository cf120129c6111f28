import Verif.Model.Tpdu

/-! Terms used to state the properties of the root package. -/

namespace Verif.Spec
open Verif.Model

/-- User data of the UCS-2 segments at the end of a list of segments, i.e. those after the last segment in
another alphabet, joined. -/
def pendingUcs2 (segs : List TPDU) : List UInt8 :=
  ((segs.reverse.takeWhile fun s => s.Alphabet.1 = .ucs2).reverse.map TPDU.UD).flatten

end Verif.Spec
