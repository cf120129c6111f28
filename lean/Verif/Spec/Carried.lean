import Verif.Model.ValidityPeriod

/-! What becomes of a validity period on its way. -/

namespace Verif.Spec
open Verif.Model

/-- `v` has an encoding, and whoever reads that as a period of the format of `v`, whatever follows it, gets `w` and
has read all of it. -/
def ArrivesAs (v w : ValidityPeriod) : Prop :=
  ∃ p, v.MarshalBinary = .ok p ∧ ∀ rest, ValidityPeriod.UnmarshalBinary {} (p ++ rest) v.Format = .ok (w, p.length)

end Verif.Spec
