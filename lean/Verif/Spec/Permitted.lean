import Verif.Spec.Language
import Verif.Model.Tpdu

/-! Which of the languages that a header names are used. -/

namespace Verif.Spec
open Verif.Model

instance (options : List CharsetOpt) : DecidablePred (permitsLocking options) := fun n => by
  unfold permitsLocking; infer_instance

instance (options : List CharsetOpt) : DecidablePred (permitsShift options) := fun n => by
  unfold permitsShift; infer_instance

/-- The language of the last element `iei`, if there is a table for it and it is permitted, otherwise 0, which stands for
the default table. -/
def permittedLanguage (permits : Int → Prop) [DecidablePred permits] (udh : List IE) (iei : UInt8) : UInt8 :=
  match (udh.filter fun ie => ie.ID = iei).getLast? with
  | some ⟨_, n :: _⟩ => if 1 ≤ n.toNat ∧ n.toNat ≤ 13 ∧ permits n.toNat then n else 0
  | _ => 0

/-- The TPDU with a header that says no more than which tables to use, of those permitted. -/
def onlyTables (options : List CharsetOpt) (p : TPDU) : TPDU :=
  { p with UDH := [⟨25, [permittedLanguage (permitsLocking options) p.UDH 25]⟩,
    ⟨24, [permittedLanguage (permitsShift options) p.UDH 24]⟩] }

end Verif.Spec
