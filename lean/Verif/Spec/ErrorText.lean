import Verif.Model.Prelude

/-! Field names as the package has them. -/

namespace Verif.Spec
open Verif.Model

/-- A field name is of letters, digits and dots. -/
def FieldName (f : String) : Prop := ∀ c ∈ f.toList, c.isAlphanum ∨ c = '.'

/-- The fields that an error names are such. -/
def Named : Err → Prop
  | .decode f _ e => FieldName f ∧ Named e
  | .encode f e => FieldName f ∧ Named e
  | _ => True

end Verif.Spec
