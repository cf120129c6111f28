import Verif.Model.Sms

/-! Options that offer character sets. -/

namespace Verif.Spec
open Verif.Model

/-- The option offers national language tables to the encoder. -/
def offersCharsets : Model.Sms.EncoderOption → Bool
  | .charsets _ => true
  | _ => false

/-- The options, less those that offer tables. -/
def withoutCharsets (options : List Model.Sms.EncoderOption) : List Model.Sms.EncoderOption :=
  options.filter fun o => !offersCharsets o

end Verif.Spec
