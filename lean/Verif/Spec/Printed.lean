import Verif.Spec.Fields

/-! How the output of smssubmit and smsdeliver is read. -/

namespace Verif.Spec
open Verif.Model

/-- The first, third, fifth line and so on. -/
def oddLines : List Bytes → List Bytes
  | a :: _ :: rest => a :: oddLines rest
  | _ => []

/-- The second, fourth, sixth line and so on. -/
def evenLines : List Bytes → List Bytes
  | _ :: b :: rest => b :: evenLines rest
  | _ => []

/-- The line of a message: the number is what comes before the first ": ", the text is the rest. -/
def MessageLine (line number text : Bytes) : Prop := line = number ++ b!": " ++ text ∧ ¬ b!": " <:+: number

/-- The output, line by line, is read as these messages: number and text. -/
def ReadAs (out : Bytes) (messages : List (Bytes × Bytes)) : Prop :=
  ∃ ls, Lines out ls ∧ ls.length = messages.length ∧ ∀ p ∈ ls.zip messages, MessageLine p.1 p.2.1 p.2.2

end Verif.Spec
