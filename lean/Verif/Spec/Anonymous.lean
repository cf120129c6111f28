import Verif.Spec.Collect

/-!
Small spec for C67: what happens to the segments of TPDUs of types that the Collector does not support.  It
keeps all of them in one place, whatever message they belong to and however many segments that has.
-/

namespace Verif.Spec
open Verif.Model

/-- The TPDU is neither an SMS-SUBMIT nor an SMS-DELIVER, and says it is segment `seq` of `n`: `(n, seq)`. -/
def strayPart (t : TPDU) : Option (Nat × Nat) :=
  if t.SmsType = SmsSubmit ∨ t.SmsType = SmsDeliver then none
  else match t.ConcatInfo with
    | none => none
    | some c => if 2 ≤ c.segments ∧ 1 ≤ c.seqno ∧ c.seqno ≤ c.segments then some (c.segments, c.seqno) else none

/-- The one place: the number of segments that the TPDU it was made for announced, and the numbers of the
segments that it holds. -/
abbrev Stray := Option (Nat × List Nat)

/-- Whether a program ends with a panic that keeps such segments there, decodes the content when the number of
segments is the one that the last of them announced, and then forgets the content. -/
def Crashes : Stray → List (Nat × Nat) → Prop
  | _, [] => False
  | none, (n, seq) :: rest => Crashes (some (n, [seq])) rest
  | some (l, got), (n, seq) :: rest =>
    if l < seq then True  -- there is no such place
    else if seq ∈ got then Crashes (some (l, got)) rest
    else if got.length + 1 = n then
      if n = l then Crashes none rest
      else True  -- the number is right but some are missing
    else Crashes (some (l, seq :: got)) rest

instance Crashes.decidable : ∀ (w : Stray) (ps : List (Nat × Nat)), Decidable (Crashes w ps)
  | w, [] => by unfold Crashes; infer_instance
  | none, (_, _) :: rest => by unfold Crashes; exact Crashes.decidable _ rest
  | some (l, got), (n, seq) :: rest => by
    have h1 := Crashes.decidable (some (l, got)) rest
    have h2 := Crashes.decidable none rest
    have h3 := Crashes.decidable (some (l, seq :: got)) rest
    unfold Crashes; infer_instance

end Verif.Spec
