import Verif.Model.Sms

namespace Verif.Proofs.Apart
open Verif.Model

/-- What the loop of `Decode` does with two lists of segments, from what it does with the first. -/
theorem loop_append (opts : List CharsetOpt) (b : List TPDU) : ∀ (a : List TPDU) (d : Bytes),
    match Model.Sms.decodeLoop opts a d with
    | .ok x => Model.Sms.decodeLoop opts (a ++ b) d = (Model.Sms.decodeLoop opts b []).map (x ++ ·)
    | .error (.err (.ucs2Dangling e)) => ∃ x, Model.Sms.decodeLoop opts (a ++ b) d = (Model.Sms.decodeLoop opts b e).map (x ++ ·)
    | .error f => Model.Sms.decodeLoop opts (a ++ b) d = .error f := by
  intro a
  induction a with
  | nil =>
    intro d
    by_cases hd : d = []
    · subst hd
      show Model.Sms.decodeLoop opts b [] = _
      cases Model.Sms.decodeLoop opts b [] <;> simp [Except.map]
    · simp only [Model.Sms.decodeLoop, ne_eq, hd, not_false_eq_true, if_true, fail, List.nil_append]
      refine ⟨[], ?_⟩
      cases Model.Sms.decodeLoop opts b d <;> simp [Except.map]
  | cons s ss ih =>
    intro d
    rw [List.cons_append, Model.Sms.decodeLoop, Model.Sms.decodeLoop]
    have key : ∀ (t e : Bytes),
        match ((do let rest ← Model.Sms.decodeLoop opts ss e; return t ++ rest) : M Bytes) with
        | .ok x => ((do let rest ← Model.Sms.decodeLoop opts (ss ++ b) e; return t ++ rest) : M Bytes) =
            (Model.Sms.decodeLoop opts b []).map (x ++ ·)
        | .error (.err (.ucs2Dangling e')) => ∃ x, ((do let rest ← Model.Sms.decodeLoop opts (ss ++ b) e; return t ++ rest) : M Bytes) =
            (Model.Sms.decodeLoop opts b e').map (x ++ ·)
        | .error f => ((do let rest ← Model.Sms.decodeLoop opts (ss ++ b) e; return t ++ rest) : M Bytes) = .error f := by
      intro t e
      have hi := ih e
      cases hr : Model.Sms.decodeLoop opts ss e with
      | ok x =>
        rw [hr] at hi
        simp only at hi
        rw [hi]
        show (_ >>= _) = _
        cases Model.Sms.decodeLoop opts b [] with
        | ok y => show Except.ok (t ++ (x ++ y)) = Except.ok ((t ++ x) ++ y); rw [List.append_assoc]
        | error f => rfl
      | error f =>
        rw [hr] at hi
        show match (Except.error f : M Bytes) with
          | .ok x => _
          | .error (.err (.ucs2Dangling e')) => _
          | .error f => _
        split at hi
        · rename_i h; cases h
        · rename_i e' h
          cases h
          obtain ⟨x, hx⟩ := hi
          refine ⟨t ++ x, ?_⟩
          rw [hx]
          cases Model.Sms.decodeLoop opts b e' with
          | ok y => show Except.ok (t ++ (x ++ y)) = Except.ok ((t ++ x) ++ y); rw [List.append_assoc]
          | error f => rfl
        · rename_i f' hf h
          cases h
          rw [hi]
          split
          · rename_i h; cases h
          · rename_i e' h; cases h; exact absurd rfl (hf e')
          · rename_i h; cases h; rfl
    cases hu : (DecodeUserData (if d ≠ [] then d ++ s.UD else s.UD) s.UDH s.Alphabet.1 opts).err with
    | none => exact key _ []
    | some e =>
      cases e <;> first | exact key _ _ | rfl

end Verif.Proofs.Apart
