import Verif.Props.Refs
import Verif.Proofs.Numbers

/-! C123: what an encoder remembers from call to call. -/

namespace Verif.Props
open Verif.Model Verif.Spec Verif.Proofs Verif.Proofs.Numbers
open Verif.Model.Sms (EncoderOption NewEncoder)

/-- What a new encoder returns for the message (nothing, when the call fails). -/
def alone (os : List EncoderOption) (call : List UInt8 × List EncoderOption) : List TPDU :=
  match (NewEncoder os).Encode call.1 call.2 with
  | .ok r => r.pdus
  | .error _ => []

private theorem encodes_after (os : List EncoderOption) (calls : List (List UInt8 × List EncoderOption)) : ∀ m c,
    encodes (after os m c) calls = numbered m c (calls.map (alone os)) := by
  induction calls with
  | nil => intro m c; rfl
  | cons call calls ih =>
    intro m c
    obtain ⟨msg, os'⟩ := call
    have h := encode_renumbers os os' msg m c
    unfold Renumbers at h
    rw [encodes, List.map_cons, numbered]
    cases hs : (NewEncoder os).Encode msg os' with
    | error f =>
      rw [hs] at h
      simp only at h
      simp only [h, alone, hs]
      rw [ih]
      rfl
    | ok r =>
      rw [hs] at h
      simp only at h
      simp only [h, alone, hs]
      congr 1
      exact ih _ _

/-- C123: an Encoder remembers nothing but how many TPDUs and how many messages of several TPDUs it has returned.  The
TPDUs that successive calls return are those that a new encoder made with the same options returns for each of them, up
to the references, which count on: options given to a call, its message and its failure leave no trace in later
calls. -/
theorem C123_numbers (os : List EncoderOption) (calls : List (List UInt8 × List EncoderOption)) :
    encodes (NewEncoder os) calls = numbered 0 0 (calls.map (alone os)) := by
  conv => lhs; rw [new_after os]
  exact encodes_after os calls 0 0

/-- C123: whether a call fails, and how, does not depend on the calls before it: it fails with a counter of TPDUs at `m` and
one of messages at `c` iff it fails, in the same way, as the first. -/
theorem C123_failure (os : List EncoderOption) (m c : Nat) (call : List UInt8 × List EncoderOption) (f : Fault) :
    Model.Sms.Encoder.Encode { NewEncoder os with
        MsgCount := { Model.Sms.newCounter with pos := m }, ConcatRef := { Model.Sms.newCounter with pos := c } } call.1 call.2 =
      .error f ↔ (NewEncoder os).Encode call.1 call.2 = .error f := by
  have h := encode_renumbers os call.2 call.1 m c
  have e : (after os m c) = { NewEncoder os with
        MsgCount := { Model.Sms.newCounter with pos := m }, ConcatRef := { Model.Sms.newCounter with pos := c } } := by
    simp [after, at_, advance, Model.Sms.newCounter]
  rw [e] at h
  unfold Renumbers at h
  cases hs : (NewEncoder os).Encode call.1 call.2 with
  | error g =>
    rw [hs] at h
    simp only at h
    rw [h]
  | ok r =>
    rw [hs] at h
    simp only at h
    rw [h]
    constructor <;> (intro x; cases x)

/-- Not vacuous: the third of three calls, the first of one TPDU and the second failing, returns two TPDUs, with message
references 2 and 3 and concatenation reference 1. -/
example :
    ((encodes (NewEncoder []) [([0x61], [Model.Sms.AsUCS2]), ([0xff], [.template { DCS := 0xc0 }]),
      (List.replicate 200 0x61, [])]).map (·.map fun p => (p.MR, p.UDH, p.UD.length)) =
      [[(1, [], 1)], [], [(2, [⟨0, [1, 2, 1]⟩], 153), (3, [⟨0, [1, 2, 2]⟩], 47)]]) := by decide +kernel

end Verif.Props
