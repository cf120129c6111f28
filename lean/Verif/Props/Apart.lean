import Verif.Props.SmsDecode
import Verif.Proofs.Apart

/-! C119: messages decoded together give their texts one after the other. -/

namespace Verif.Props
open Verif.Model Verif.Spec Verif.Proofs

/-- C119: once some TPDUs make a text, those that follow are decoded as if these had not been there: the text of all is the
one text and then the other, and if there is an error it is that of the others. -/
theorem C119_append (a b : List TPDU) (options : List CharsetOpt) (x : List UInt8) (ha : Sms.Decode a options = .ok x) :
    Sms.Decode (a ++ b) options = (Sms.Decode b options).map (x ++ ·) := by
  have h := Apart.loop_append (Model.Sms.decodeOpts options) b a []
  unfold Model.Sms.Decode at ha ⊢
  rw [ha] at h
  exact h

/-- C119: messages one after the other, each of any number of TPDUs in any alphabet, that decode to texts one by one, decode
to these texts one after the other. -/
theorem C119_messages (options : List CharsetOpt) : ∀ (msgs : List (List TPDU)) (texts : List (List UInt8)),
    msgs.map (Sms.Decode · options) = texts.map .ok → Sms.Decode msgs.flatten options = .ok texts.flatten := by
  intro msgs
  induction msgs with
  | nil =>
    intro texts h
    cases texts with
    | nil => rfl
    | cons t ts => simp at h
  | cons a msgs ih =>
    intro texts h
    cases texts with
    | nil => simp at h
    | cons t ts =>
      rw [List.map_cons, List.map_cons] at h
      have h1 := (List.cons.inj h).1
      have h2 := ih ts (List.cons.inj h).2
      rw [List.flatten_cons, List.flatten_cons, C119_append _ _ _ _ h1, h2]
      rfl

/-- C119: an error other than a surrogate without its other half is that of any longer list. -/
theorem C119_error (a b : List TPDU) (options : List CharsetOpt) (f : Fault) (ha : Sms.Decode a options = .error f)
    (hf : ∀ e, f ≠ .err (.ucs2Dangling e)) : Sms.Decode (a ++ b) options = .error f := by
  have h := Apart.loop_append (Model.Sms.decodeOpts options) b a []
  unfold Model.Sms.Decode at ha ⊢
  rw [ha] at h
  split at h
  · rename_i e; cases e
  · rename_i e' e; cases e; exact absurd rfl (hf e')
  · rename_i e; cases e; exact h

/-- C119, the other way around: if TPDUs make a text, those they begin with make the beginning of the text and the others the
rest, or else the cut was within a character of UCS-2, which then is the error. -/
theorem C119_cut (a b : List TPDU) (options : List CharsetOpt) (text : List UInt8)
    (h : Sms.Decode (a ++ b) options = .ok text) :
    (∃ x y, Sms.Decode a options = .ok x ∧ Sms.Decode b options = .ok y ∧ text = x ++ y) ∨
    ∃ hi lo, Sms.Decode a options = .error (.err (.ucs2Dangling [hi, lo])) ∧ Surrogate (256 * hi.toNat + lo.toNat) := by
  cases ha : Sms.Decode a options with
  | ok x =>
    left
    rw [C119_append a b options x ha] at h
    cases hb : Sms.Decode b options with
    | ok y =>
      rw [hb] at h
      exact ⟨x, y, rfl, rfl, (Except.ok.inj h).symm⟩
    | error f => rw [hb] at h; cases h
  | error f =>
    right
    rcases C46_errors a options f ha with ⟨hf, _⟩ | ⟨_, hi, lo, hf, _, hs⟩
    · rw [C119_error a b options f ha (fun e he => by rw [hf] at he; cases he)] at h
      cases h
    · exact ⟨hi, lo, by rw [hf], hs⟩

/-- C119: without UCS-2 each TPDU is decoded on its own. -/
theorem C119_each (segs : List TPDU) (options : List CharsetOpt) (h : ∀ s ∈ segs, s.Alphabet.1 ≠ .ucs2) :
    ∃ texts : List (List UInt8), segs.map (fun s => Sms.Decode [s] options) = texts.map .ok ∧
      Sms.Decode segs options = .ok texts.flatten := by
  induction segs with
  | nil => exact ⟨[], rfl, rfl⟩
  | cons s ss ih =>
    obtain ⟨ts, h1, h2⟩ := ih fun s' hs => h s' (List.mem_cons_of_mem _ hs)
    obtain ⟨t, ht⟩ := C46_no_ucs2 [s] options (fun s' hs => by rw [List.mem_singleton.1 hs]; exact h s (by simp))
    refine ⟨t :: ts, by rw [List.map_cons, List.map_cons, ht, h1], ?_⟩
    have := C119_append [s] ss options t ht
    rw [h2] at this
    exact this

/-- Beside C119: a TPDU in septets, two in UCS-2 with a character split between them, and one of 8-bit data; decoded one by
one they are not all texts, cut elsewhere they are. -/
example :
    let a : TPDU := { UD := [0x61, 0x62] }
    let b : TPDU := { DCS := 8, UD := [0x30, 0x42, 0xd8, 0x3d] }
    let c : TPDU := { DCS := 8, UD := [0xde, 0x00] }
    let d : TPDU := { DCS := 4, UD := [0xff] }
    Sms.Decode [a] [] = .ok [0x61, 0x62] ∧ Sms.Decode [b, c] [] = .ok [0xe3, 0x81, 0x82, 0xf0, 0x9f, 0x98, 0x80] ∧
    Sms.Decode [b] [] = .error (.err (.ucs2Dangling [0xd8, 0x3d])) ∧
    Sms.Decode [a, b, c, d] [] = .ok ([0x61, 0x62] ++ [0xe3, 0x81, 0x82, 0xf0, 0x9f, 0x98, 0x80] ++ [0xff]) := by
  refine ⟨?_, ?_, ?_, ?_⟩ <;> decide +kernel

end Verif.Props
