import Verif.Props.CmdDeliver
import Verif.Props.TextsExact

/-! C66, exactly: which texts the command smsdeliver prints. -/

namespace Verif.Props

open Verif.Model Verif.Model.Collector Verif.Spec Verif.Proofs Verif.Proofs.Coll

/-- The text that a line shows. -/
def shown : SmsDeliver.Line → List UInt8
  | .message _ text => text
  | _ => []

/-- C66, exactly: given the TPDUs of texts that one encoder has encoded as SMS-DELIVERs, in any order, the command
prints each text once, with the number of its originator, and nothing else, if and only if each text is UTF-8 and is sent
in UCS-2 or has no U+001B.  In any case it prints as many messages as there are texts. -/
theorem C66_exact (pm : Bool) (options : List Model.Sms.EncoderOption)
    (calls : List (List UInt8 × List Model.Sms.EncoderOption))
    (hcalls : ∀ c ∈ calls, Postable (Sms.NewEncoder options) c.1 c.2)
    (htables : ∀ c ∈ calls, Matching (callCharsets (Sms.NewEncoder options) c.2) [])
    (hnat : ∀ c ∈ calls, Representable .default c.1 →
      ∀ ie ∈ (callTemplate (Sms.NewEncoder options) c.2).UDH, ie.ID ≠ 24 ∧ ie.ID ≠ 25)
    (htype : ∀ c ∈ calls, (callTemplate (Sms.NewEncoder options) c.2).SmsType = SmsDeliver)
    (hsize : ∀ pdus ∈ encodes (Sms.NewEncoder options) calls, pdus.length ≤ 255)
    (hmany : ((encodes (Sms.NewEncoder options) calls).filter (fun pdus => 2 ≤ pdus.length)).length ≤ 256) :
    ∃ wire : List (List UInt8), (encodes (Sms.NewEncoder options) calls).flatten.map TPDU.MarshalBinary = wire.map .ok ∧
      ∀ sent args, sent.Perm wire → Arguments pm args sent →
        ∃ lines, SmsDeliver.main pm args = .ok lines ∧ lines.length = calls.length ∧
          (∀ line ∈ lines, ∃ number text, line = .message number text) ∧
          (lines.Perm (calls.map (fun c => .message (callTemplate (Sms.NewEncoder options) c.2).OA.Number c.1)) ↔
            ∀ c ∈ calls, Comes (Sms.NewEncoder options) c.1 c.2) := by
  obtain ⟨items, h1, h2, h3⟩ := posteds_of [] calls (Sms.NewEncoder options) hcalls
  have hmem : ∀ i ∈ items, i.2 ∈ calls := fun i hi => by rw [← h2]; exact List.mem_map.2 ⟨i, hi, rfl⟩
  obtain ⟨wire, w1, w2⟩ := items_printed pm options calls (items.map (·.1)) (by rw [← h1, List.map_map]; rfl)
    (by
      intro i hi
      obtain ⟨x, hx, rfl⟩ := List.mem_map.1 hi
      exact (h3 x hx).good)
    (by
      intro i hi
      obtain ⟨x, hx, rfl⟩ := List.mem_map.1 hi
      rw [(h3 x hx).type]
      exact htype _ (hmem x hx)) hsize hmany
  refine ⟨wire, w1, ?_⟩
  intro sent args hs ha
  obtain ⟨lines, l1, l2⟩ := w2 sent args hs ha
  rw [List.map_map] at l2
  refine ⟨lines, l1, ?_, ?_, ?_, ?_⟩
  · rw [l2.length_eq, List.length_map, ← h2, List.length_map]
  · intro line hl
    obtain ⟨i, _, rfl⟩ := List.mem_map.1 (l2.mem_iff.1 hl)
    exact ⟨_, _, rfl⟩
  · intro hp
    have hp := (l2.symm.trans hp).map shown
    rw [List.map_map, List.map_map, ← h2, List.map_map] at hp
    intro c hc
    rw [← h2] at hc
    obtain ⟨i, hi, rfl⟩ := List.mem_map.1 hc
    exact perm_comes items (fun i => i.1.text) (fun i => i.2.1)
      (fun i => InSeptets (callCharsets (Sms.NewEncoder options) i.2.2) i.2.1)
      (fun i hi => (h3 i hi).utf8) (fun i hi => (h3 i hi).noEscape) (fun i hi => (h3 i hi).same) hp i hi
  · intro hcomes
    obtain ⟨wire', v1, v2⟩ := C66_deliver_partial pm options calls
      (fun c hc => postable_conveyable (hcalls c hc) (htables c hc) (hnat c hc) (hcomes c hc)) htype hsize hmany
    have hw : wire' = wire := by
      have : wire'.map (Except.ok : _ → M (List UInt8)) = wire.map .ok := by rw [← v1, w1]
      exact (List.map_inj_right (fun _ _ h => Except.ok.inj h)).1 this
    subst hw
    obtain ⟨lines', m1, m2⟩ := v2 sent args hs ha
    rw [l1] at m1
    cases m1
    exact m2

theorem postable_deliver (time : GoTime) (ht : TimeOk time) (digits text : List UInt8) (hd : Digits digits)
    (hl : digits.length ≤ 255) (hne : text ≠ []) :
    Postable (Sms.NewEncoder [.template { SCTS := time }]) text [Sms.From digits] := by
  obtain ⟨ht', hc, _⟩ := deliver_call time digits hd
  constructor <;> (try simp only [ht', hc])
  · exact .deliver rfl (by show FirstOctet.MTI 0 = 0; decide) (.inl ⟨by show ((0x91 : UInt8) >>> 4) &&& 0x07 ≠ 5; decide, hd, hl⟩) ht
  · exact Nat.zero_le _
  · show FirstOctet.UDHI 0 = true ↔ ([] : UDH) ≠ []
    decide
  · rfl
  · show (DCS.Alphabet 0).1 = .a7Bit
    decide
  · intro a ha
    cases ha <;> decide
  · exact hne

/-- C66, exactly, for the plain use. -/
theorem C66_plain_exact (pm : Bool) (time : GoTime) (ht : TimeOk time) (msgs : List (List UInt8 × List UInt8))
    (hmsgs : ∀ digits text, (digits, text) ∈ msgs → Digits digits ∧ digits.length ≤ 255 ∧ text ≠ []) :
    let pdus := encodes (Sms.NewEncoder [.template { SCTS := time }]) (msgs.map (fun m => (m.2, [Sms.From m.1])))
    (∀ ps ∈ pdus, ps.length ≤ 255) → (pdus.filter (fun ps => 2 ≤ ps.length)).length ≤ 256 →
    ∃ wire : List (List UInt8), pdus.flatten.map TPDU.MarshalBinary = wire.map .ok ∧
      ∀ sent args, sent.Perm wire → Arguments pm args sent →
        ∃ lines, SmsDeliver.main pm args = .ok lines ∧ lines.length = msgs.length ∧
          (∀ line ∈ lines, ∃ number text, line = .message number text) ∧
          (lines.Perm (msgs.map (fun m => .message (0x2b :: m.1) m.2)) ↔
            ∀ digits text, (digits, text) ∈ msgs → Utf8 text ∧ (InSeptets [] text → 0x1b ∉ text)) := by
  intro pdus h1 h2
  have hof : ∀ c ∈ msgs.map (fun m => (m.2, [Sms.From m.1])), ∃ m ∈ msgs, c = (m.2, [Sms.From m.1]) ∧ Digits m.1 ∧
      m.1.length ≤ 255 ∧ m.2 ≠ [] := by
    intro c hc
    obtain ⟨m, hm', rfl⟩ := List.mem_map.1 hc
    exact ⟨m, hm', rfl, hmsgs m.1 m.2 hm'⟩
  obtain ⟨wire, w1, w2⟩ := C66_exact pm [.template { SCTS := time }] (msgs.map (fun m => (m.2, [Sms.From m.1])))
    (by
      intro c hc
      obtain ⟨m, _, rfl, g1, g2, g3⟩ := hof c hc
      exact postable_deliver time ht m.1 m.2 g1 g2 g3)
    (by
      intro c hc
      obtain ⟨m, _, rfl, g1, g2, g3⟩ := hof c hc
      rw [(deliver_call time m.1 g1).2.1]
      exact (C38_matching []).1)
    (by
      intro c hc _ ie hie
      obtain ⟨m, _, rfl, g1, g2, g3⟩ := hof c hc
      rw [(deliver_call time m.1 g1).1] at hie
      cases hie)
    (by
      intro c hc
      obtain ⟨m, _, rfl, g1, g2, g3⟩ := hof c hc
      rw [(deliver_call time m.1 g1).1]
      show smsType (FirstOctet.MTI 0) MT = SmsDeliver
      decide) h1 h2
  refine ⟨wire, w1, ?_⟩
  intro sent args hs ha
  obtain ⟨lines, l1, l2, l3, l4⟩ := w2 sent args hs ha
  refine ⟨lines, l1, by rw [l2, List.length_map], l3, ?_⟩
  have hl : (msgs.map (fun m => (m.2, [Sms.From m.1]))).map (fun c => SmsDeliver.Line.message
      (callTemplate (Sms.NewEncoder [.template { SCTS := time }]) c.2).OA.Number c.1) =
      msgs.map (fun m => .message (0x2b :: m.1) m.2) := by
    rw [List.map_map]
    apply List.map_congr_left
    intro m hm
    show SmsDeliver.Line.message (callTemplate _ [Sms.From m.1]).OA.Number m.2 = _
    have hd := (hmsgs m.1 m.2 hm).1
    rw [(deliver_call time m.1 hd).1]
    show SmsDeliver.Line.message (⟨0x91, m.1⟩ : Address).Number m.2 = _
    rw [(deliver_call time m.1 hd).2.2]
  rw [hl] at l4
  refine l4.trans ⟨?_, ?_⟩
  · intro h digits text hmem
    have := h (text, [Sms.From digits]) (List.mem_map.2 ⟨_, hmem, rfl⟩)
    unfold Comes at this
    rw [(deliver_call time digits (hmsgs _ _ hmem).1).2.1] at this
    exact this
  · intro h c hc
    obtain ⟨m, hmem, rfl, g1, g2, g3⟩ := hof c hc
    unfold Comes
    rw [(deliver_call time m.1 g1).2.1]
    exact h m.1 m.2 hmem

-- a text that does not come back and one that does
example : (∀ digits text, (digits, text) ∈ [([0x31], [0x1b, 0x65]), ([0x32], [0x61])] →
      Digits digits ∧ digits.length ≤ 255 ∧ text ≠ []) ∧ TimeOk exSCTS ∧
    SmsDeliver.main false ((exWire [([0x31], [0x1b, 0x65]), ([0x32], [0x61])]).map
        (fun b => Hex.EncodeToString (b.toOption.getD []))) =
      .ok [.message [0x2b, 0x31] [0xe2, 0x82, 0xac], .message [0x2b, 0x32] [0x61]] := by
  refine ⟨?_, ⟨rfl, by decide +kernel, by decide +kernel, 32, by decide, by decide, by decide⟩, by decide +kernel⟩
  intro digits text h
  simp only [List.mem_cons, Prod.mk.injEq, List.not_mem_nil, or_false] at h
  rcases h with ⟨rfl, rfl⟩ | ⟨rfl, rfl⟩ <;> exact ⟨by unfold Digits; decide, by decide, by decide⟩

end Verif.Props
