import Verif.Proofs.Fields
import Verif.Props.Dump

/-! C85: each field is on one line of what smsdecode prints. -/

namespace Verif.Props

open Verif.Model Verif.Spec Verif.Proofs Verif.Proofs.Print

theorem text_printed (s : List UInt8) (pm mo : Bool) (t : TPDU) (a : Option Address) (d : SmsDecode.Dump)
    (h : SmsDecode.decode s pm mo = .ok (t, a)) (hd : SmsDecode.dumpTPDU t = .ok d) :
    SmsDecode.text s pm mo = .ok (.ok (unlines (SmsDecode.printed a t d))) := by
  unfold SmsDecode.text SmsDecode.main
  rw [h]
  simp only [hd, ok_bind]
  rfl

/-- C85, for TPDUs whose address has no LF: when an argument is decoded, what smsdecode prints are lines of which exactly one begins with
the label of each field, and that line says the value of the field; likewise for the service centre.  Missing: addresses with an LF
(`C85_counterexample`). -/
theorem C85_partial (s : List UInt8) (pm mo : Bool) (t : TPDU) (a : Option Address)
    (h : SmsDecode.decode s pm mo = .ok (t, a)) (hp : (0x0a : UInt8) ∉ party t) :
    ∃ out ls, SmsDecode.text s pm mo = .ok (.ok out) ∧ Lines out ls ∧ (∀ x, a = some x → Shows ls b!"SMSC" (.text x.Number)) ∧
      ∀ p ∈ fields t, Shows ls p.1 p.2 := by
  obtain ⟨i1, i2, i3, i4⟩ := decode_seen s pm mo t a h
  obtain ⟨d, hd, td⟩ := dump_known t i2
  obtain ⟨ls, post, e, hps, hpost⟩ := run_fields t d i1 td hp
  have hl := fields_label t
  refine ⟨_, SmsDecode.printed a t d, text_printed s pm mo t a d h hd, ⟨rfl, ?_⟩, ?_, ?_⟩
  all_goals
    unfold SmsDecode.printed
    rw [List.append_assoc, e]
  · refine forall_append (P := OneLine) ?_ (forall_append (pairs_lines hps hl) fun l hl => (hpost l hl).2)
    cases a with
    | none => nofun
    | some x =>
      intro l hl
      simp only [SmsDecode.dumpSMSC, List.mem_singleton] at hl
      subst hl
      exact .append (by decide) (i4 x rfl)
  · rintro x rfl
    have none : ∀ l ∈ ls ++ post, b!"SMSC: ".isPrefixOf l = false :=
      forall_append (fun l hl' => label_smsc (pairs_head hps hl l hl')) fun l hl => label_smsc (other_head (hpost l hl).1)
    refine ⟨x.Number, ?_, rfl⟩
    rw [List.filter_append]
    have e2 : (ls ++ post).filter ((b!"SMSC" ++ b!": ").isPrefixOf ·) = [] := filter_none none
    rw [e2]
    simp [SmsDecode.dumpSMSC]
  · intro p hp
    refine shows_among (pairs_shows hps hl (fields_nodup t) p hp) _ _ ?_ fun l hl' => other_label (hl p hp) (hpost l hl').1
    cases a with
    | none => nofun
    | some x =>
      intro l hl'
      simp only [SmsDecode.dumpSMSC, List.mem_singleton] at hl'
      subst hl'
      exact smsc_label (hl p hp) _

theorem party_field (t : TPDU) : party t = [] ∨ ∃ k, (k, Value.text (party t)) ∈ fields t := by
  unfold party fields
  by_cases h1 : t.SmsType = SmsDeliver
  · rw [if_pos h1, if_pos h1]; exact .inr ⟨b!"TP-OA", by simp⟩
  rw [if_neg h1, if_neg h1]
  by_cases h2 : t.SmsType = SmsSubmit
  · rw [if_pos (.inl h2), if_pos h2]; exact .inr ⟨b!"TP-DA", by simp⟩
  rw [if_neg h2]
  by_cases h3 : t.SmsType = SmsCommand
  · rw [if_pos (.inr h3), if_pos h3]; exact .inr ⟨b!"TP-DA", by simp⟩
  rw [if_neg (not_or.2 ⟨h2, h3⟩), if_neg h3]
  by_cases h4 : t.SmsType = SmsStatusReport
  · rw [if_pos h4, if_neg (by rw [h4]; decide), if_neg (by rw [h4]; decide)]
    exact .inr ⟨b!"TP-RA", by simp⟩
  · exact .inl (if_neg h4)

/-- C85, exactly: each field is on one line of its own, with its label, if and only if the address of the TPDU has no LF. -/
theorem C85_exact (s : List UInt8) (pm mo : Bool) (t : TPDU) (a : Option Address)
    (h : SmsDecode.decode s pm mo = .ok (t, a)) :
    ∃ out, SmsDecode.text s pm mo = .ok (.ok out) ∧
      ((∃ ls, Lines out ls ∧ (∀ x, a = some x → Shows ls b!"SMSC" (.text x.Number)) ∧ ∀ p ∈ fields t, Shows ls p.1 p.2) ↔
        (0x0a : UInt8) ∉ party t) := by
  obtain ⟨i1, i2, i3, i4⟩ := decode_seen s pm mo t a h
  obtain ⟨d, hd, td⟩ := dump_known t i2
  refine ⟨_, text_printed s pm mo t a d h hd, ?_, ?_⟩
  · rintro ⟨ls, hls, _, hf⟩ hm
    rcases party_field t with e | ⟨k, hk⟩
    · rw [e] at hm; cases hm
    · obtain ⟨v, hv, sv⟩ := hf _ hk
      have hv' : v = party t := sv
      have : k ++ b!": " ++ v ∈ ls := (List.mem_filter.1 (by rw [hv]; exact List.mem_singleton.2 rfl)).1
      refine hls.2 _ this ?_
      rw [hv']
      exact List.mem_append.2 (.inr hm)
  · intro hp
    obtain ⟨out, ls, ho, hls, hsm, hf⟩ := C85_partial s pm mo t a h hp
    rw [text_printed s pm mo t a d h hd] at ho
    cases ho
    exact ⟨ls, hls, hsm, hf⟩

theorem lines_unique {out : Bytes} {ls ms : List Bytes} (h : Lines out ls) (h' : Lines out ms) : ls = ms := by
  have e := unlines_inj (h.1.symm.trans h'.1 : unlines ls = unlines ms)
  rwa [flat_lines h.2, flat_lines h'.2] at e

/-- C85 is false: an SMS-DELIVER from the alphanumeric address `A`, LF, `TP-PID: 0x7f`, of protocol 0, is printed with two lines
that begin with `TP-PID: `, and the first is not the protocol. -/
theorem C85_counterexample : ∃ t out, SmsDecode.decode b!"0419d0410515da8226893a100c7f330300001110100000000002c834" false false = .ok (t, none) ∧ t.PID = 0 ∧
    SmsDecode.text b!"0419d0410515da8226893a100c7f330300001110100000000002c834" false false = .ok (.ok out) ∧
    out = [b!"TPDU: SMS-DELIVER", b!"TP-MTI: 0x00 Deliver", b!"TP-MMS: true", b!"TP-LP: false", b!"TP-RP: false", b!"TP-UDHI: false",
      b!"TP-SRI: false", b!"TP-OA: A", b!"TP-PID: 0x7f", b!"TP-PID: 0x00", b!"TP-DCS: 0x00 7bit", b!"TP-SCTS: 2011-01-01 00:00:00 +0000",
      b!"TP-UD: 00000000  48 69                                             |Hi|"].flatMap (· ++ [0x0a]) ∧
    ¬ ∃ ls, Lines out ls ∧ Shows ls b!"TP-PID" (.octet t.PID) := by
  refine ⟨_, _, rfl, by decide +kernel, by decide +kernel, rfl, ?_⟩
  rintro ⟨ls, hls, v, hv, _⟩
  rw [lines_unique hls ⟨rfl, by decide +kernel⟩] at hv
  have := congrArg List.length hv
  revert this
  show ¬ (2 = 1)
  decide

/-- Beside C85: the sample SMS-DELIVER with its service centre is decoded, and its address has no LF. -/
example : ∃ t x, SmsDecode.decode b!"07916407970970F6040A91214365870900000111011000000002C834" true false = .ok (t, some x) ∧
    (0x0a : UInt8) ∉ party t ∧ party t = b!"+1234567890" ∧ x.Number = b!"+46707990076" ∧ (fields t).length = 11 :=
  ⟨_, _, rfl, by decide +kernel, by decide +kernel, by decide +kernel, by decide +kernel⟩

end Verif.Props
