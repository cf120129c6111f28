import Verif.Props.CmdDeliver
import Verif.Props.TpduSafe
import Verif.Props.SmsDecode
import Verif.Props.Collector2
import Verif.Proofs.Keeps

/-! C67: on which arguments the commands smsdecode and smsdeliver panic. -/

namespace Verif.Props
open Verif.Model Verif.Model.Collector Verif.Spec Verif.Proofs Verif.Proofs.Coll

/-- The type of TPDU that each of the functions is for. -/
def dumpType : SmsDecode.Dump → UInt8
  | .command => SmsCommand
  | .deliver => SmsDeliver
  | .deliverReport => SmsDeliverReport
  | .statusReport => SmsStatusReport
  | .submit => SmsSubmit
  | .submitReport => SmsSubmitReport

/-! Helpers. -/

theorem hex_cases (s : List UInt8) : (∃ e, Hex.DecodeString s = .error (.err e)) ∨ ∃ b, Hex.DecodeString s = .ok b ∧ HexText s b := by
  cases h : Hex.DecodeString s with
  | ok b => exact .inr ⟨b, rfl, (hex_iff _ s (Nat.le_refl _) b).1 h⟩
  | error f =>
    cases f with
    | err e => exact .inl ⟨e, rfl⟩
    | panic k => exact absurd h (hex_safe _ s (Nat.le_refl _) k)

theorem dump_known (t : TPDU) (h : Known t.SmsType) : ∃ d, SmsDecode.dumpTPDU t = .ok d ∧ dumpType d = t.SmsType := by
  unfold SmsDecode.dumpTPDU
  rcases h with h | h | h | h | h | h <;> simp only [h] <;> exact ⟨_, rfl, rfl⟩

/-- C67: whatever the argument and the flags are, smsdecode ends with an error or dumps a TPDU: the argument is
hex, of a TPDU, with `-p` after the address of a service centre, which is dumped as well.  The TPDU is the one
that `Unmarshal` returns, mobile originated with `-o`, and the function chosen is the one for its type. -/
theorem C67_decode (s : List UInt8) (pm mo : Bool) :
    (∃ e, SmsDecode.main s pm mo = .ok (.error e)) ∨
    ∃ b smsc t d, SmsDecode.main s pm mo = .ok (.ok (smsc, t, d)) ∧ HexText s b ∧ dumpType d = t.SmsType ∧
      if pm then ∃ pdu, PDU.UnmarshalBinary b = .ok pdu ∧ smsc = some pdu.SMSC ∧ Sms.Unmarshal pdu.TPDU (if mo then MO else MT) = .ok t
      else smsc = none ∧ Sms.Unmarshal b (if mo then MO else MT) = .ok t := by
  rcases hex_cases s with ⟨e, he⟩ | ⟨b, hb, hx⟩
  · left
    refine ⟨e, ?_⟩
    unfold SmsDecode.main SmsDecode.decode
    rw [he]
    rfl
  cases pm with
  | false =>
    have hd : SmsDecode.decode s false mo = (Sms.Unmarshal b (if mo then MO else MT) >>= fun p => .ok (p, none)) := by
      unfold SmsDecode.decode
      rw [hb]
      rfl
    unfold SmsDecode.main
    rw [hd]
    rcases C28_sms_no_panic b (if mo then MO else MT) with ⟨t, ht⟩ | ⟨e, he⟩
    · right
      obtain ⟨d, h1, h2⟩ := dump_known t (unmarshal_kind _ _ _ ht).2.2
      refine ⟨b, none, t, d, ?_, hx, h2, by simpa using ht⟩
      rw [ht]
      simp only [ok_bind]
      rw [h1]
      rfl
    · left
      rw [he]
      exact ⟨e, rfl⟩
  | true =>
    have hd : SmsDecode.decode s true mo = (PDU.UnmarshalBinary b >>= fun pdu =>
        Sms.Unmarshal pdu.TPDU (if mo then MO else MT) >>= fun p => .ok (p, some pdu.SMSC)) := by
      unfold SmsDecode.decode
      rw [hb]
      simp only [ok_bind, if_true]
      rw [C56_hex s b hx]
      cases PDU.UnmarshalBinary b <;> rfl
    unfold SmsDecode.main
    rw [hd]
    rcases C56_safe b with ⟨e, he⟩ | ⟨pdu, _, hp, _⟩
    · left
      rw [he]
      exact ⟨e, rfl⟩
    rw [hp]
    simp only [ok_bind]
    rcases C28_sms_no_panic pdu.TPDU (if mo then MO else MT) with ⟨t, ht⟩ | ⟨e, he⟩
    · right
      obtain ⟨d, h1, h2⟩ := dump_known t (unmarshal_kind _ _ _ ht).2.2
      refine ⟨b, some pdu.SMSC, t, d, ?_, hx, h2, ?_⟩
      · rw [ht]
        simp only [ok_bind]
        rw [h1]
        rfl
      · exact ⟨pdu, hp, rfl, ht⟩
    · left
      rw [he]
      exact ⟨e, rfl⟩

/-- Beside C67: "0001000291210000" "0141", an SMS-SUBMIT without address of a service centre. -/
example : SmsDecode.main [0x30, 0x30, 0x30, 0x31, 0x30, 0x30, 0x30, 0x32, 0x39, 0x31, 0x32, 0x31, 0x30, 0x30, 0x30, 0x30, 0x30,
      0x31, 0x34, 0x31] true true =
    .ok (.ok (some {}, { Direction := MO, FirstOctet := 1, DA := ⟨0x91, [0x31, 0x32]⟩, UD := [0x41] }, .submit)) := by
  decide +kernel

theorem octets_argument {pm : Bool} {a b : List UInt8} (h : SmsDeliver.octets pm a = .ok b) : Argument pm a b := by
  unfold SmsDeliver.octets at h
  obtain ⟨o, ho, h⟩ := bind_eq_ok.1 h
  have hx := (hex_iff _ a (Nat.le_refl _) o).1 ho
  unfold Argument
  cases pm with
  | false => cases h; simpa using hx
  | true =>
    rw [if_pos rfl] at h
    obtain ⟨pdu, hp, h⟩ := bind_eq_ok.1 h
    cases h
    rw [if_pos rfl]
    rcases C56_safe o with ⟨e, he⟩ | ⟨pdu', l, hp', hl, hlen, ht⟩
    · rw [hp] at he; cases he
    · rw [hp] at hp'; cases hp'
      cases o with
      | nil => cases hl
      | cons x rest =>
        cases hl
        by_cases h0 : l.toNat = 0
        · left
          have : l = 0 := UInt8.toNat_inj.1 (by simpa using h0)
          subst this
          rw [ht]
          exact hx
        · right
          cases rest with
          | nil => simp at hlen; omega
          | cons toa rest =>
            refine ⟨toa, rest.take (l.toNat - 1), ?_, ?_⟩
            · have := l.toNat_lt
              rw [List.length_take]; omega
            · have h1 : (rest.take (l.toNat - 1)).length + 1 = l.toNat := by
                rw [List.length_take]
                simp only [List.length_cons] at hlen
                omega
              rw [h1, UInt8.ofNat_toNat, ht]
              have h2 : (l :: toa :: rest).drop (1 + l.toNat) = rest.drop (l.toNat - 1) := by
                have : 1 + l.toNat = (l.toNat - 1) + 1 + 1 := by omega
                rw [this, List.drop_succ_cons, List.drop_succ_cons]
              rw [h2, List.take_append_drop]
              exact hx

theorem octets_cases (pm : Bool) (a : List UInt8) :
    (∃ e, SmsDeliver.octets pm a = .error (.err e)) ∨ ∃ b, SmsDeliver.octets pm a = .ok b := by
  rcases hex_cases a with ⟨e, he⟩ | ⟨b, hb, hx⟩
  · left; exact ⟨e, by unfold SmsDeliver.octets; rw [he]; rfl⟩
  · cases pm with
    | false => right; exact ⟨b, by unfold SmsDeliver.octets; rw [hb]; rfl⟩
    | true =>
      have : SmsDeliver.octets true a = (PDU.UnmarshalBinary b >>= fun pdu => .ok pdu.TPDU) := by
        unfold SmsDeliver.octets; rw [hb]; rfl
      rw [this]
      rcases C56_safe b with ⟨e, he⟩ | ⟨pdu, _, hp, _⟩
      · left; rw [he]; exact ⟨e, rfl⟩
      · right; rw [hp]; exact ⟨pdu.TPDU, rfl⟩

/-- What `Collect` returns contains no nil pointer. -/
theorem collect_all_some {s s' : State} {pdu : TPDU} {o : Output} (hi : Inv s) (h : Outcome s pdu s' o) :
    ∃ d err, o = .returned d err ∧ ∀ x ∈ d, x ≠ none := by
  have hi' := inv_collect hi h
  rcases outcome_added hi h with ⟨_, ⟨e, rfl⟩ | ⟨rfl, _⟩⟩ | ⟨p0, j0, pipe, _, hp, _, _, _, ⟨rfl, _⟩ | ⟨rfl, hf⟩⟩
  · exact ⟨_, _, rfl, by simp⟩
  · exact ⟨_, _, rfl, by simp⟩
  · exact ⟨_, _, rfl, by simp⟩
  · refine ⟨_, _, rfl, ?_⟩
    obtain ⟨⟨k, hok⟩, _⟩ := hi'.heap p0 pipe hp
    intro x hx
    obtain ⟨j, hj⟩ := List.mem_iff_getElem?.1 hx
    obtain ⟨ptr, hptr⟩ := slot_full hok hf j (get_lt hj)
    rw [hj] at hptr
    cases hptr
    simp

theorem report_safe (d : List (Option Ptr)) (err : Option Err) (h : ∀ x ∈ d, x ≠ none) :
    ∃ lines, SmsDeliver.report d err = .ok lines := by
  have hd : ∃ ptrs : List Ptr, d = ptrs.map some := by
    induction d with
    | nil => exact ⟨[], rfl⟩
    | cons x d ih =>
      obtain ⟨ptrs, rfl⟩ := ih (fun y hy => h y (by simp [hy]))
      cases x with
      | none => exact absurd rfl (h none (by simp))
      | some p => exact ⟨p :: ptrs, rfl⟩
  obtain ⟨ptrs, rfl⟩ := hd
  unfold SmsDeliver.report
  simp only
  by_cases h0 : ptrs = []
  · subst h0; exact ⟨_, rfl⟩
  rw [if_neg (by simpa using h0)]
  have hdec : SmsDeliver.decodePtrs (ptrs.map some) = Sms.Decode (ptrs.map (·.pdu)) [] := by
    unfold SmsDeliver.decodePtrs
    simp only
    rw [takeWhile_some, if_pos (by simp)]
  rw [hdec]
  cases hh : Sms.Decode (ptrs.map (·.pdu)) [] with
  | error f =>
    rcases C46_errors _ _ f hh with ⟨rfl, _⟩ | ⟨_, _, _, rfl, _⟩ <;> exact ⟨_, rfl⟩
  | ok text =>
    cases ptrs with
    | nil => exact absurd rfl h0
    | cons p ptrs =>
      simp only [List.map_cons, idx_zero_cons, ok_bind]
      exact ⟨_, rfl⟩

theorem loop_safe (pm : Bool) : ∀ (args : List (List UInt8)) (s : State), Inv s →
    (∀ a ∈ args, ∀ b t, Argument pm a b → Sms.Unmarshal b MT = .ok t → Fine t) →
    ∃ lines, SmsDeliver.loop pm s args = .ok lines := by
  intro args
  induction args with
  | nil => intro s _ _; exact ⟨_, rfl⟩
  | cons a args ih =>
    intro s hi h
    have ih' := fun s' hs' => ih s' hs' (fun a' ha' => h a' (by simp [ha']))
    rw [SmsDeliver.loop]
    rcases octets_cases pm a with ⟨e, he⟩ | ⟨b, hb⟩
    · rw [he]; exact ⟨_, rfl⟩
    rw [hb]
    simp only
    rcases C28_sms_no_panic b MT with ⟨t, ht⟩ | ⟨e, he⟩
    · rw [ht]
      simp only
      obtain ⟨s', o, hc, hout⟩ := collect_outcome s hi t (h a (by simp) b t (octets_argument hb) ht)
      rw [hc]
      simp only [ok_bind]
      obtain ⟨d, err, rfl, hd⟩ := collect_all_some hi hout
      obtain ⟨l1, h1⟩ := report_safe d err hd
      obtain ⟨l2, h2⟩ := ih' s' (inv_collect hi hout)
      simp only
      rw [h1, h2]
      exact ⟨_, rfl⟩
    · rw [he]
      obtain ⟨l2, h2⟩ := ih' s hi
      simp only
      rw [h2]
      exact ⟨_, rfl⟩

/-- C67, partial: smsdeliver does not panic, whatever its arguments are, unless one of them is a TPDU of another
type than SMS-DELIVER that says it is one of several segments.  Missing: those, for which it is false. -/
theorem C67_deliver_partial (pm : Bool) (args : List (List UInt8))
    (h : ∀ a ∈ args, ∀ b t, Argument pm a b → Sms.Unmarshal b MT = .ok t → t.SmsType ≠ SmsDeliver → ¬ MultiPart t) :
    ∃ lines, SmsDeliver.main pm args = .ok lines := by
  refine loop_safe pm args _ (inv_new false false) ?_
  intro a ha b t hb ht hm
  by_cases hd : t.SmsType = SmsDeliver
  · exact .inr hd
  · exact absurd hm (h a ha b t hb ht hd)

/-- The hex of an SMS-SUBMIT-REPORT that says it is a segment. -/
def exReportHex (ref count seq : UInt8) : List UInt8 :=
  Hex.EncodeToString ([0x41, 0, 6, 0x11, 0x10, 0x10, 0, 0, 0, 0, 4, 7, 5, 0, 3, ref, count, seq, 0x41])

/-- C67 is false of SMS-SUBMIT-REPORTs: the first of three and the second of two are taken for a complete message,
with a nil pointer, which `Decode` dereferences; and the third of three after the first of two is out of range. -/
theorem C67_counterexample :
    SmsDeliver.main false [exReportHex 1 3 1, exReportHex 2 2 2] = .error (.panic .nil) ∧
    SmsDeliver.main false [exReportHex 1 2 1, exReportHex 2 3 3] = .error (.panic .index) := by
  constructor <;> decide +kernel

/-- Beside C67: something that is not a TPDU, an incomplete message and a complete one are all reported. -/
example : SmsDeliver.main false [Hex.EncodeToString [3],
      Hex.EncodeToString [0x40, 2, 0x91, 0x21, 0, 4, 0x11, 0x10, 0x10, 0, 0, 0, 0, 7, 5, 0, 3, 9, 2, 1, 0x41],
      Hex.EncodeToString [0, 2, 0x91, 0x21, 0, 0, 0x11, 0x10, 0x10, 0, 0, 0, 0, 1, 0x41]] =
    .ok [.unmarshalError (.decode "tpdu.firstOctet" 0 (.unsupportedSmsType 6)),
      .message [0x2b, 0x31, 0x32] [0x41],
      .incomplete (keyOf ⟨SmsDeliver, ⟨0x91, [0x31, 0x32]⟩, 9, 2⟩) [some { FirstOctet := 0x40, OA := ⟨0x91, [0x31, 0x32]⟩, DCS := 4, SCTS := (Timestamp.UnmarshalBinary [0x11, 0x10, 0x10, 0, 0, 0, 0]).toOption.getD {}, UDH := [⟨0, [9, 2, 1]⟩], UD := [0x41] }, none]] := by
  decide +kernel

end Verif.Props
