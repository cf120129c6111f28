import Verif.Props.FailureChecks

/-! C90: the errors of `Unmarshal`. -/

namespace Verif.Props
open Verif.Model Verif.Proofs Verif.Spec

theorem six_types {d : Int} (hd : d = 0 ∨ d = 1) {fo : UInt8} {name : String} (hn : typeName d (fo.toNat % 4) = some name) :
    (name = "SmsDeliver" ∧ smsType (FirstOctet.MTI fo) d = SmsDeliver) ∨
    (name = "SmsDeliverReport" ∧ smsType (FirstOctet.MTI fo) d = SmsDeliverReport) ∨
    (name = "SmsSubmit" ∧ smsType (FirstOctet.MTI fo) d = SmsSubmit) ∨
    (name = "SmsSubmitReport" ∧ smsType (FirstOctet.MTI fo) d = SmsSubmitReport) ∨
    (name = "SmsStatusReport" ∧ smsType (FirstOctet.MTI fo) d = SmsStatusReport) ∨
    (name = "SmsCommand" ∧ smsType (FirstOctet.MTI fo) d = SmsCommand) := by
  have hm : ∀ fo : UInt8, FirstOctet.MTI fo = UInt8.ofNat (fo.toNat % 4) := by apply forall_u8; decide +kernel
  rw [hm fo]
  have hlt : fo.toNat % 4 < 4 := by omega
  generalize fo.toNat % 4 = n at hn hlt
  have : n = 0 ∨ n = 1 ∨ n = 2 ∨ n = 3 := by omega
  rcases hd with rfl | rfl <;> rcases this with rfl | rfl | rfl | rfl <;> cases hn <;> decide +kernel

theorem six_names {d : Int} (hd : d = 0 ∨ d = 1) {fo : UInt8} {name : String} (hn : typeName d (fo.toNat % 4) = some name) :
    name ∈ sixNames := by
  rcases six_types hd hn with ⟨rfl, _⟩ | ⟨rfl, _⟩ | ⟨rfl, _⟩ | ⟨rfl, _⟩ | ⟨rfl, _⟩ | ⟨rfl, _⟩ <;> decide +kernel

/-- The TPDU that `Unmarshal` starts with. -/
def blank (d : Int) (fo : UInt8) : TPDU := { Direction := d, FirstOctet := fo }

theorem udhi_blank (d : Int) (fo : UInt8) : (blank d fo).UDHI = udhiOf fo := by
  have : ∀ fo : UInt8, FirstOctet.UDHI fo = udhiOf fo := by apply forall_u8; decide +kernel
  exact this fo

theorem wrap_reach {name f : String} {o : Nat} {c : Err} {m : M TPDU} (h : m = fail (.decode f o c)) :
    wrapD name 1 m = .error (.err (.decode (name ++ "." ++ f) (o + 1) c)) := by rw [h]; rfl

/-- The address of the septets ESC, g. -/
def escaped (g : UInt8) : Bytes := [4, 0xd0, (0x1b : UInt8) ||| (g <<< 7), g >>> 1]

theorem addr_septet : ∀ g : UInt8, g < 0x80 → g ≠ 0x1b →
    Address.UnmarshalBinary (escaped g) = fail (.decode "addr" 2 (.gsm7InvalidSeptet g)) := by
  apply forall_u8; decide +kernel

theorem bcd_digits : ∀ b : UInt8, (9 < b.toNat / 16 ∨ 9 < b.toNat % 16) → Bcd.Decode b = fail (.bcdInvalidOctet b) := by
  apply forall_u8; decide +kernel

theorem stamp_digits (b : UInt8) (h : 9 < b.toNat / 16 ∨ 9 < b.toNat % 16) :
    Timestamp.UnmarshalBinary [b, 0, 0, 0, 0, 0, 0] = fail (.bcdInvalidOctet b) := by
  show (Bcd.Decode b >>= _) = _
  rw [bcd_digits b h]
  rfl

theorem enhanced_digits : ∀ b : UInt8, (9 < b.toNat / 16 ∨ 9 < b.toNat % 16) →
    ValidityPeriod.UnmarshalBinary {} [3, b, 0, 0, 0, 0, 0] VpfEnhanced = fail (.decode "enhanced" 1 (.bcdInvalidOctet b)) := by
  apply forall_u8; decide +kernel

/-- Failures that carry an octet. -/
theorem octet_cases (d : Int) (fo : UInt8) (name : String) (hn : typeName d (fo.toNat % 4) = some name) (hd : d = 0 ∨ d = 1)
    (p : String × Cause) (hp : p ∈ failures name (udhiOf fo) (vpfOf fo)) (hc : plainErr p.2 = none) (c : Err) (h : p.2.Is c) :
    ∃ body o, Sms.Unmarshal (fo :: body) d = .error (.err (.decode (name ++ "." ++ p.1) o c)) := by
  have hs : ∀ k : Cause, plainErr k = none → k.Is c →
      (k = .septet ∧ ∃ g : UInt8, c = .gsm7InvalidSeptet g ∧ Address.UnmarshalBinary (escaped g) = fail (.decode "addr" 2 c)) ∨
      (k = .digits ∧ ∃ b : UInt8, c = .bcdInvalidOctet b ∧
        ValidityPeriod.UnmarshalBinary {} [3, b, 0, 0, 0, 0, 0] VpfEnhanced = fail (.decode "enhanced" 1 c) ∧ Timestamp.UnmarshalBinary [b, 0, 0, 0, 0, 0, 0] = fail c) := by
    intro k hk h
    cases k <;> try cases hk
    · obtain ⟨b, rfl, hb⟩ := h
      exact .inr ⟨rfl, b, rfl, enhanced_digits b hb, stamp_digits b hb⟩
    · obtain ⟨g, rfl, h1, h2⟩ := h
      exact .inl ⟨rfl, g, rfl, addr_septet g h1 h2⟩
  have hs := hs p.2 hc h
  unfold Sms.Unmarshal
  rcases six_types hd hn with ⟨rfl, ht⟩ | ⟨rfl, ht⟩ | ⟨rfl, ht⟩ | ⟨rfl, ht⟩ | ⟨rfl, ht⟩ | ⟨rfl, ht⟩
  · have key : ∀ u, ∀ p ∈ failures "SmsDeliver" u 0, plainErr p.2 = none → p = ("oa.addr", .septet) ∨ p = ("scts", .digits) := by
      intro u; cases u <;> decide +kernel
    rcases key _ p hp hc with rfl | rfl
    · rcases hs with ⟨_, g, rfl, hg⟩ | ⟨h, _⟩
      · refine ⟨escaped g, _, (unmarshal_Deliver { Direction := d } fo ht _).trans (wrap_reach (o := 2) ?_)⟩
        unfold TPDU.unmarshalDeliver
        rw [hg]; rfl
      · cases h
    · rcases hs with ⟨h, _⟩ | ⟨_, b, rfl, _, hb⟩
      · cases h
      · refine ⟨[0, 0, 0, 0, b, 0, 0, 0, 0, 0, 0], _, (unmarshal_Deliver { Direction := d } fo ht _).trans (wrap_reach (o := 4) ?_)⟩
        show (wrapD "scts" 4 (Timestamp.UnmarshalBinary [b, 0, 0, 0, 0, 0, 0]) >>= _) = _
        rw [hb]; rfl
  · have key : ∀ u, ∀ p ∈ failures "SmsDeliverReport" u 0, plainErr p.2 ≠ none := by
      intro u; cases u <;> decide +kernel
    exact absurd hc (key _ p hp)
  · have key : ∀ u, ∀ v < 4, ∀ p ∈ failures "SmsSubmit" u v, plainErr p.2 = none → p = ("da.addr", .septet) ∨
        p = ("vp.enhanced", .digits) ∧ v = 1 ∨ p = ("vp", .digits) ∧ v = 3 := by
      intro u v hv
      rcases v with _ | _ | _ | _ | v
      case succ.succ.succ.succ => omega
      all_goals cases u <;> decide +kernel
    have hv : ∀ fo : UInt8, vpfOf fo < 4 ∧ (vpfOf fo = 1 → FirstOctet.VPF fo = VpfEnhanced) ∧ (vpfOf fo = 3 → FirstOctet.VPF fo = VpfAbsolute) := by
      apply forall_u8; decide +kernel
    rcases key _ _ (hv fo).1 p hp hc with rfl | ⟨rfl, h1⟩ | ⟨rfl, h3⟩
    · rcases hs with ⟨_, g, rfl, hg⟩ | ⟨h, _⟩
      · refine ⟨0 :: escaped g, _, (unmarshal_Submit { Direction := d } fo ht _).trans (wrap_reach (o := 3) ?_)⟩
        show (wrapD "da" 1 (Address.UnmarshalBinary (escaped g)) >>= _) = _
        rw [hg]; rfl
      · cases h
    · rcases hs with ⟨h, _⟩ | ⟨_, b, rfl, hb, _⟩
      · cases h
      · refine ⟨[0, 0, 0, 0, 0, 3, b, 0, 0, 0, 0, 0], _, (unmarshal_Submit { Direction := d } fo ht _).trans (wrap_reach (o := 6) ?_)⟩
        show (wrapD "vp" 5 (ValidityPeriod.UnmarshalBinary {} [3, b, 0, 0, 0, 0, 0] (FirstOctet.VPF fo)) >>= _) = _
        rw [(hv fo).2.1 h1]
        rw [hb]; rfl
    · rcases hs with ⟨h, _⟩ | ⟨_, b, rfl, _, hb⟩
      · cases h
      · refine ⟨[0, 0, 0, 0, 0, b, 0, 0, 0, 0, 0, 0], _, (unmarshal_Submit { Direction := d } fo ht _).trans (wrap_reach (o := 5) ?_)⟩
        show (wrapD "vp" 5 (ValidityPeriod.UnmarshalBinary {} [b, 0, 0, 0, 0, 0, 0] (FirstOctet.VPF fo)) >>= _) = _
        rw [(hv fo).2.2 h3]
        show (wrapD "vp" 5 (Timestamp.UnmarshalBinary [b, 0, 0, 0, 0, 0, 0] >>= _) >>= _) = _
        rw [hb]; rfl
  · have key : ∀ u, ∀ p ∈ failures "SmsSubmitReport" u 0, plainErr p.2 = none → p = ("scts", .digits) := by
      intro u; cases u <;> decide +kernel
    obtain rfl := key _ p hp hc
    rcases hs with ⟨h, _⟩ | ⟨_, b, rfl, _, hb⟩
    · cases h
    · refine ⟨[0, 0, b, 0, 0, 0, 0, 0, 0], _, (unmarshal_SubmitReport { Direction := d } fo ht _).trans (wrap_reach (o := 2) ?_)⟩
      show (wrapD "scts" 2 (Timestamp.UnmarshalBinary [b, 0, 0, 0, 0, 0, 0]) >>= _) = _
      rw [hb]; rfl
  · have key : ∀ u, ∀ p ∈ failures "SmsStatusReport" u 0, plainErr p.2 = none →
        p = ("ra.addr", .septet) ∨ p = ("scts", .digits) ∨ p = ("dt", .digits) := by
      intro u; cases u <;> decide +kernel
    rcases key _ p hp hc with rfl | rfl | rfl
    · rcases hs with ⟨_, g, rfl, hg⟩ | ⟨h, _⟩
      · refine ⟨0 :: escaped g, _, (unmarshal_StatusReport { Direction := d } fo ht _).trans (wrap_reach (o := 3) ?_)⟩
        show (wrapD "ra" 1 (Address.UnmarshalBinary (escaped g)) >>= _) = _
        rw [hg]; rfl
      · cases h
    · rcases hs with ⟨h, _⟩ | ⟨_, b, rfl, _, hb⟩
      · cases h
      · refine ⟨[0, 0, 0, b, 0, 0, 0, 0, 0, 0], _, (unmarshal_StatusReport { Direction := d } fo ht _).trans (wrap_reach (o := 3) ?_)⟩
        show (wrapD "scts" 3 (Timestamp.UnmarshalBinary [b, 0, 0, 0, 0, 0, 0]) >>= _) = _
        rw [hb]; rfl
    · rcases hs with ⟨h, _⟩ | ⟨_, b, rfl, _, hb⟩
      · cases h
      · refine ⟨[0, 0, 0, 0, 0, 0, 0, 0, 0, 0, b, 0, 0, 0, 0, 0, 0], _, (unmarshal_StatusReport { Direction := d } fo ht _).trans (wrap_reach (o := 10) ?_)⟩
        show (wrapD "dt" 10 (Timestamp.UnmarshalBinary [b, 0, 0, 0, 0, 0, 0]) >>= _) = _
        rw [hb]; rfl
  · have key : ∀ u, ∀ p ∈ failures "SmsCommand" u 0, plainErr p.2 = none → p = ("da.addr", .septet) := by
      intro u; cases u <;> decide +kernel
    obtain rfl := key _ p hp hc
    rcases hs with ⟨_, g, rfl, hg⟩ | ⟨h, _⟩
    · refine ⟨[0, 0, 0, 0] ++ escaped g, _, (unmarshal_Command { Direction := d } fo ht _).trans (wrap_reach (o := 6) ?_)⟩
      show (wrapD "da" 4 (Address.UnmarshalBinary (escaped g)) >>= _) = _
      rw [hg]; rfl
    · cases h

theorem plain_is {k : Cause} {c e : Err} (h : plainErr k = some e) (hc : k.Is c) : c = e := by
  cases k <;> cases h <;> exact hc

theorem errs_type {d : Int} (hd : d = 0 ∨ d = 1) {fo : UInt8} {name : String} (hn : typeName d (fo.toNat % 4) = some name) (body : Bytes) :
    ∃ m : M TPDU, Sms.Unmarshal (fo :: body) d = wrapD name 1 m ∧ Errs (causes name (udhiOf fo) (vpfOf fo)) m := by
  have hu := udhi_blank d fo
  unfold Sms.Unmarshal
  rcases six_types hd hn with ⟨rfl, ht⟩ | ⟨rfl, ht⟩ | ⟨rfl, ht⟩ | ⟨rfl, ht⟩ | ⟨rfl, ht⟩ | ⟨rfl, ht⟩
  · refine ⟨_, unmarshal_Deliver { Direction := d } fo ht _, ?_⟩
    rw [← hu]; exact errs_deliver _ _
  · refine ⟨_, unmarshal_DeliverReport { Direction := d } fo ht _, ?_⟩
    rw [← hu]; exact errs_deliverReport _ _
  · refine ⟨_, unmarshal_Submit { Direction := d } fo ht _, ?_⟩
    rw [← hu]; exact errs_submit _ _
  · refine ⟨_, unmarshal_SubmitReport { Direction := d } fo ht _, ?_⟩
    rw [← hu]; exact errs_submitReport _ _
  · refine ⟨_, unmarshal_StatusReport { Direction := d } fo ht _, ?_⟩
    rw [← hu]; exact errs_statusReport _ _
  · refine ⟨_, unmarshal_Command { Direction := d } fo ht _, ?_⟩
    rw [← hu]; exact errs_command _ _

/-- C90: for each direction and first octet of a known type, these are the fields and causes of the errors that `Unmarshal`
returns, all of them and no others. -/
theorem C90_exact (d : Int) (hd : d = 0 ∨ d = 1) (fo : UInt8) (name : String) (hn : typeName d (fo.toNat % 4) = some name)
    (f : String) (c : Err) :
    (∃ body o, Sms.Unmarshal (fo :: body) d = .error (.err (.decode f o c))) ↔
    ∃ p ∈ failures name (udhiOf fo) (vpfOf fo), f = name ++ "." ++ p.1 ∧ p.2.Is c := by
  constructor
  · rintro ⟨body, o, h⟩
    obtain ⟨m, hm, he⟩ := errs_type hd hn body
    rw [hm] at h
    have := Errs.wrapD (L' := (failures name (udhiOf fo) (vpfOf fo)).map fun p => (some (name ++ "." ++ p.1), p.2)) (f := name) (o := 1) he (by
      intro p hp
      obtain ⟨q, hq, rfl⟩ := List.mem_map.1 hp
      exact List.mem_map.2 ⟨q, hq, rfl⟩) _ h
    obtain ⟨p, hp, h1, h2⟩ := this
    obtain ⟨q, hq, rfl⟩ := List.mem_map.1 hp
    exact ⟨q, hq, Option.some.inj h1, h2⟩
  · rintro ⟨p, hp, rfl, hc⟩
    rcases hk : plainErr p.2 with _ | e
    · exact octet_cases d fo name hn hd p hp hk c hc
    · obtain rfl := plain_is hk hc
      obtain ⟨w, hw, h1, h2⟩ := cases_complete name (six_names hd hn) (udhiOf fo) (vpfOf fo) (by unfold vpfOf; omega) p hp (by rw [hk]; rfl)
      have hall : casesHold fo d = true := by
        rcases hd with rfl | rfl
        · exact casesHold_mt fo
        · exact casesHold_mo fo
      unfold casesHold at hall
      rw [hn] at hall
      have := List.all_eq_true.1 hall w hw
      rw [h2, hk, h1] at this
      obtain ⟨o, ho⟩ := (hasErr_iff _ _ _).1 this
      exact ⟨_, o, ho⟩

/-- C90: whatever the input, `Unmarshal` returns a TPDU or a `DecodeError`.  Without a first octet of a known type the error is
of the first octet. -/
theorem C90_total (d : Int) (hd : d = 0 ∨ d = 1) (src : List UInt8) :
    (∃ t, Sms.Unmarshal src d = .ok t) ∨
    (src = [] ∧ Sms.Unmarshal src d = .error (.err (.decode "tpdu.firstOctet" 0 .underflow))) ∨
    (∃ fo body st, src = fo :: body ∧ typeName d (fo.toNat % 4) = none ∧
      Sms.Unmarshal src d = .error (.err (.decode "tpdu.firstOctet" 0 (.unsupportedSmsType st)))) ∨
    ∃ fo body name f o c, src = fo :: body ∧ typeName d (fo.toNat % 4) = some name ∧
      Sms.Unmarshal src d = .error (.err (.decode (name ++ "." ++ f) o c)) := by
  rcases src with _ | ⟨fo, body⟩
  · exact .inr (.inl ⟨rfl, rfl⟩)
  rcases hn : typeName d (fo.toNat % 4) with _ | name
  · refine .inr (.inr (.inl ⟨fo, body, smsType (FirstOctet.MTI fo) d, rfl, hn, ?_⟩))
    rcases unmarshal_cases { Direction := d } fo body with ⟨_, h⟩ | ⟨h, _⟩
    · exact h
    · exfalso
      have hm : ∀ fo : UInt8, FirstOctet.MTI fo = UInt8.ofNat (fo.toNat % 4) := by apply forall_u8; decide +kernel
      rw [hm fo] at h
      have hlt : fo.toNat % 4 < 4 := by omega
      generalize fo.toNat % 4 = n at hn hlt h
      have : n = 0 ∨ n = 1 ∨ n = 2 ∨ n = 3 := by omega
      rcases hd with rfl | rfl <;> rcases this with rfl | rfl | rfl | rfl <;> first | (cases hn; done) | (revert h; decide +kernel)
  · rcases C28_sms_no_panic (fo :: body) d with h | ⟨e, h⟩
    · exact .inl h
    · right; right; right
      obtain ⟨m, hm, he⟩ := errs_type hd hn body
      rw [hm] at h ⊢
      unfold wrapD at h
      split at h
      · cases h
      · rename_i e0
        obtain ⟨p, hp, h1, h2⟩ := he e0 rfl
        obtain ⟨q, hq, rfl⟩ := List.mem_map.1 hp
        rcases e0 with _ | _ | _ | _ | _ | _ | _ | _ | _ | _ | _ | _ | _ | _ | _ | ⟨f, o, c⟩ | _ | _ | _ | _ | _ | _ | _ | _ <;> try cases h1
        exact ⟨fo, body, name, _, _, c, rfl, hn, rfl⟩
      · cases h

/-- A deliver TPDU with a header may fail in 15 ways, without in 13. -/
example : (failures "SmsDeliver" true 0).length = 15 ∧ (failures "SmsDeliver" false 0).length = 13 ∧
    (∃ body o, Sms.Unmarshal (0x40 :: body) 0 = .error (.err (.decode "SmsDeliver.ud.udh.ied" o .underflow))) ∧
    ¬ ∃ body o, Sms.Unmarshal (0x00 :: body) 0 = .error (.err (.decode "SmsDeliver.ud.udh.ied" o .underflow)) := by
  refine ⟨by decide +kernel, by decide +kernel, ?_, ?_⟩
  · exact (C90_exact 0 (.inl rfl) 0x40 "SmsDeliver" rfl _ _).2 ⟨("ud.udh.ied", .short), by decide +kernel, rfl, rfl⟩
  · intro h
    obtain ⟨p, hp, h1, _⟩ := (C90_exact 0 (.inl rfl) 0x00 "SmsDeliver" rfl _ _).1 h
    revert h1
    have : ∀ p ∈ failures "SmsDeliver" (udhiOf 0) (vpfOf 0), ¬ "SmsDeliver.ud.udh.ied" = "SmsDeliver" ++ "." ++ p.1 := by decide +kernel
    exact this p hp

end Verif.Props
