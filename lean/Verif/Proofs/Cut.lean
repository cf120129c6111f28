import Verif.Proofs.Trailing

/-! Reports and commands that are cut short. -/

namespace Verif.Proofs
open Verif.Model Verif.Spec Verif.Model.TPDU
open Verif.Spec.Trailing (octet)

theorem cut_split {f : Bytes → M TPDU} {b q head ud : Bytes} {t1 t2 : TPDU} (hm : b ++ q = head ++ ud) (hs : Split f b head.length)
    (h1 : f b = .ok t1) (h2 : f (b ++ q) = .ok t2) (hz : ud.head? = some 0 → ud.length = 1) : q = [] := by
  by_cases hq : q = []
  · exact hq
  have h := ((split_append hs t1 t2 q hq h1).1 h2).1
  have hl := (List.getElem?_eq_some_iff.1 h).1
  have h' : (b ++ q)[head.length]? = some 0 := by rw [List.getElem?_append_left hl]; exact h
  rw [hm, List.getElem?_append_right (Nat.le_refl _), Nat.sub_self, ← List.head?_eq_getElem?] at h'
  have := hz h'
  have e := congrArg List.length hm
  simp only [List.length_append] at e
  exact List.eq_nil_of_length_eq_zero (by omega)

theorem cut_ignores {f : Bytes → M TPDU} {b q head : Bytes} (hm : b ++ q = head) (hs : Ignores f b head.length) : q = [] := by
  have e := congrArg List.length hm
  have := hs.1
  simp only [List.length_append] at e
  exact List.eq_nil_of_length_eq_zero (by omega)

/-- The length octet of user data is 0 only if there are none. -/
theorem encode_zero (t : TPDU) (h : UdOk t) (e : Bytes) (he : t.encodeUserData = .ok e) (h0 : e.head? = some 0) : e.length = 1 := by
  obtain ⟨e', g1, g2, g3, g4, g5⟩ := ud_roundtrip t { FirstOctet := t.FirstOctet, DCS := t.DCS } h rfl rfl rfl rfl
  rw [he] at g1
  cases g1
  by_cases hu : t.UD = [] ∧ t.UDH = []
  · rw [g4 hu.1 hu.2]
  · refine absurd h0 (g5 ?_)
    by_cases h3 : t.UD = []
    · exact .inr fun h4 => hu ⟨h3, h4⟩
    · exact .inl h3

theorem octet_append {b q : Bytes} {i : Nat} (h : i < b.length) : octet (b ++ q) i = octet b i := by
  unfold octet; rw [List.getElem?_append_left h]

theorem octet_head (pre : Bytes) (l : Bytes) (i : Nat) (h : i = pre.length) : octet (pre ++ l) i = octet l 0 := by
  unfold octet; rw [h, List.getElem?_append_right (Nat.le_refl _), Nat.sub_self]

theorem piOctets_length (t : TPDU) : t.piOctets.length = t.PI.toNat % 2 + t.PI.toNat / 2 % 2 := by
  obtain ⟨p1, p2, _⟩ := pi_div t.PI
  unfold piOctets
  by_cases a : PI.PID t.PI = true
  · by_cases b : PI.DCS t.PI = true
    · simp [a, b, p1.1 a, p2.1 b]
    · have : t.PI.toNat / 2 % 2 = 0 := by have : ¬ t.PI.toNat / 2 % 2 = 1 := fun e => b (p2.2 e); omega
      simp [a, b, p1.1 a, this]
  · have ha : t.PI.toNat % 2 = 0 := by have : ¬ t.PI.toNat % 2 = 1 := fun e => a (p1.2 e); omega
    by_cases b : PI.DCS t.PI = true
    · simp [a, b, ha, p2.1 b]
    · have : t.PI.toNat / 2 % 2 = 0 := by have : ¬ t.PI.toNat / 2 % 2 = 1 := fun e => b (p2.2 e); omega
      simp [a, b, ha, this]

/-- The optional user data, as a whole. -/
theorem opt_zero (t : TPDU) (h : OptOk t) (e : Bytes) (he : t.optUserData = .ok e) :
    if t.PI.toNat / 4 % 2 = 1 then (e.head? = some 0 → e.length = 1) else e = [] := by
  obtain ⟨_, _, p3⟩ := pi_div t.PI
  unfold optUserData at he
  split
  · next hu =>
    rw [if_pos (p3.2 hu), wrapE_eq_ok] at he
    exact encode_zero t (h.ud (p3.2 hu)) e he
  · next hu =>
    rw [if_neg (fun x => hu (p3.1 x))] at he
    cases he; rfl

theorem command_cut (t t1 : TPDU) (p q : Bytes) (hq : q ≠ []) (hdir : t.Direction = MO) (hmti : FirstOctet.MTI t.FirstOctet = 2)
    (hda : AddrOk t.DA) (hudhi : t.UDHI = false ∨ t.UD = []) (hud : t.UD.length ≤ 255)
    (hm : t.MarshalBinary = .ok (p ++ q)) : ({ Direction := MO } : TPDU).UnmarshalBinary p ≠ .ok t1 := by
  intro h1
  obtain ⟨m, hm', hr⟩ := command_rt t hdir hmti hda hudhi hud
  rw [hm] at hm'; cases hm'
  obtain ⟨da, ha, ha'⟩ := addr_rt _ hda
  have hst : t.SmsType = SmsCommand := by rw [smsType_of t _ _ hmti hdir]; decide
  have hst' : ({ Direction := MO, FirstOctet := t.FirstOctet } : TPDU).SmsType = SmsCommand :=
    (smsType_of { Direction := MO, FirstOctet := t.FirstOctet } 2 MO hmti rfl).trans (by decide)
  have hb : t.marshalCommand = .ok ([t.FirstOctet, t.MR, t.PID, t.CT, t.MN] ++ da ++ [byteOf t.UD.length] ++ t.UD) := by
    unfold marshalCommand; rw [ha]; rfl
  have hm' := marshal_Command t hst _ hb
  rw [hm] at hm'
  cases p with
  | nil => cases h1
  | cons fo b =>
    simp only [List.cons_append, List.nil_append, Except.ok.injEq, List.cons.injEq] at hm'
    obtain ⟨rfl, hb⟩ := hm'
    have hu := unmarshal_Command { Direction := MO } _ hst'
    rw [hu, wrapD_eq_ok] at h1
    rw [List.cons_append, hu, wrapD_eq_ok] at hr
    have hs := command_split _ _ _ h1
    have hal := (address_len _ _ (ha' ([byteOf t.UD.length] ++ t.UD))).1
    have hk : 4 + (2 + (octet b 4 + 1) / 2) = ([t.MR, t.PID, t.CT, t.MN] ++ da).length := by
      obtain ⟨_, hs1, _⟩ := hs
      have : octet b 4 = octet (da ++ ([byteOf t.UD.length] ++ t.UD)) 0 := by
        rw [← octet_append (q := q) (by omega), hb]
        have := octet_head [t.MR, t.PID, t.CT, t.MN] (da ++ ([byteOf t.UD.length] ++ t.UD)) 4 rfl
        simpa using this
      simp only at hal
      rw [this, ← hal]; simp; omega
    rw [hk] at hs
    refine hq (cut_split (ud := [byteOf t.UD.length] ++ t.UD) ?_ hs h1 hr ?_)
    · rw [hb]; simp
    · intro h0
      have : byteOf t.UD.length = 0 := by simpa using h0
      have := congrArg UInt8.toNat this
      rw [toNat_byteOf] at this
      simp only [List.length_append, List.length_cons, List.length_nil]
      have : (0 : UInt8).toNat = 0 := rfl
      omega

theorem deliverReport_cut (t t1 : TPDU) (p q : Bytes) (hq : q ≠ []) (hdir : t.Direction = MO) (hmti : FirstOctet.MTI t.FirstOctet = 0)
    (hfcs : t.FCS ≠ 0) (hopt : OptOk t)
    (hm : t.MarshalBinary = .ok (p ++ q)) : ({ Direction := MO } : TPDU).UnmarshalBinary p ≠ .ok t1 := by
  intro h1
  obtain ⟨m, hm', hr⟩ := deliverReport_rt t hdir hmti hfcs hopt
  rw [hm] at hm'; cases hm'
  have hst : t.SmsType = SmsDeliverReport := by rw [smsType_of t _ _ hmti hdir]; decide
  have hst' : ({ Direction := MO, FirstOctet := t.FirstOctet } : TPDU).SmsType = SmsDeliverReport :=
    (smsType_of { Direction := MO, FirstOctet := t.FirstOctet } 0 MO hmti rfl).trans (by decide)
  obtain ⟨e, he, _⟩ := opt_rt t { FirstOctet := t.FirstOctet, PI := t.PI } [] hopt rfl rfl rfl rfl rfl rfl
  have hb : t.marshalDeliverReport = .ok ([t.FirstOctet] ++ [t.FCS] ++ [t.PI] ++ t.piOctets ++ e) := by
    unfold marshalDeliverReport; rw [he, ok_bind, if_pos hfcs]; rfl
  have hm' := marshal_DeliverReport t hst _ hb
  rw [hm] at hm'
  cases p with
  | nil => cases h1
  | cons fo b =>
    simp only [List.cons_append, List.nil_append, Except.ok.injEq, List.cons.injEq] at hm'
    obtain ⟨rfl, hb⟩ := hm'
    have hu := unmarshal_DeliverReport { Direction := MO } _ hst'
    rw [hu, wrapD_eq_ok] at h1
    rw [List.cons_append, hu, wrapD_eq_ok] at hr
    have hs := deliverReport_split _ _ _ h1
    have hl : 2 ≤ b.length := by
      split at hs
      · obtain ⟨_, x, _⟩ := hs; omega
      · have := hs.1; omega
    have ho : octet b 1 = t.PI.toNat := by
      rw [← octet_append (q := q) (by omega), hb]; rfl
    have hz := opt_zero t hopt e he
    have hk : 2 + (octet b 1 % 2 + octet b 1 / 2 % 2) = ([t.FCS, t.PI] ++ t.piOctets).length := by
      rw [ho, List.length_append, piOctets_length]; rfl
    rw [hk, ho] at hs
    split at hs
    · next hl =>
      rw [if_pos hl] at hz
      exact hq (cut_split (ud := e) (by rw [hb]; simp) hs h1 hr hz)
    · next hl =>
      rw [if_neg hl] at hz
      exact hq (cut_ignores (by rw [hb, hz]; simp) hs)

theorem submitReport_cut (t t1 : TPDU) (p q : Bytes) (hq : q ≠ []) (hdir : t.Direction = MT) (hmti : FirstOctet.MTI t.FirstOctet = 1)
    (hfcs : t.FCS ≠ 0) (hts : TimeOk t.SCTS) (hopt : OptOk t)
    (hm : t.MarshalBinary = .ok (p ++ q)) : ({ Direction := MT } : TPDU).UnmarshalBinary p ≠ .ok t1 := by
  intro h1
  obtain ⟨m, hm', hr⟩ := submitReport_rt t hdir hmti hfcs hts hopt
  rw [hm] at hm'; cases hm'
  have hst : t.SmsType = SmsSubmitReport := by rw [smsType_of t _ _ hmti hdir]; decide
  have hst' : ({ Direction := MT, FirstOctet := t.FirstOctet } : TPDU).SmsType = SmsSubmitReport :=
    (smsType_of { Direction := MT, FirstOctet := t.FirstOctet } 1 MT hmti rfl).trans (by decide)
  obtain ⟨ts, hv, hvl, _⟩ := time_rt _ hts
  obtain ⟨e, he, _⟩ := opt_rt t { FirstOctet := t.FirstOctet, PI := t.PI } [] hopt rfl rfl rfl rfl rfl rfl
  have hb : t.marshalSubmitReport = .ok ([t.FirstOctet] ++ [t.FCS] ++ [t.PI] ++ ts ++ t.piOctets ++ e) := by
    unfold marshalSubmitReport; rw [he, hv, if_pos hfcs]; rfl
  have hm' := marshal_SubmitReport t hst _ hb
  rw [hm] at hm'
  cases p with
  | nil => cases h1
  | cons fo b =>
    simp only [List.cons_append, List.nil_append, Except.ok.injEq, List.cons.injEq] at hm'
    obtain ⟨rfl, hb⟩ := hm'
    have hu := unmarshal_SubmitReport { Direction := MT } _ hst'
    rw [hu, wrapD_eq_ok] at h1
    rw [List.cons_append, hu, wrapD_eq_ok] at hr
    have hs := submitReport_split _ _ _ h1
    have hl : 2 ≤ b.length := by
      split at hs
      · obtain ⟨_, x, _⟩ := hs; omega
      · have := hs.1; omega
    have ho : octet b 1 = t.PI.toNat := by
      rw [← octet_append (q := q) (by omega), hb]; rfl
    have hz := opt_zero t hopt e he
    have hk : 2 + 7 + (octet b 1 % 2 + octet b 1 / 2 % 2) = ([t.FCS, t.PI] ++ ts ++ t.piOctets).length := by
      rw [ho, List.length_append, List.length_append, piOctets_length, hvl]; rfl
    rw [hk, ho] at hs
    split at hs
    · next hl =>
      rw [if_pos hl] at hz
      exact hq (cut_split (ud := e) (by rw [hb]; simp) hs h1 hr hz)
    · next hl =>
      rw [if_neg hl] at hz
      exact hq (cut_ignores (by rw [hb, hz]; simp) hs)

/-- The marshalled status report. -/
theorem status_bytes (t : TPDU) (ra ts dt e : Bytes) (ha : t.RA.MarshalBinary = .ok ra) (hv : Timestamp.MarshalBinary t.SCTS = .ok ts)
    (hw : Timestamp.MarshalBinary t.DT = .ok dt) (he : t.optUserData = .ok e) :
    t.marshalStatusReport = .ok ([t.FirstOctet, t.MR] ++ ra ++ ts ++ dt ++ [t.ST] ++
      (if t.PI = 0 then [] else [t.PI] ++ t.piOctets ++ e)) := by
  unfold marshalStatusReport
  rw [ha, hv, hw, he]
  by_cases h : t.PI = 0
  · simp only [wrapE_ok, ok_bind, h, if_true, pure_ok, List.append_nil]
  · simp only [wrapE_ok, ok_bind, h, if_false, pure_ok, List.append_assoc]

/-- A status report that is cut short is accepted only if everything optional is cut off. -/
theorem status_cut (t t1 : TPDU) (p q : Bytes) (hq : q ≠ []) (hdir : t.Direction = MT) (hmti : FirstOctet.MTI t.FirstOctet = 2)
    (hra : AddrOk t.RA) (hts : TimeOk t.SCTS) (hdt : TimeOk t.DT) (hopt : OptOk t)
    (hm : t.MarshalBinary = .ok (p ++ q)) (h1 : ({ Direction := MT } : TPDU).UnmarshalBinary p = .ok t1) :
    t.PI ≠ 0 ∧ ({ t with PI := 0 } : TPDU).MarshalBinary = .ok p := by
  obtain ⟨m, hm', hr⟩ := status_rt t hdir hmti hra hts hdt hopt
  rw [hm] at hm'; cases hm'
  have hst : t.SmsType = SmsStatusReport := by rw [smsType_of t _ _ hmti hdir]; decide
  have hst' : ({ Direction := MT, FirstOctet := t.FirstOctet } : TPDU).SmsType = SmsStatusReport :=
    (smsType_of { Direction := MT, FirstOctet := t.FirstOctet } 2 MT hmti rfl).trans (by decide)
  obtain ⟨ra, ha, ha'⟩ := addr_rt _ hra
  obtain ⟨ts, hv, hvl, _⟩ := time_rt _ hts
  obtain ⟨dt, hw, hwl, _⟩ := time_rt _ hdt
  obtain ⟨e, he, _⟩ := opt_rt t { FirstOctet := t.FirstOctet, PI := t.PI } [] hopt rfl rfl rfl rfl rfl rfl
  have hm' := marshal_StatusReport t hst _ (status_bytes t ra ts dt e ha hv hw he)
  rw [hm] at hm'
  cases p with
  | nil => cases h1
  | cons fo b =>
    simp only [List.cons_append, List.nil_append, Except.ok.injEq, List.cons.injEq] at hm'
    obtain ⟨rfl, hb⟩ := hm'
    have hu := unmarshal_StatusReport { Direction := MT } _ hst'
    rw [hu, wrapD_eq_ok] at h1
    rw [List.cons_append, hu, wrapD_eq_ok] at hr
    have hb0 : b ++ q = ([t.MR] ++ ra ++ ts ++ dt ++ [t.ST]) ++ (if t.PI = 0 then [] else [t.PI] ++ t.piOctets ++ e) := by
      rw [hb]; simp
    have hlen := statusReport_len _ _ _ h1
    have hal := (address_len _ _ (ha' (ts ++ dt ++ [t.ST] ++ (if t.PI = 0 then [] else [t.PI] ++ t.piOctets ++ e)))).1
    have ho : octet b 1 = octet (ra ++ (ts ++ dt ++ [t.ST] ++ (if t.PI = 0 then [] else [t.PI] ++ t.piOctets ++ e))) 0 := by
      rw [← octet_append (q := q) (by omega), hb]
      have := octet_head [t.MR] (ra ++ (ts ++ dt ++ [t.ST] ++ (if t.PI = 0 then [] else [t.PI] ++ t.piOctets ++ e))) 1 rfl
      simpa using this
    simp only at hal
    rw [ho, ← hal] at hlen
    have hl0 : ([t.MR] ++ ra ++ ts ++ dt ++ [t.ST]).length = 1 + ra.length + 7 + 7 + 1 := by simp [hvl, hwl]; omega
    have hpi : t.PI ≠ 0 := by
      intro h0
      rw [if_pos h0, List.append_nil] at hb0
      have := congrArg List.length hb0
      rw [hl0, List.length_append] at this
      exact hq (List.eq_nil_of_length_eq_zero (by omega))
    refine ⟨hpi, ?_⟩
    rw [if_neg hpi] at hb0
    by_cases hlt : 1 + ra.length + 7 + 7 + 1 < b.length
    · exfalso
      have hs := statusReport_split _ _ _ h1 (by rw [ho, ← hal]; exact hlt)
      rw [ho, ← hal] at hs
      have hop : octet b (1 + ra.length + 7 + 7 + 1) = t.PI.toNat := by
        rw [← octet_append (q := q) hlt, hb0]
        exact octet_head _ _ _ hl0.symm
      have hz := opt_zero t hopt e he
      have hk : 1 + ra.length + 7 + 7 + 1 + 1 + (octet b (1 + ra.length + 7 + 7 + 1) % 2 + octet b (1 + ra.length + 7 + 7 + 1) / 2 % 2) =
          ([t.MR] ++ ra ++ ts ++ dt ++ [t.ST] ++ [t.PI] ++ t.piOctets).length := by
        rw [hop, List.length_append, List.length_append, hl0, piOctets_length]; rfl
      rw [hk, hop] at hs
      split at hs
      · next hl =>
        rw [if_pos hl] at hz
        exact hq (cut_split (ud := e) (by rw [hb0]; simp) hs h1 hr hz)
      · next hl =>
        rw [if_neg hl] at hz
        exact hq (cut_ignores (by rw [hb0, hz]; simp) hs)
    · have hbl : b.length = 1 + ra.length + 7 + 7 + 1 := by omega
      have : b = [t.MR] ++ ra ++ ts ++ dt ++ [t.ST] := by
        have := congrArg (List.take b.length) hb0
        rwa [List.take_left' rfl, List.take_left' (by rw [hl0, hbl])] at this
      have hst0 : ({ t with PI := 0 } : TPDU).SmsType = SmsStatusReport := hst
      have := marshal_StatusReport { t with PI := 0 } hst0 _ (status_bytes { t with PI := 0 } ra ts dt [] ha hv hw (if_neg (show ¬ PI.UDL 0 = true by decide)))
      rw [this, if_pos rfl, List.append_nil, ‹b = _›]
      simp

end Verif.Proofs
