import Verif.Proofs.TpduUd
import Verif.Proofs.Address
import Verif.Proofs.ValidityPeriod

/-! Round trips of whole TPDUs. -/

namespace Verif.Proofs
open Verif.Model Verif.Model.TPDU Verif.Spec

theorem addr_rt (a : Address) (h : AddrOk a) : ∃ p, a.MarshalBinary = .ok p ∧
    ∀ rest, Address.UnmarshalBinary (p ++ rest) = .ok (a, p.length) := by
  rcases h with ⟨h1, h2, h3⟩ | ⟨h1, h2, g, h3, h4⟩
  · obtain ⟨p, hp, _, _⟩ := addr_numeric a [] h1 h2 h3
    refine ⟨p, hp, fun rest => ?_⟩
    obtain ⟨p', hp', _, h⟩ := addr_numeric a rest h1 h2 h3
    rw [hp] at hp'; cases hp'; exact h
  · obtain ⟨p, hp, _, _⟩ := addr_alpha a [] g h1 h3 h2 h4
    refine ⟨p, hp, fun rest => ?_⟩
    obtain ⟨p', hp', _, h⟩ := addr_alpha a rest g h1 h3 h2 h4
    rw [hp] at hp'; cases hp'; exact h

theorem time_rt (t : GoTime) (h : TimeOk t) : ∃ p, Timestamp.MarshalBinary t = .ok p ∧ p.length = 7 ∧
    ∀ rest, Timestamp.UnmarshalBinary (p ++ rest) = .ok t := by
  obtain ⟨hn, hy1, hy2, q, hq, hq1, hq2⟩ := h
  have hq' : t.off = 900 * q := by omega
  obtain ⟨p, hp, hl, _⟩ := timestamp_roundtrip t q [] hn hy1 hy2 hq' hq1 hq2
  refine ⟨p, hp, hl, fun rest => ?_⟩
  obtain ⟨p', hp', _, h⟩ := timestamp_roundtrip t q rest hn hy1 hy2 hq' hq1 hq2
  rw [hp] at hp'; cases hp'; exact h

theorem vp_rt1 (v : ValidityPeriod) (h : VpOk v) (rest : List UInt8) :
    ∃ p, v.MarshalBinary = .ok p ∧ ValidityPeriod.UnmarshalBinary {} (p ++ rest) v.Format = .ok (v, p.length) := by
  cases h with
  | absent => exact vp_none rest
  | relative c h => exact vp_relative c h rest
  | absolute t h =>
    obtain ⟨hn, hy1, hy2, q, hq, hq1, hq2⟩ := h
    exact vp_absolute t q rest hn hy1 hy2 (by omega) hq1 hq2
  | enhancedNone efi he => exact vp_enh0 efi he rest
  | enhancedRelative efi c he h => exact vp_enh1 efi c he h rest
  | enhancedSeconds efi n he h => exact vp_enh2 efi n he h rest
  | enhancedHHMMSS efi n he h => exact vp_enh3 efi n he (by omega) rest

theorem vp_rt (v : ValidityPeriod) (h : VpOk v) : ∃ p, v.MarshalBinary = .ok p ∧
    ∀ rest, ValidityPeriod.UnmarshalBinary {} (p ++ rest) v.Format = .ok (v, p.length) := by
  obtain ⟨p, hp, _⟩ := vp_rt1 v h []
  refine ⟨p, hp, fun rest => ?_⟩
  obtain ⟨p', hp', h⟩ := vp_rt1 v h rest
  rw [hp] at hp'; cases hp'; exact h

/-- The body of the TPDU after the first octet. -/
theorem slice_tail (x : UInt8) (l : Bytes) : slice (x :: l) 1 (x :: l).length = .ok l :=
  slice_end [x] l 1 _ rfl rfl

theorem slice_from (pre post : Bytes) (a : Nat) (ha : a = pre.length) :
    slice (pre ++ post) (a : Int) (pre ++ post).length = .ok post :=
  slice_end pre post a _ (by rw [ha]) rfl

theorem readAt_mid (f : String) (pre post : Bytes) (x : UInt8) (ri : Nat) (h : ri = pre.length) :
    readAt f (pre ++ x :: post) ri = .ok x := by
  unfold readAt
  rw [if_neg (by subst h; simp)]
  exact idx_at _ _ _ _ (by rw [h])

/-- `SmsType` depends only on the MTI bits when the direction is MT or MO. -/
theorem smsType_of (t : TPDU) (m : UInt8) (d : Int) (hm : FirstOctet.MTI t.FirstOctet = m) (hd : t.Direction = d) :
    t.SmsType = smsType m d := by unfold TPDU.SmsType; rw [hm, hd]

theorem marshal_Deliver (t : TPDU) (h : t.SmsType = SmsDeliver) (p : Bytes) (hm : t.marshalDeliver = .ok p) :
    t.MarshalBinary = .ok p := by
  have e : t.MarshalBinary = wrapE (smsTypeString SmsDeliver) t.marshalDeliver := by
    unfold MarshalBinary; simp only [h]; rfl
  rw [e, hm]; rfl

theorem unmarshal_Deliver (t : TPDU) (fo : UInt8) (h : ({ t with FirstOctet := fo } : TPDU).SmsType = SmsDeliver) (body : Bytes) :
    t.UnmarshalBinary (fo :: body) = wrapD (smsTypeString SmsDeliver) 1 (({ t with FirstOctet := fo } : TPDU).unmarshalDeliver body) := by
  unfold UnmarshalBinary
  rw [if_neg (by simp)]
  simp only [idx_zero_cons, ok_bind, slice_tail, h]
  rfl

theorem marshal_DeliverReport (t : TPDU) (h : t.SmsType = SmsDeliverReport) (p : Bytes) (hm : t.marshalDeliverReport = .ok p) :
    t.MarshalBinary = .ok p := by
  have e : t.MarshalBinary = wrapE (smsTypeString SmsDeliverReport) t.marshalDeliverReport := by
    unfold MarshalBinary; simp only [h]; rfl
  rw [e, hm]; rfl

theorem unmarshal_DeliverReport (t : TPDU) (fo : UInt8) (h : ({ t with FirstOctet := fo } : TPDU).SmsType = SmsDeliverReport) (body : Bytes) :
    t.UnmarshalBinary (fo :: body) = wrapD (smsTypeString SmsDeliverReport) 1 (({ t with FirstOctet := fo } : TPDU).unmarshalDeliverReport body) := by
  unfold UnmarshalBinary
  rw [if_neg (by simp)]
  simp only [idx_zero_cons, ok_bind, slice_tail, h]
  rfl

theorem marshal_SubmitReport (t : TPDU) (h : t.SmsType = SmsSubmitReport) (p : Bytes) (hm : t.marshalSubmitReport = .ok p) :
    t.MarshalBinary = .ok p := by
  have e : t.MarshalBinary = wrapE (smsTypeString SmsSubmitReport) t.marshalSubmitReport := by
    unfold MarshalBinary; simp only [h]; rfl
  rw [e, hm]; rfl

theorem unmarshal_SubmitReport (t : TPDU) (fo : UInt8) (h : ({ t with FirstOctet := fo } : TPDU).SmsType = SmsSubmitReport) (body : Bytes) :
    t.UnmarshalBinary (fo :: body) = wrapD (smsTypeString SmsSubmitReport) 1 (({ t with FirstOctet := fo } : TPDU).unmarshalSubmitReport body) := by
  unfold UnmarshalBinary
  rw [if_neg (by simp)]
  simp only [idx_zero_cons, ok_bind, slice_tail, h]
  rfl

theorem marshal_Submit (t : TPDU) (h : t.SmsType = SmsSubmit) (p : Bytes) (hm : t.marshalSubmit = .ok p) :
    t.MarshalBinary = .ok p := by
  have e : t.MarshalBinary = wrapE (smsTypeString SmsSubmit) t.marshalSubmit := by
    unfold MarshalBinary; simp only [h]; rfl
  rw [e, hm]; rfl

theorem unmarshal_Submit (t : TPDU) (fo : UInt8) (h : ({ t with FirstOctet := fo } : TPDU).SmsType = SmsSubmit) (body : Bytes) :
    t.UnmarshalBinary (fo :: body) = wrapD (smsTypeString SmsSubmit) 1 (({ t with FirstOctet := fo } : TPDU).unmarshalSubmit body) := by
  unfold UnmarshalBinary
  rw [if_neg (by simp)]
  simp only [idx_zero_cons, ok_bind, slice_tail, h]
  rfl

theorem marshal_StatusReport (t : TPDU) (h : t.SmsType = SmsStatusReport) (p : Bytes) (hm : t.marshalStatusReport = .ok p) :
    t.MarshalBinary = .ok p := by
  have e : t.MarshalBinary = wrapE (smsTypeString SmsStatusReport) t.marshalStatusReport := by
    unfold MarshalBinary; simp only [h]; rfl
  rw [e, hm]; rfl

theorem unmarshal_StatusReport (t : TPDU) (fo : UInt8) (h : ({ t with FirstOctet := fo } : TPDU).SmsType = SmsStatusReport) (body : Bytes) :
    t.UnmarshalBinary (fo :: body) = wrapD (smsTypeString SmsStatusReport) 1 (({ t with FirstOctet := fo } : TPDU).unmarshalStatusReport body) := by
  unfold UnmarshalBinary
  rw [if_neg (by simp)]
  simp only [idx_zero_cons, ok_bind, slice_tail, h]
  rfl

theorem marshal_Command (t : TPDU) (h : t.SmsType = SmsCommand) (p : Bytes) (hm : t.marshalCommand = .ok p) :
    t.MarshalBinary = .ok p := by
  have e : t.MarshalBinary = wrapE (smsTypeString SmsCommand) t.marshalCommand := by
    unfold MarshalBinary; simp only [h]; rfl
  rw [e, hm]; rfl

theorem unmarshal_Command (t : TPDU) (fo : UInt8) (h : ({ t with FirstOctet := fo } : TPDU).SmsType = SmsCommand) (body : Bytes) :
    t.UnmarshalBinary (fo :: body) = wrapD (smsTypeString SmsCommand) 1 (({ t with FirstOctet := fo } : TPDU).unmarshalCommand body) := by
  unfold UnmarshalBinary
  rw [if_neg (by simp)]
  simp only [idx_zero_cons, ok_bind, slice_tail, h]
  rfl

theorem readAt_head (f : String) (x : UInt8) (post : Bytes) : readAt f (x :: post) 0 = .ok x :=
  readAt_mid f [] post x 0 rfl

theorem submit_bytes (t : TPDU) (da vp ud : Bytes) (ha : t.DA.MarshalBinary = .ok da) (hv : t.VP.MarshalBinary = .ok vp)
    (hu : t.encodeUserData = .ok ud) :
    t.marshalSubmit = .ok (t.FirstOctet :: t.MR :: (da ++ t.PID :: t.DCS :: (vp ++ ud))) := by
  have hvp' : (if t.VP.Format ≠ VpfNotPresent then wrapE "vp" t.VP.MarshalBinary else .ok []) = (.ok vp : M Bytes) := by
    by_cases h : t.VP.Format = VpfNotPresent
    · rw [if_neg (by simpa using h)]
      unfold ValidityPeriod.MarshalBinary at hv
      rw [h, if_neg (by decide), if_neg (by decide), if_neg (by decide), if_pos rfl] at hv
      exact hv
    · rw [if_pos h, hv]; rfl
  unfold marshalSubmit
  simp only [ha, hu, wrapE_ok, ok_bind, pure_ok]
  by_cases h : t.VP.Format ≠ VpfNotPresent
  · rw [if_pos h] at hvp' ⊢; rw [hvp']; simp
  · rw [if_neg h] at hvp' ⊢; cases hvp'; simp

theorem deliver_bytes (t : TPDU) (oa ts ud : Bytes) (ha : t.OA.MarshalBinary = .ok oa)
    (hv : Timestamp.MarshalBinary t.SCTS = .ok ts) (hu : t.encodeUserData = .ok ud) :
    t.marshalDeliver = .ok (t.FirstOctet :: (oa ++ t.PID :: t.DCS :: (ts ++ ud))) := by
  unfold marshalDeliver
  simp only [ha, hu, hv, wrapE_ok, ok_bind, pure_ok]
  simp

theorem submit_rt (t : TPDU) (hdir : t.Direction = MO) (hmti : FirstOctet.MTI t.FirstOctet = 1) (hda : AddrOk t.DA)
    (hvp : VpOk t.VP) (hvpf : FirstOctet.VPF t.FirstOctet = t.VP.Format) (hud : UdOk t) :
    ∃ p, t.MarshalBinary = .ok p ∧ ({ Direction := MO } : TPDU).UnmarshalBinary p = .ok
      { Direction := MO, FirstOctet := t.FirstOctet, MR := t.MR, DA := t.DA, PID := t.PID, DCS := t.DCS,
        VP := t.VP, UDH := t.UDH, UD := t.UD } := by
  obtain ⟨da, ha, ha'⟩ := addr_rt _ hda
  obtain ⟨vp, hv, hv'⟩ := vp_rt _ hvp
  obtain ⟨ud, hu, hu', _⟩ := ud_roundtrip t
    { Direction := MO, FirstOctet := t.FirstOctet, MR := t.MR, DA := t.DA,
      PID := t.PID, DCS := t.DCS, VP := t.VP } hud rfl rfl rfl rfl
  have hst : t.SmsType = SmsSubmit := by rw [smsType_of t _ _ hmti hdir]; decide
  have hst' : ({ Direction := MO, FirstOctet := t.FirstOctet } : TPDU).SmsType = SmsSubmit :=
    (smsType_of { Direction := MO, FirstOctet := t.FirstOctet } 1 MO hmti rfl).trans (by decide)
  have hm := submit_bytes t da vp ud ha hv hu
  refine ⟨_, marshal_Submit t hst _ hm, ?_⟩
  · rw [unmarshal_Submit _ _ hst', wrapD_eq_ok]
    unfold unmarshalSubmit
    rw [readAt_head]
    simp only [ok_bind]
    have s1 : slice (t.MR :: (da ++ t.PID :: t.DCS :: (vp ++ ud))) ((1 : Nat) : Int)
        (t.MR :: (da ++ t.PID :: t.DCS :: (vp ++ ud))).length = .ok (da ++ t.PID :: t.DCS :: (vp ++ ud)) :=
      slice_from [t.MR] _ 1 rfl
    rw [s1]
    simp only [ok_bind, ha', wrapD_ok]
    have r1 : readAt "pid" (t.MR :: (da ++ t.PID :: t.DCS :: (vp ++ ud))) (1 + da.length) = .ok t.PID :=
      readAt_mid "pid" (t.MR :: da) _ t.PID _ (by simp [Nat.add_comm])
    have r2 : readAt "dcs" (t.MR :: (da ++ t.PID :: t.DCS :: (vp ++ ud))) (1 + da.length + 1) = .ok t.DCS := by
      have := readAt_mid "dcs" (t.MR :: da ++ [t.PID]) (vp ++ ud) t.DCS (1 + da.length + 1) (by simp; omega)
      simpa using this
    have s2 : slice (t.MR :: (da ++ t.PID :: t.DCS :: (vp ++ ud))) ((1 + da.length + 1 + 1 : Nat) : Int)
        (t.MR :: (da ++ t.PID :: t.DCS :: (vp ++ ud))).length = .ok (vp ++ ud) := by
      have := slice_from (t.MR :: da ++ [t.PID, t.DCS]) (vp ++ ud) (1 + da.length + 1 + 1) (by simp; omega)
      simpa using this
    have s3 : slice (t.MR :: (da ++ t.PID :: t.DCS :: (vp ++ ud))) ((1 + da.length + 1 + 1 + vp.length : Nat) : Int)
        (t.MR :: (da ++ t.PID :: t.DCS :: (vp ++ ud))).length = .ok ud := by
      have := slice_from (t.MR :: da ++ [t.PID, t.DCS] ++ vp) ud (1 + da.length + 1 + 1 + vp.length) (by simp; omega)
      simpa using this
    rw [r1]
    simp only [ok_bind]
    rw [r2]
    simp only [ok_bind]
    rw [s2]
    simp only [ok_bind, hvpf, hv', wrapD_ok]
    rw [s3]
    simp only [ok_bind, hu', wrapD_ok]

theorem deliver_rt (t : TPDU) (hdir : t.Direction = MT) (hmti : FirstOctet.MTI t.FirstOctet = 0) (hoa : AddrOk t.OA)
    (hts : TimeOk t.SCTS) (hud : UdOk t) :
    ∃ p, t.MarshalBinary = .ok p ∧ ({ Direction := MT } : TPDU).UnmarshalBinary p = .ok
      { Direction := MT, FirstOctet := t.FirstOctet, OA := t.OA, PID := t.PID, DCS := t.DCS,
        SCTS := t.SCTS, UDH := t.UDH, UD := t.UD } := by
  obtain ⟨oa, ha, ha'⟩ := addr_rt _ hoa
  obtain ⟨ts, hv, hl, hv'⟩ := time_rt _ hts
  obtain ⟨ud, hu, hu', _⟩ := ud_roundtrip t
    { Direction := MT, FirstOctet := t.FirstOctet, OA := t.OA,
      PID := t.PID, DCS := t.DCS, SCTS := t.SCTS } hud rfl rfl rfl rfl
  have hst : t.SmsType = SmsDeliver := by rw [smsType_of t _ _ hmti hdir]; decide
  have hst' : ({ Direction := MT, FirstOctet := t.FirstOctet } : TPDU).SmsType = SmsDeliver :=
    (smsType_of { Direction := MT, FirstOctet := t.FirstOctet } 0 MT hmti rfl).trans (by decide)
  have hm := deliver_bytes t oa ts ud ha hv hu
  refine ⟨_, marshal_Deliver t hst _ hm, ?_⟩
  · rw [unmarshal_Deliver _ _ hst', wrapD_eq_ok]
    unfold unmarshalDeliver
    simp only [ha', wrapD_ok, ok_bind]
    rw [slice_from oa _ _ rfl]
    simp only [ok_bind, readByte, wrapD_ok, hv']
    have : (ts ++ ud).drop 7 = ud := List.drop_left' hl
    rw [this, hu']
    rfl

theorem opt_rt (t t0 : TPDU) (pre : Bytes) (h : OptOk t) (hf : t0.FirstOctet = t.FirstOctet)
    (hpi : t0.PI = t.PI) (h1 : t0.UDH = []) (h2 : t0.UD = []) (h3 : t0.PID = 0) (h4 : t0.DCS = 0) :
    ∃ e, t.optUserData = .ok e ∧
      unmarshalOptionals t0 (pre ++ (t.piOctets ++ e)) pre.length = .ok { t0 with
        PID := if PI.PID t.PI then t.PID else 0, DCS := if PI.DCS t.PI then t.DCS else 0,
        UDH := if PI.UDL t.PI then t.UDH else [], UD := if PI.UDL t.PI then t.UD else [] } := by
  obtain ⟨hud, hdcs⟩ := h
  have key : ∀ (t1 : TPDU) (pre1 : Bytes), t1.FirstOctet = t.FirstOctet → t1.PI = t.PI → t1.UDH = [] → t1.UD = [] →
      t1.DCS = (if PI.DCS t.PI then t.DCS else 0) → ∃ e, t.optUserData = .ok e ∧
      (if PI.UDL t1.PI then do
        let s ← slice (pre1 ++ e) (pre1.length : Nat) (pre1 ++ e).length
        wrapD "ud" pre1.length (t1.decodeUserData s)
      else .ok t1) = (.ok { t1 with UDH := if PI.UDL t.PI then t.UDH else [], UD := if PI.UDL t.PI then t.UD else [] } : M TPDU) := by
    intro t1 pre1 g1 g2 g3 g4 g5
    unfold optUserData
    by_cases hu : PI.UDL t.PI = true
    · have hd : t1.DCS = t.DCS := by
        rw [g5]; by_cases hh : PI.DCS t.PI = true
        · rw [if_pos hh]
        · rw [if_neg hh]; exact (hdcs hu (by simpa using hh)).symm
      have hu1 : PI.UDL t1.PI = true := by rw [g2]; exact hu
      obtain ⟨e, he, he', _⟩ := ud_roundtrip t t1 (hud hu) hd g1 g3 g4
      refine ⟨e, by rw [if_pos hu, he]; rfl, ?_⟩
      rw [if_pos hu1, slice_from pre1 e _ rfl]
      simp only [ok_bind, he', wrapD_ok, hu, if_true]
    · have hu1 : ¬ PI.UDL t1.PI = true := by rw [g2]; exact hu
      refine ⟨[], by rw [if_neg hu], ?_⟩
      rw [if_neg hu1]
      simp only [if_neg hu]
      cases t1
      simp only at g3 g4
      subst g3 g4
      rfl
  unfold piOctets unmarshalOptionals
  by_cases hp : PI.PID t.PI = true
  · have hp0 : PI.PID t0.PI = true := by rw [hpi]; exact hp
    simp only [if_pos hp, if_pos hp0]
    by_cases hd : PI.DCS t.PI = true
    · have hd0 : PI.DCS t0.PI = true := by rw [hpi]; exact hd
      simp only [if_pos hd]
      obtain ⟨e, he, he'⟩ := key { t0 with PID := t.PID, DCS := t.DCS } (pre ++ [t.PID, t.DCS]) hf hpi h1 h2
        (by simp [hd])
      refine ⟨e, he, ?_⟩
      have e1 : pre ++ ([t.PID] ++ [t.DCS] ++ e) = pre ++ t.PID :: (t.DCS :: e) := by simp
      have e2 : pre ++ ([t.PID] ++ [t.DCS] ++ e) = (pre ++ [t.PID]) ++ t.DCS :: e := by simp
      have e3 : pre ++ ([t.PID] ++ [t.DCS] ++ e) = (pre ++ [t.PID, t.DCS]) ++ e := by simp
      have r1 : readAt "pid" (pre ++ ([t.PID] ++ [t.DCS] ++ e)) pre.length = .ok t.PID := by
        rw [e1]; exact readAt_mid _ _ _ _ _ rfl
      have r2 : readAt "dcs" (pre ++ ([t.PID] ++ [t.DCS] ++ e)) (pre.length + 1) = .ok t.DCS := by
        rw [e2]; exact readAt_mid _ _ _ _ _ (by simp)
      rw [r1]
      simp only [ok_bind, pure_ok, if_pos hd0]
      rw [r2]
      simp only [ok_bind]
      rw [e3]
      have l : (pre ++ [t.PID, t.DCS]).length = pre.length + 1 + 1 := by simp
      rw [l] at he'
      exact he'
    · have hd0 : ¬ PI.DCS t0.PI = true := by rw [hpi]; exact hd
      simp only [if_neg hd]
      obtain ⟨e, he, he'⟩ := key { t0 with PID := t.PID } (pre ++ [t.PID]) hf hpi h1 h2 (by simp [hd, h4])
      refine ⟨e, he, ?_⟩
      have e1 : pre ++ ([t.PID] ++ [] ++ e) = pre ++ t.PID :: e := by simp
      have e3 : pre ++ ([t.PID] ++ [] ++ e) = (pre ++ [t.PID]) ++ e := by simp
      have r1 : readAt "pid" (pre ++ ([t.PID] ++ [] ++ e)) pre.length = .ok t.PID := by
        rw [e1]; exact readAt_mid _ _ _ _ _ rfl
      rw [r1]
      simp only [ok_bind, pure_ok, if_neg hd0]
      rw [e3]
      have l : (pre ++ [t.PID]).length = pre.length + 1 := by simp
      rw [l] at he'
      refine he'.trans ?_
      cases t0; simp only at h4; subst h4; rfl
  · have hp0 : ¬ PI.PID t0.PI = true := by rw [hpi]; exact hp
    simp only [if_neg hp, if_neg hp0]
    by_cases hd : PI.DCS t.PI = true
    · have hd0 : PI.DCS t0.PI = true := by rw [hpi]; exact hd
      simp only [if_pos hd]
      obtain ⟨e, he, he'⟩ := key { t0 with DCS := t.DCS } (pre ++ [t.DCS]) hf hpi h1 h2 (by simp [hd])
      refine ⟨e, he, ?_⟩
      have e1 : pre ++ ([] ++ [t.DCS] ++ e) = pre ++ t.DCS :: e := by simp
      have e3 : pre ++ ([] ++ [t.DCS] ++ e) = (pre ++ [t.DCS]) ++ e := by simp
      have r1 : readAt "dcs" (pre ++ ([] ++ [t.DCS] ++ e)) pre.length = .ok t.DCS := by
        rw [e1]; exact readAt_mid _ _ _ _ _ rfl
      simp only [ok_bind, if_pos hd0]
      rw [r1]
      simp only [ok_bind, pure_ok]
      rw [e3]
      have l : (pre ++ [t.DCS]).length = pre.length + 1 := by simp
      rw [l] at he'
      refine he'.trans ?_
      cases t0; simp only at h3; subst h3; rfl
    · have hd0 : ¬ PI.DCS t0.PI = true := by rw [hpi]; exact hd
      simp only [if_neg hd]
      obtain ⟨e, he, he'⟩ := key t0 pre hf hpi h1 h2 (by simp [hd, h4])
      refine ⟨e, he, ?_⟩
      simp only [ok_bind, if_neg hd0, List.nil_append]
      refine he'.trans ?_
      cases t0; simp only at h3 h4; subst h3 h4; rfl

theorem slice_mid (pre mid post : Bytes) (a b : Nat) (ha : a = pre.length) (hb : b = pre.length + mid.length) :
    slice (pre ++ (mid ++ post)) (a : Int) (b : Int) = .ok mid := by
  rw [← List.append_assoc]
  exact slice_at pre mid post a b (by rw [ha]) (by rw [hb])

theorem status_rt (t : TPDU) (hdir : t.Direction = MT) (hmti : FirstOctet.MTI t.FirstOctet = 2) (hra : AddrOk t.RA)
    (hts : TimeOk t.SCTS) (hdt : TimeOk t.DT) (hopt : OptOk t) :
    ∃ p, t.MarshalBinary = .ok p ∧ ({ Direction := MT } : TPDU).UnmarshalBinary p = .ok
      { Direction := MT, FirstOctet := t.FirstOctet, MR := t.MR, RA := t.RA, SCTS := t.SCTS, DT := t.DT, ST := t.ST,
        PI := t.PI, PID := if PI.PID t.PI then t.PID else 0, DCS := if PI.DCS t.PI then t.DCS else 0,
        UDH := if PI.UDL t.PI then t.UDH else [], UD := if PI.UDL t.PI then t.UD else [] } := by
  obtain ⟨ra, ha, ha'⟩ := addr_rt _ hra
  obtain ⟨ts, hv, hl, hv'⟩ := time_rt _ hts
  obtain ⟨dt, hw, hl', hw'⟩ := time_rt _ hdt
  have hst : t.SmsType = SmsStatusReport := by rw [smsType_of t _ _ hmti hdir]; decide
  have hst' : ({ Direction := MT, FirstOctet := t.FirstOctet } : TPDU).SmsType = SmsStatusReport :=
    (smsType_of { Direction := MT, FirstOctet := t.FirstOctet } 2 MT hmti rfl).trans (by decide)
  -- common part of parsing
  have parse : ∀ tail : Bytes,
      unmarshalStatusReport { Direction := MT, FirstOctet := t.FirstOctet } (t.MR :: (ra ++ (ts ++ (dt ++ t.ST :: tail)))) =
      (let t1 : TPDU := { Direction := MT, FirstOctet := t.FirstOctet, MR := t.MR, RA := t.RA, SCTS := t.SCTS,
                          DT := t.DT, ST := t.ST }
       match tail with
       | [] => .ok t1
       | pi :: tail' => unmarshalOptionals { t1 with PI := pi }
          ((t.MR :: (ra ++ (ts ++ (dt ++ [t.ST, pi])))) ++ tail') (t.MR :: (ra ++ (ts ++ (dt ++ [t.ST, pi])))).length) := by
    intro tail
    have hlen : (t.MR :: (ra ++ (ts ++ (dt ++ t.ST :: tail)))).length = 1 + ra.length + 7 + 7 + 1 + tail.length := by
      simp [hl, hl']; omega
    unfold unmarshalStatusReport
    rw [show readAt "mr" (t.MR :: (ra ++ (ts ++ (dt ++ t.ST :: tail)))) 0 = .ok t.MR from readAt_mid "mr" [] _ t.MR 0 rfl]
    simp only [ok_bind]
    have s1 : slice (t.MR :: (ra ++ (ts ++ (dt ++ t.ST :: tail)))) ((1 : Nat) : Int)
        (t.MR :: (ra ++ (ts ++ (dt ++ t.ST :: tail)))).length = .ok (ra ++ (ts ++ (dt ++ t.ST :: tail))) :=
      slice_from [t.MR] _ 1 rfl
    rw [s1]
    simp only [ok_bind, ha', wrapD_ok]
    rw [if_neg (by rw [hlen]; omega)]
    have s2 : slice (t.MR :: (ra ++ (ts ++ (dt ++ t.ST :: tail)))) ((1 + ra.length : Nat) : Int) ((1 + ra.length + 7 : Nat) : Int) = .ok ts :=
      slice_mid (t.MR :: ra) ts _ _ _ (by simp [Nat.add_comm]) (by simp [hl]; omega)
    rw [s2]
    have v := hv' []
    rw [List.append_nil] at v
    simp only [ok_bind, v, wrapD_ok]
    rw [if_neg (by rw [hlen]; omega)]
    have s3 : slice (t.MR :: (ra ++ (ts ++ (dt ++ t.ST :: tail)))) ((1 + ra.length + 7 : Nat) : Int) ((1 + ra.length + 7 + 7 : Nat) : Int) = .ok dt := by
      have := slice_mid (t.MR :: (ra ++ ts)) dt (t.ST :: tail) (1 + ra.length + 7) (1 + ra.length + 7 + 7) (by simp [hl]; omega) (by simp [hl, hl']; omega)
      simpa using this
    rw [s3]
    have w := hw' []
    rw [List.append_nil] at w
    simp only [ok_bind, w, wrapD_ok]
    have r1 : readAt "st" (t.MR :: (ra ++ (ts ++ (dt ++ t.ST :: tail)))) (1 + ra.length + 7 + 7) = .ok t.ST := by
      have := readAt_mid "st" (t.MR :: (ra ++ (ts ++ dt))) tail t.ST (1 + ra.length + 7 + 7) (by simp [hl, hl']; omega)
      simpa using this
    rw [r1]
    simp only [ok_bind]
    cases tail with
    | nil => rw [if_neg (by rw [hlen]; simp)]
    | cons pi tail' =>
      rw [if_pos (by rw [hlen]; simp)]
      have e : t.MR :: (ra ++ (ts ++ (dt ++ t.ST :: pi :: tail'))) = (t.MR :: (ra ++ (ts ++ (dt ++ [t.ST])))) ++ pi :: tail' := by simp
      have i1 : idx (t.MR :: (ra ++ (ts ++ (dt ++ t.ST :: pi :: tail')))) ((1 + ra.length + 7 + 7 + 1 : Nat) : Int) = .ok pi := by
        rw [e]; exact idx_at _ _ _ _ (by simp [hl, hl']; omega)
      rw [i1]
      simp only [ok_bind]
      have e2 : (t.MR :: (ra ++ (ts ++ (dt ++ [t.ST, pi])))).length = 1 + ra.length + 7 + 7 + 1 + 1 := by
        simp [hl, hl']; omega
      rw [e2]
      simp
  have top : ∀ body, ({ Direction := MT } : TPDU).UnmarshalBinary (t.FirstOctet :: body) =
      wrapD "SmsStatusReport" 1 (unmarshalStatusReport { Direction := MT, FirstOctet := t.FirstOctet } body) := by
    intro body
    exact unmarshal_StatusReport _ _ hst' body
  by_cases h0 : t.PI = 0
  · have hud : t.optUserData = .ok [] := by
      unfold optUserData; rw [h0, if_neg (by decide)]
    have hm : t.marshalStatusReport = .ok (t.FirstOctet :: t.MR :: (ra ++ (ts ++ (dt ++ t.ST :: [])))) := by
      unfold marshalStatusReport
      simp only [ha, hv, hw, wrapE_ok, ok_bind, pure_ok, hud]
      rw [if_pos h0]; simp
    refine ⟨_, marshal_StatusReport t hst _ hm, ?_⟩
    · rw [top, wrapD_eq_ok, parse []]
      simp only [h0]
      rfl
  · obtain ⟨e, he, he'⟩ := opt_rt t { Direction := MT, FirstOctet := t.FirstOctet, MR := t.MR, RA := t.RA, SCTS := t.SCTS, DT := t.DT, ST := t.ST, PI := t.PI }
      (t.MR :: (ra ++ (ts ++ (dt ++ [t.ST, t.PI])))) hopt rfl rfl rfl rfl rfl rfl
    have hm : t.marshalStatusReport = .ok (t.FirstOctet :: t.MR :: (ra ++ (ts ++ (dt ++ t.ST :: (t.PI :: (t.piOctets ++ e)))))) := by
      unfold marshalStatusReport
      simp only [ha, hv, hw, wrapE_ok, ok_bind, pure_ok, he]
      rw [if_neg h0]; simp
    refine ⟨_, marshal_StatusReport t hst _ hm, ?_⟩
    · rw [top, wrapD_eq_ok, parse]
      exact he'

theorem command_rt (t : TPDU) (hdir : t.Direction = MO) (hmti : FirstOctet.MTI t.FirstOctet = 2) (hda : AddrOk t.DA)
    (hudhi : t.UDHI = false ∨ t.UD = []) (hud : t.UD.length ≤ 255) :
    ∃ p, t.MarshalBinary = .ok p ∧ ({ Direction := MO } : TPDU).UnmarshalBinary p = .ok
      { Direction := MO, FirstOctet := t.FirstOctet, MR := t.MR, PID := t.PID, CT := t.CT, MN := t.MN, DA := t.DA,
        DCS := DCS.Dcs8BitData, UD := t.UD } := by
  obtain ⟨da, ha, ha'⟩ := addr_rt _ hda
  have hst : t.SmsType = SmsCommand := by rw [smsType_of t _ _ hmti hdir]; decide
  have hst' : ({ Direction := MO, FirstOctet := t.FirstOctet } : TPDU).SmsType = SmsCommand :=
    (smsType_of { Direction := MO, FirstOctet := t.FirstOctet } 2 MO hmti rfl).trans (by decide)
  have hal : ({ DCS := DCS.Dcs8BitData } : TPDU).Alphabet = (.a8Bit, none) := by decide
  obtain ⟨e, he, he', _⟩ := ud_roundtrip { FirstOctet := t.FirstOctet, DCS := DCS.Dcs8BitData, UD := t.UD }
    { Direction := MO, FirstOctet := t.FirstOctet, MR := t.MR, PID := t.PID, CT := t.CT, MN := t.MN, DA := t.DA,
      DCS := DCS.Dcs8BitData }
    ⟨congrArg Prod.snd hal, by
        have : ({ FirstOctet := t.FirstOctet, DCS := DCS.Dcs8BitData, UD := t.UD } : TPDU).UDHI = t.UDHI := rfl
        refine ⟨fun h => absurd rfl h, fun h => .inr (hudhi.resolve_left fun hf => ?_)⟩
        rw [this, hf] at h; exact (Bool.false_ne_true h).elim,
      (fun h => by
        have h := (congrArg Prod.fst hal).symm.trans h
        cases h),
      (fun h => by
        have h := (congrArg Prod.fst hal).symm.trans h
        cases h),
      by
        have h8 : ({ FirstOctet := t.FirstOctet, DCS := DCS.Dcs8BitData, UD := t.UD } : TPDU).Alphabet.1 = .a8Bit := congrArg Prod.fst hal
        unfold udLen; rw [h8, if_neg (by decide)]; simpa [hdrLen] using hud⟩ rfl rfl rfl rfl
  have hee : e = byteOf t.UD.length :: t.UD := by
    unfold encodeUserData at he
    have h8 : ({ FirstOctet := t.FirstOctet, DCS := DCS.Dcs8BitData, UD := t.UD } : TPDU).Alphabet = (.a8Bit, none) := hal
    rw [h8] at he
    simp only at he
    rw [if_neg (by simp), if_neg (by simp)] at he
    simp only [UDH.MarshalBinary, List.length_nil, if_true] at he
    cases he; rfl
  have hm : t.marshalCommand = .ok (t.FirstOctet :: t.MR :: t.PID :: t.CT :: t.MN :: (da ++ e)) := by
    unfold marshalCommand
    simp only [ha, wrapE_ok, ok_bind, pure_ok, hee]
    simp
  refine ⟨_, marshal_Command t hst _ hm, ?_⟩
  · rw [unmarshal_Command _ _ hst', wrapD_eq_ok]
    unfold unmarshalCommand
    simp only [readByte, wrapD_ok, ok_bind, ha', List.drop_left, he']

theorem deliverReport_rt (t : TPDU) (hdir : t.Direction = MO) (hmti : FirstOctet.MTI t.FirstOctet = 0) (hfcs : t.FCS ≠ 0)
    (hopt : OptOk t) :
    ∃ p, t.MarshalBinary = .ok p ∧ ({ Direction := MO } : TPDU).UnmarshalBinary p = .ok
      { Direction := MO, FirstOctet := t.FirstOctet, FCS := t.FCS,
        PI := t.PI, PID := if PI.PID t.PI then t.PID else 0, DCS := if PI.DCS t.PI then t.DCS else 0,
        UDH := if PI.UDL t.PI then t.UDH else [], UD := if PI.UDL t.PI then t.UD else [] } := by
  have hst : t.SmsType = SmsDeliverReport := by rw [smsType_of t _ _ hmti hdir]; decide
  have hst' : ({ Direction := MO, FirstOctet := t.FirstOctet } : TPDU).SmsType = SmsDeliverReport :=
    (smsType_of { Direction := MO, FirstOctet := t.FirstOctet } 0 MO hmti rfl).trans (by decide)
  obtain ⟨e, he, he'⟩ := opt_rt t { Direction := MO, FirstOctet := t.FirstOctet, FCS := t.FCS, PI := t.PI }
      [t.FCS, t.PI] hopt rfl rfl rfl rfl rfl rfl
  have hm : t.marshalDeliverReport = .ok (t.FirstOctet :: t.FCS :: t.PI :: (t.piOctets ++ e)) := by
    unfold marshalDeliverReport
    simp only [he, ok_bind, pure_ok, if_pos hfcs]
    simp
  refine ⟨_, marshal_DeliverReport t hst _ hm, ?_⟩
  · rw [unmarshal_DeliverReport _ _ hst', wrapD_eq_ok]
    unfold unmarshalDeliverReport
    rw [readAt_head]
    simp only [ok_bind]
    have r : readAt "pi" (t.FCS :: t.PI :: (t.piOctets ++ e)) 1 = .ok t.PI := readAt_mid "pi" [t.FCS] _ t.PI 1 rfl
    rw [r]
    exact he'

theorem submitReport_rt (t : TPDU) (hdir : t.Direction = MT) (hmti : FirstOctet.MTI t.FirstOctet = 1) (hfcs : t.FCS ≠ 0)
    (hts : TimeOk t.SCTS) (hopt : OptOk t) :
    ∃ p, t.MarshalBinary = .ok p ∧ ({ Direction := MT } : TPDU).UnmarshalBinary p = .ok
      { Direction := MT, FirstOctet := t.FirstOctet, FCS := t.FCS, SCTS := t.SCTS,
        PI := t.PI, PID := if PI.PID t.PI then t.PID else 0, DCS := if PI.DCS t.PI then t.DCS else 0,
        UDH := if PI.UDL t.PI then t.UDH else [], UD := if PI.UDL t.PI then t.UD else [] } := by
  have hst : t.SmsType = SmsSubmitReport := by rw [smsType_of t _ _ hmti hdir]; decide
  have hst' : ({ Direction := MT, FirstOctet := t.FirstOctet } : TPDU).SmsType = SmsSubmitReport :=
    (smsType_of { Direction := MT, FirstOctet := t.FirstOctet } 1 MT hmti rfl).trans (by decide)
  obtain ⟨ts, hv, hl, hv'⟩ := time_rt _ hts
  obtain ⟨e, he, he'⟩ := opt_rt t { Direction := MT, FirstOctet := t.FirstOctet, FCS := t.FCS, PI := t.PI, SCTS := t.SCTS }
      (t.FCS :: t.PI :: ts) hopt rfl rfl rfl rfl rfl rfl
  have hm : t.marshalSubmitReport = .ok (t.FirstOctet :: t.FCS :: t.PI :: (ts ++ (t.piOctets ++ e))) := by
    unfold marshalSubmitReport
    simp only [he, hv, wrapE_ok, ok_bind, pure_ok, if_pos hfcs]
    simp
  refine ⟨_, marshal_SubmitReport t hst _ hm, ?_⟩
  · rw [unmarshal_SubmitReport _ _ hst', wrapD_eq_ok]
    unfold unmarshalSubmitReport
    rw [readAt_head]
    simp only [ok_bind]
    have r : readAt "pi" (t.FCS :: t.PI :: (ts ++ (t.piOctets ++ e))) 1 = .ok t.PI := readAt_mid "pi" [t.FCS] _ t.PI 1 rfl
    rw [r]
    simp only [ok_bind]
    rw [if_neg (by simp [hl])]
    have s : slice (t.FCS :: t.PI :: (ts ++ (t.piOctets ++ e))) ((2 : Nat) : Int) ((2 + 7 : Nat) : Int) = .ok ts :=
      slice_mid [t.FCS, t.PI] ts _ 2 (2 + 7) rfl (by simp [hl])
    rw [s]
    have v := hv' []
    rw [List.append_nil] at v
    simp only [ok_bind, v, wrapD_ok]
    have l : (t.FCS :: t.PI :: ts).length = 2 + 7 := by simp [hl]
    rw [l] at he'
    exact he'

end Verif.Proofs
