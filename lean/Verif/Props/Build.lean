import Verif.Spec.Build
import Verif.Spec.WellFormed
import Verif.Proofs.Tpdu
import Verif.Props.Tpdu

/-! C76: TPDUs built with options and setters. -/

namespace Verif.Props
open Verif.Model Verif.Proofs Verif.Spec Verif.Spec.Build

/-! Helpers. -/

theorem last_snoc {α : Type} (f : Op → Option α) (ops : List Op) (o : Op) : last f (ops ++ [o]) = (f o).or (last f ops) := by
  unfold last
  rw [List.filterMap_append]
  cases h : f o <;> simp [h]

/-- All of the first octet and PI that the setters deal with, for one octet. -/
theorem fo_bits (f m : UInt8) (hm : m < 4) :
    FirstOctet.UDHI (FirstOctet.WithMTI f m) = FirstOctet.UDHI f ∧ FirstOctet.VPF (FirstOctet.WithMTI f m) = FirstOctet.VPF f ∧
    FirstOctet.MTI (FirstOctet.WithMTI f m) = m ∧ (FirstOctet.WithMTI f m) &&& 0xa4 = f &&& 0xa4 := by
  have hm' : m = 0 ∨ m = 1 ∨ m = 2 ∨ m = 3 := by
    have : m.toNat < 4 := UInt8.lt_iff_toNat_lt.mp hm
    have h : m = UInt8.ofNat m.toNat := by simp
    have : m.toNat = 0 ∨ m.toNat = 1 ∨ m.toNat = 2 ∨ m.toNat = 3 := by omega
    rcases this with e | e | e | e <;> rw [e] at h <;> simp [h]
  rcases hm' with rfl | rfl | rfl | rfl <;> (revert f; apply forall_u8; decide +kernel)

theorem fo_udhi (f : UInt8) :
    (FirstOctet.UDHI (f ||| FirstOctet.FoUDHI) = true ∧ FirstOctet.VPF (f ||| FirstOctet.FoUDHI) = FirstOctet.VPF f ∧
      FirstOctet.MTI (f ||| FirstOctet.FoUDHI) = FirstOctet.MTI f ∧ (f ||| FirstOctet.FoUDHI) &&& 0xa4 = f &&& 0xa4) ∧
    (FirstOctet.UDHI (andNot f FirstOctet.FoUDHI) = false ∧ FirstOctet.VPF (andNot f FirstOctet.FoUDHI) = FirstOctet.VPF f ∧
      FirstOctet.MTI (andNot f FirstOctet.FoUDHI) = FirstOctet.MTI f ∧ (andNot f FirstOctet.FoUDHI) &&& 0xa4 = f &&& 0xa4) := by
  revert f; apply forall_u8; decide +kernel

theorem fo_vpf (f v : UInt8) (hv : v < 4) :
    let g := (andNot f FirstOctet.FoVPFMask) ||| ((v <<< 3) &&& FirstOctet.FoVPFMask)
    FirstOctet.UDHI g = FirstOctet.UDHI f ∧ FirstOctet.VPF g = v ∧ FirstOctet.MTI g = FirstOctet.MTI f ∧ g &&& 0xa4 = f &&& 0xa4 := by
  have hm' : v = 0 ∨ v = 1 ∨ v = 2 ∨ v = 3 := by
    have : v.toNat < 4 := UInt8.lt_iff_toNat_lt.mp hv
    have h : v = UInt8.ofNat v.toNat := by simp
    have : v.toNat = 0 ∨ v.toNat = 1 ∨ v.toNat = 2 ∨ v.toNat = 3 := by omega
    rcases this with e | e | e | e <;> rw [e] at h <;> simp [h]
  rcases hm' with rfl | rfl | rfl | rfl <;> (revert f; apply forall_u8; decide +kernel)

theorem pi_bits (p : UInt8) :
    (PI.DCS (p ||| PI.PiDCS) = true ∧ PI.PID (p ||| PI.PiDCS) = PI.PID p ∧ PI.UDL (p ||| PI.PiDCS) = PI.UDL p ∧ (p < 8 → p ||| PI.PiDCS < 8)) ∧
    (PI.DCS (p ||| PI.PiPID) = PI.DCS p ∧ PI.PID (p ||| PI.PiPID) = true ∧ PI.UDL (p ||| PI.PiPID) = PI.UDL p ∧ (p < 8 → p ||| PI.PiPID < 8)) ∧
    (PI.DCS (p ||| PI.PiUDL) = PI.DCS p ∧ PI.PID (p ||| PI.PiUDL) = PI.PID p ∧ PI.UDL (p ||| PI.PiUDL) = true ∧ (p < 8 → p ||| PI.PiUDL < 8)) ∧
    (PI.DCS (andNot p PI.PiUDL) = PI.DCS p ∧ PI.PID (andNot p PI.PiUDL) = PI.PID p ∧ PI.UDL (andNot p PI.PiUDL) = false ∧
      (p < 8 → andNot p PI.PiUDL < 8)) := by
  revert p; apply forall_u8; decide +kernel

theorem smsType_step {ops : List Op} {t t' : TPDU} (st : Int) (o : Op) (h : Has ops t)
    (hf : header o = none ∧ headerFlag o = none ∧ userData o = none ∧ dataFlag o = none ∧ dcs o = none ∧ pid o = none ∧ vp o = none ∧
      mti o = some (st / 2).toNat ∧ direction o = some (st % 2)) (hr : t.SetSmsType st = .ok t') : Has (ops ++ [o]) t' := by
  obtain ⟨f1, f2, f3, f4, f5, f6, f7, f8, f9⟩ := hf
  unfold TPDU.SetSmsType at hr
  split at hr
  · cases hr
  · next hst =>
    cases hr
    have hb : byteOf (st / 2) < 4 := by
      rw [UInt8.lt_iff_toNat_lt, toNat_byteOf]; show _ < 4; omega
    have hbn : (byteOf (st / 2)).toNat = (st / 2).toNat := by rw [toNat_byteOf]; omega
    obtain ⟨b1, b2, b3, b4⟩ := fo_bits t.FirstOctet (byteOf (st / 2)) hb
    obtain ⟨h1, h2, h3, h4, h5, h6, h7, h8, h9, h10, h11, h12, h13⟩ := h
    refine ⟨?_, ?_, ?_, ?_, ?_, ?_, ?_, ?_, ?_, ?_, ?_, ?_, ?_⟩ <;> (try rw [last_snoc]) <;> (try simp only [f1, f2, f3, f4, f5, f6, f7, f8, f9, Option.none_or, Option.some_or])
    all_goals first
      | assumption
      | exact b1.trans h2
      | exact b2.trans h10
      | (show (FirstOctet.MTI (FirstOctet.WithMTI t.FirstOctet (byteOf (st / 2)))).toNat = _; rw [b3, hbn]; rfl)
      | exact ⟨h13.1, b4.trans h13.2⟩
      | rfl

theorem step_has {ops : List Op} {t t' : TPDU} (o : Op) (hm : MtiOk o) (hv : VpfOk o) (h : Has ops t) (hr : o.run t = .ok t') :
    Has (ops ++ [o]) t' := by
  cases o with
  | option o =>
    cases o with
    | smsType st => exact smsType_step st _ h ⟨rfl, rfl, rfl, rfl, rfl, rfl, rfl, rfl, rfl⟩ hr
    | messageType m =>
      cases hr
      obtain ⟨b1, b2, b3, b4⟩ := fo_bits t.FirstOctet m hm
      obtain ⟨h1, h2, h3, h4, h5, h6, h7, h8, h9, h10, h11, h12, h13⟩ := h
      refine ⟨?_, ?_, ?_, ?_, ?_, ?_, ?_, ?_, ?_, ?_, ?_, ?_, ?_⟩ <;> (try rw [last_snoc])
      all_goals first
        | assumption
        | exact b1.trans h2
        | exact b2.trans h10
        | (show (FirstOctet.MTI (FirstOctet.WithMTI t.FirstOctet m)).toNat = _; rw [b3]; rfl)
        | exact ⟨h13.1, b4.trans h13.2⟩
    | direction d =>
      cases hr
      obtain ⟨h1, h2, h3, h4, h5, h6, h7, h8, h9, h10, h11, h12, h13⟩ := h
      refine ⟨?_, ?_, ?_, ?_, ?_, ?_, ?_, ?_, ?_, ?_, ?_, ?_, ?_⟩ <;> (try rw [last_snoc])
      all_goals first | assumption | rfl
    | dcs d =>
      cases hr
      obtain ⟨b1, b2, b3, b4⟩ := (pi_bits t.PI).1
      obtain ⟨h1, h2, h3, h4, h5, h6, h7, h8, h9, h10, h11, h12, h13⟩ := h
      refine ⟨?_, ?_, ?_, ?_, ?_, ?_, ?_, ?_, ?_, ?_, ?_, ?_, ?_⟩ <;> (try rw [last_snoc])
      all_goals first | assumption | rfl | exact b1 | exact b2.trans h8 | exact b3.trans h4 | exact ⟨b4 h13.1, h13.2⟩
    | da a =>
      cases hr
      obtain ⟨h1, h2, h3, h4, h5, h6, h7, h8, h9, h10, h11, h12, h13⟩ := h
      refine ⟨?_, ?_, ?_, ?_, ?_, ?_, ?_, ?_, ?_, ?_, ?_, ?_, ?_⟩ <;> (try rw [last_snoc])
      all_goals first | assumption | rfl
    | oa a =>
      cases hr
      obtain ⟨h1, h2, h3, h4, h5, h6, h7, h8, h9, h10, h11, h12, h13⟩ := h
      refine ⟨?_, ?_, ?_, ?_, ?_, ?_, ?_, ?_, ?_, ?_, ?_, ?_, ?_⟩ <;> (try rw [last_snoc])
      all_goals first | assumption | rfl
    | udh u =>
      cases hr
      obtain ⟨h1, h2, h3, h4, h5, h6, h7, h8, h9, h10, h11, h12, h13⟩ := h
      refine ⟨?_, ?_, ?_, ?_, ?_, ?_, ?_, ?_, ?_, ?_, ?_, ?_, ?_⟩ <;> (try rw [last_snoc])
      all_goals first | assumption | rfl
  | setDCS d =>
    cases hr
    obtain ⟨b1, b2, b3, b4⟩ := (pi_bits t.PI).1
    obtain ⟨h1, h2, h3, h4, h5, h6, h7, h8, h9, h10, h11, h12, h13⟩ := h
    refine ⟨?_, ?_, ?_, ?_, ?_, ?_, ?_, ?_, ?_, ?_, ?_, ?_, ?_⟩ <;> (try rw [last_snoc])
    all_goals first | assumption | rfl | exact b1 | exact b2.trans h8 | exact b3.trans h4 | exact ⟨b4 h13.1, h13.2⟩
  | setPID p =>
    cases hr
    obtain ⟨b1, b2, b3, b4⟩ := (pi_bits t.PI).2.1
    obtain ⟨h1, h2, h3, h4, h5, h6, h7, h8, h9, h10, h11, h12, h13⟩ := h
    refine ⟨?_, ?_, ?_, ?_, ?_, ?_, ?_, ?_, ?_, ?_, ?_, ?_, ?_⟩ <;> (try rw [last_snoc])
    all_goals first | assumption | rfl | exact b1.trans h6 | exact b2 | exact b3.trans h4 | exact ⟨b4 h13.1, h13.2⟩
  | setVP v =>
    cases hr
    obtain ⟨b1, b2, b3, b4⟩ := fo_vpf t.FirstOctet v.Format hv
    obtain ⟨h1, h2, h3, h4, h5, h6, h7, h8, h9, h10, h11, h12, h13⟩ := h
    refine ⟨?_, ?_, ?_, ?_, ?_, ?_, ?_, ?_, ?_, ?_, ?_, ?_, ?_⟩ <;> (try rw [last_snoc])
    all_goals first
      | assumption
      | rfl
      | exact b1.trans h2
      | exact b2
      | exact (congrArg UInt8.toNat b3).trans h11
      | exact ⟨h13.1, b4.trans h13.2⟩
  | setUD u =>
    obtain ⟨h1, h2, h3, h4, h5, h6, h7, h8, h9, h10, h11, h12, h13⟩ := h
    cases u with
    | none =>
      cases hr
      obtain ⟨b1, b2, b3, b4⟩ := (pi_bits t.PI).2.2.2
      refine ⟨?_, ?_, ?_, ?_, ?_, ?_, ?_, ?_, ?_, ?_, ?_, ?_, ?_⟩ <;> (try rw [last_snoc])
      all_goals first | assumption | rfl | exact b1.trans h6 | exact b2.trans h8 | exact b3 | exact ⟨b4 h13.1, h13.2⟩
    | some u =>
      cases hr
      obtain ⟨b1, b2, b3, b4⟩ := (pi_bits t.PI).2.2.1
      refine ⟨?_, ?_, ?_, ?_, ?_, ?_, ?_, ?_, ?_, ?_, ?_, ?_, ?_⟩ <;> (try rw [last_snoc])
      all_goals first | assumption | rfl | exact b1.trans h6 | exact b2.trans h8 | exact b3 | exact ⟨b4 h13.1, h13.2⟩
  | setUDH u =>
    obtain ⟨h1, h2, h3, h4, h5, h6, h7, h8, h9, h10, h11, h12, h13⟩ := h
    cases u with
    | none =>
      cases hr
      obtain ⟨c1, c2, c3, c4⟩ := (fo_udhi t.FirstOctet).2
      refine ⟨?_, ?_, ?_, ?_, ?_, ?_, ?_, ?_, ?_, ?_, ?_, ?_, ?_⟩ <;> (try rw [last_snoc])
      all_goals first
        | assumption
        | rfl
        | exact c1
        | exact c2.trans h10
        | exact (congrArg UInt8.toNat c3).trans h11
        | exact ⟨h13.1, c4.trans h13.2⟩
    | some u =>
      cases hr
      obtain ⟨b1, b2, b3, b4⟩ := (pi_bits t.PI).2.2.1
      obtain ⟨c1, c2, c3, c4⟩ := (fo_udhi t.FirstOctet).1
      refine ⟨?_, ?_, ?_, ?_, ?_, ?_, ?_, ?_, ?_, ?_, ?_, ?_, ?_⟩ <;> (try rw [last_snoc])
      all_goals first
        | assumption
        | rfl
        | exact b1.trans h6
        | exact b2.trans h8
        | exact b3
        | exact c1
        | exact c2.trans h10
        | exact (congrArg UInt8.toNat c3).trans h11
        | exact ⟨b4 h13.1, c4.trans h13.2⟩
  | setSmsType st => exact smsType_step st _ h ⟨rfl, rfl, rfl, rfl, rfl, rfl, rfl, rfl, rfl⟩ hr
  | fields u =>
    cases hr
    obtain ⟨h1, h2, h3, h4, h5, h6, h7, h8, h9, h10, h11, h12, h13⟩ := h
    refine ⟨?_, ?_, ?_, ?_, ?_, ?_, ?_, ?_, ?_, ?_, ?_, ?_, ?_⟩ <;> (try rw [last_snoc])
    all_goals first | assumption | rfl

theorem foldlM_options (options : List TpduOption) (t : TPDU) :
    (options.map Op.option).foldlM Op.run t = options.foldlM TpduOption.apply t := by
  induction options generalizing t with
  | nil => rfl
  | cons o os ih =>
    simp only [List.map_cons, List.foldlM_cons]
    show ((o.apply t) >>= _) = _
    congr 1
    funext t'
    exact ih t'

theorem build_eq (options : List TpduOption) (ops : List Op) :
    build options ops = (all options ops).foldlM Op.run { OA := Address.New, DA := Address.New, RA := Address.New } := by
  unfold build all TPDU.New
  rw [List.foldlM_append, foldlM_options]

theorem foldlM_has (done ops : List Op) (t t' : TPDU) (hm : ∀ o ∈ ops, MtiOk o) (hv : ∀ o ∈ ops, VpfOk o) (h : Has done t)
    (hr : ops.foldlM Op.run t = .ok t') : Has (done ++ ops) t' := by
  induction ops generalizing done t with
  | nil => cases hr; simpa using h
  | cons o os ih =>
    rw [List.foldlM_cons] at hr
    obtain ⟨u, hu, hr⟩ := bind_eq_ok.1 hr
    have := ih (done ++ [o]) u (fun x hx => hm x (by simp [hx])) (fun x hx => hv x (by simp [hx]))
      (step_has o (hm o (by simp)) (hv o (by simp)) h hu) hr
    simpa using this

theorem new_has : Has [] { OA := Address.New, DA := Address.New, RA := Address.New } :=
  ⟨rfl, rfl, rfl, rfl, rfl, rfl, rfl, rfl, rfl, rfl, rfl, rfl, by decide⟩

theorem run_fails (o : Op) (t : TPDU) :
    (∃ t', o.run t = .ok t' ∧ ∀ st, types o = some st → 0 ≤ st ∧ st ≤ 5) ∨
    (∃ e st, o.run t = .error (.err e) ∧ types o = some st ∧ ¬ (0 ≤ st ∧ st ≤ 5)) := by
  have key : ∀ st : Int, (∃ t', t.SetSmsType st = .ok t' ∧ 0 ≤ st ∧ st ≤ 5) ∨
      (∃ e, t.SetSmsType st = .error (.err e) ∧ ¬ (0 ≤ st ∧ st ≤ 5)) := by
    intro st
    unfold TPDU.SetSmsType
    split
    · next h => exact .inr ⟨_, rfl, by omega⟩
    · next h => exact .inl ⟨_, rfl, by omega⟩
  have go : ∀ st : Int, types o = some st → o.run t = t.SetSmsType st →
      (∃ t', o.run t = .ok t' ∧ ∀ st, types o = some st → 0 ≤ st ∧ st ≤ 5) ∨
      (∃ e st, o.run t = .error (.err e) ∧ types o = some st ∧ ¬ (0 ≤ st ∧ st ≤ 5)) := by
    intro st ht hr
    rcases key st with ⟨t', h, hs⟩ | ⟨e, h, hs⟩
    · exact .inl ⟨t', hr.trans h, fun s hs' => by rw [ht] at hs'; cases hs'; exact hs⟩
    · exact .inr ⟨e, st, hr.trans h, ht, hs⟩
  cases o with
  | option o =>
    cases o with
    | smsType st => exact go st rfl rfl
    | _ => exact .inl ⟨_, rfl, fun _ h => nomatch h⟩
  | setSmsType st => exact go st rfl rfl
  | _ => exact .inl ⟨_, rfl, fun _ h => nomatch h⟩

theorem foldlM_fails (ops : List Op) (t : TPDU) :
    (∃ t', ops.foldlM Op.run t = .ok t' ∧ ∀ st ∈ ops.filterMap types, 0 ≤ st ∧ st ≤ 5) ∨
    (∃ e, ops.foldlM Op.run t = .error (.err e) ∧ ∃ st ∈ ops.filterMap types, ¬ (0 ≤ st ∧ st ≤ 5)) := by
  induction ops generalizing t with
  | nil => exact .inl ⟨t, rfl, by simp⟩
  | cons o os ih =>
    rw [List.foldlM_cons]
    rcases run_fails o t with ⟨u, hu, hs⟩ | ⟨e, st, he, hs, hn⟩
    · rw [hu]
      rcases ih u with ⟨t', h', hall⟩ | ⟨e, h', st, hst, hn⟩
      · refine .inl ⟨t', h', ?_⟩
        intro st hst
        rw [List.mem_filterMap] at hst
        obtain ⟨x, hx, hxs⟩ := hst
        rcases List.mem_cons.1 hx with rfl | hx
        · exact hs st hxs
        · exact hall st (List.mem_filterMap.2 ⟨x, hx, hxs⟩)
      · refine .inr ⟨e, h', st, ?_, hn⟩
        rw [List.mem_filterMap] at hst ⊢
        obtain ⟨x, hx, hxs⟩ := hst
        exact ⟨x, by simp [hx], hxs⟩
    · rw [he]
      exact .inr ⟨e, rfl, st, List.mem_filterMap.2 ⟨o, by simp, hs⟩, hn⟩

/-! The property. -/

/-- Of every field the last value given stays; each flag says what the last setter concerned said, and no
option or setter disturbs what another one set. -/
theorem C76_last_writer (options : List TpduOption) (ops : List Op) (t : TPDU) (hm : ∀ o ∈ all options ops, MtiOk o)
    (hv : ∀ o ∈ all options ops, VpfOk o) (h : build options ops = .ok t) : Has (all options ops) t := by
  rw [build_eq] at h
  simpa using foldlM_has [] _ _ t hm hv new_has h

theorem step_fields {ops : List Op} {t t' : TPDU} (o : Op) (h : HasFields ops t) (hr : o.run t = .ok t') : HasFields (ops ++ [o]) t' := by
  obtain ⟨h1, h2, u, hu, h3, h4, h5, h6, h7, h8, h9, h10⟩ := h
  have keep : ∀ t' : TPDU, oa o = none → da o = none → assigned o = none → t'.OA = t.OA ∧ t'.DA = t.DA ∧ t'.RA = t.RA ∧ t'.FCS = t.FCS ∧
      t'.MR = t.MR ∧ t'.CT = t.CT ∧ t'.MN = t.MN ∧ t'.SCTS = t.SCTS ∧ t'.DT = t.DT ∧ t'.ST = t.ST → HasFields (ops ++ [o]) t' := by
    rintro t' e1 e2 e3 ⟨k1, k2, k3, k4, k5, k6, k7, k8, k9, k10⟩
    refine ⟨?_, ?_, u, ?_, k3.trans h3, k4.trans h4, k5.trans h5, k6.trans h6, k7.trans h7, k8.trans h8, k9.trans h9, k10.trans h10⟩ <;>
      rw [last_snoc]
    · rw [e1, Option.none_or, k1, h1]
    · rw [e2, Option.none_or, k2, h2]
    · rw [e3, Option.none_or, hu]
  have type : ∀ st : Int, t.SetSmsType st = .ok t' → t'.OA = t.OA ∧ t'.DA = t.DA ∧ t'.RA = t.RA ∧ t'.FCS = t.FCS ∧
      t'.MR = t.MR ∧ t'.CT = t.CT ∧ t'.MN = t.MN ∧ t'.SCTS = t.SCTS ∧ t'.DT = t.DT ∧ t'.ST = t.ST := by
    intro st h
    unfold TPDU.SetSmsType at h
    split at h
    · cases h
    · cases h
      exact ⟨rfl, rfl, rfl, rfl, rfl, rfl, rfl, rfl, rfl, rfl⟩
  cases o with
  | option o =>
    cases o with
    | smsType st => exact keep _ rfl rfl rfl (type st hr)
    | da a =>
      cases hr
      refine ⟨?_, ?_, u, ?_, h3, h4, h5, h6, h7, h8, h9, h10⟩ <;> rw [last_snoc]
      · exact h1
      · rfl
      · exact hu
    | oa a =>
      cases hr
      refine ⟨?_, ?_, u, ?_, h3, h4, h5, h6, h7, h8, h9, h10⟩ <;> rw [last_snoc]
      · rfl
      · exact h2
      · exact hu
    | _ => cases hr; exact keep _ rfl rfl rfl ⟨rfl, rfl, rfl, rfl, rfl, rfl, rfl, rfl, rfl, rfl⟩
  | setSmsType st => exact keep _ rfl rfl rfl (type st hr)
  | fields u' =>
    cases hr
    refine ⟨?_, ?_, u', ?_, rfl, rfl, rfl, rfl, rfl, rfl, rfl, rfl⟩ <;> rw [last_snoc] <;> rfl
  | setUD u => cases u <;> cases hr <;> exact keep _ rfl rfl rfl ⟨rfl, rfl, rfl, rfl, rfl, rfl, rfl, rfl, rfl, rfl⟩
  | setUDH u => cases u <;> cases hr <;> exact keep _ rfl rfl rfl ⟨rfl, rfl, rfl, rfl, rfl, rfl, rfl, rfl, rfl, rfl⟩
  | _ => cases hr; exact keep _ rfl rfl rfl ⟨rfl, rfl, rfl, rfl, rfl, rfl, rfl, rfl, rfl, rfl⟩

theorem foldlM_fields (done ops : List Op) (t t' : TPDU) (h : HasFields done t) (hr : ops.foldlM Op.run t = .ok t') :
    HasFields (done ++ ops) t' := by
  induction ops generalizing done t with
  | nil => cases hr; simpa using h
  | cons o os ih =>
    rw [List.foldlM_cons] at hr
    obtain ⟨u, hu, hr⟩ := bind_eq_ok.1 hr
    have := ih (done ++ [o]) u (step_fields o h hu) hr
    simpa using this

/-- The same of the fields that nothing announces: addresses, numbers and times. -/
theorem C76_fields (options : List TpduOption) (ops : List Op) (t : TPDU) (h : build options ops = .ok t) :
    HasFields (all options ops) t := by
  rw [build_eq] at h
  have h0 : HasFields [] { OA := Address.New, DA := Address.New, RA := Address.New } :=
    ⟨rfl, rfl, _, rfl, rfl, rfl, rfl, rfl, rfl, rfl, rfl, rfl⟩
  simpa using foldlM_fields [] _ _ t h0 h

/-- `NewSubmit` and `NewDeliver` make a TPDU of their type, of which the options can change everything. -/
theorem C76_new (options : List TpduOption) (hm : ∀ o ∈ options, MtiOk (.option o)) :
    (∀ t, TPDU.NewSubmit options = .ok t → Has (.option (.smsType 3) :: options.map .option) t ∧
      HasFields (.option (.smsType 3) :: options.map .option) t) ∧
    (∀ t, TPDU.NewDeliver options = .ok t → Has (.option (.smsType 0) :: options.map .option) t ∧
      HasFields (.option (.smsType 0) :: options.map .option) t) := by
  have key : ∀ st t, TPDU.New (.smsType st :: options) = .ok t → Has (.option (.smsType st) :: options.map .option) t ∧
      HasFields (.option (.smsType st) :: options.map .option) t := by
    intro st t h
    have hb : build (.smsType st :: options) [] = .ok t := by
      unfold build
      rw [h]
      rfl
    have he : all (.smsType st :: options) [] = .option (.smsType st) :: options.map .option := by simp [all]
    have h1 := C76_last_writer (.smsType st :: options) [] t (by
      rw [he]
      intro o ho
      rcases List.mem_cons.1 ho with rfl | ho
      · trivial
      · obtain ⟨x, hx, rfl⟩ := List.mem_map.1 ho
        exact hm x hx) (by
      rw [he]
      intro o ho
      rcases List.mem_cons.1 ho with rfl | ho
      · trivial
      · obtain ⟨x, hx, rfl⟩ := List.mem_map.1 ho
        trivial) hb
    have h2 := C76_fields (.smsType st :: options) [] t hb
    rw [he] at h1 h2
    exact ⟨h1, h2⟩
  exact ⟨key 3, key 0⟩

/-- Beside them: a submit that was made a deliver, with both addresses given twice. -/
example : TPDU.NewSubmit [.da ⟨0x91, [0x31]⟩, .oa ⟨0x91, [0x32]⟩, .smsType 0, .da ⟨0x91, [0x33]⟩, .oa ⟨0x91, [0x34]⟩] = .ok
    { Direction := MT, FirstOctet := 0, DA := ⟨0x91, [0x33]⟩, OA := ⟨0x91, [0x34]⟩, RA := ⟨0x80, []⟩ } ∧
    TPDU.NewDeliver [] = .ok { Direction := MT, FirstOctet := 0, DA := ⟨0x80, []⟩, OA := ⟨0x80, []⟩, RA := ⟨0x80, []⟩ } := by
  decide +kernel

/-- Building fails just if one of the types is not one of the six there are, and it never panics. -/
theorem C76_build_exact (options : List TpduOption) (ops : List Op) :
    ((∃ t, build options ops = .ok t) ↔ ∀ st ∈ (all options ops).filterMap types, 0 ≤ st ∧ st ≤ 5) ∧
    ∀ k, build options ops ≠ .error (.panic k) := by
  rw [build_eq]
  rcases foldlM_fails (all options ops) { OA := Address.New, DA := Address.New, RA := Address.New } with
    ⟨t', h', hall⟩ | ⟨e, h', st, hst, hn⟩ <;> rw [h']
  · exact ⟨⟨fun _ => hall, fun _ => ⟨t', rfl⟩⟩, fun k h => nomatch h⟩
  · exact ⟨⟨fun h => (nomatch h.choose_spec), fun h => absurd (h st hst) hn⟩, fun k h => (nomatch h)⟩

/-- Everything at once, in an order that overwrites much of it. -/
def exOps : List Op :=
  [.setUD (some [0x48]), .setUDH (some [⟨0, [3, 2, 1]⟩]), .setVP { Format := VpfRelative, Duration := relativeToDuration 5 }, .setPID 1,
    .setSmsType 0, .setUD (some [0x48, 0x69]), .setDCS 4, .setSmsType 3, .fields { DA := ⟨0x91, [0x31, 0x32]⟩, MR := 9 }]

example : (∀ o ∈ all [.smsType 3, .dcs 8] exOps, MtiOk o) ∧ (∀ o ∈ all [.smsType 3, .dcs 8] exOps, VpfOk o) ∧
    build [.smsType 3, .dcs 8] exOps = .ok
      { Direction := MO, FirstOctet := 0x51, DA := ⟨0x91, [0x31, 0x32]⟩, MR := 9, PID := 1, DCS := 4, PI := 7, VP := { Format := VpfRelative, Duration := relativeToDuration 5 },
        UDH := [⟨0, [3, 2, 1]⟩], UD := [0x48, 0x69] } := by
  decide +kernel

/-- Whether `WithUDH` is not used. -/
def NoWithUDH (ops : List Op) : Prop := ∀ o ∈ ops, ∀ u, o ≠ .option (.udh u)

theorem headers_eq (ops : List Op) (h : NoWithUDH ops) :
    ∃ l : List (Option UDH), ops.filterMap header = l.map (·.getD []) ∧ ops.filterMap headerFlag = l.map (·.isSome) ∧
      ∀ x ∈ l, .setUDH x ∈ ops := by
  induction ops with
  | nil => exact ⟨[], rfl, rfl, by simp⟩
  | cons o os ih =>
    obtain ⟨l, h1, h2, h3⟩ := ih (fun x hx => h x (by simp [hx]))
    have skip : header o = none → headerFlag o = none → ∃ l : List (Option UDH), (o :: os).filterMap header = l.map (·.getD []) ∧
        (o :: os).filterMap headerFlag = l.map (·.isSome) ∧ ∀ x ∈ l, .setUDH x ∈ o :: os := by
      intro a b
      exact ⟨l, by rw [List.filterMap_cons_none a, h1], by rw [List.filterMap_cons_none b, h2], fun x hx => by simp [h3 x hx]⟩
    cases o with
    | option o =>
      cases o with
      | udh u => exact absurd rfl (h _ (by simp) u)
      | _ => exact skip rfl rfl
    | setUDH u =>
      refine ⟨u :: l, ?_, ?_, ?_⟩
      · rw [List.filterMap_cons_some (f := header) (b := u.getD []) rfl, h1]; rfl
      · rw [List.filterMap_cons_some (f := headerFlag) (b := u.isSome) rfl, h2]; rfl
      · intro x hx
        rcases List.mem_cons.1 hx with rfl | hx
        · simp
        · simp [h3 x hx]
    | _ => exact skip rfl rfl

theorem header_flag (ops : List Op) (h : NoWithUDH ops) (hne : .setUDH (some []) ∉ ops) :
    (last headerFlag ops).getD false = true ↔ (last header ops).getD [] ≠ [] := by
  obtain ⟨l, h1, h2, h3⟩ := headers_eq ops h
  unfold last
  rw [h1, h2, List.getLast?_map, List.getLast?_map]
  cases hl : l.getLast? with
  | none => simp
  | some x =>
    have hx := h3 x (List.mem_of_getLast? hl)
    cases x with
    | none => simp
    | some u =>
      cases u with
      | nil => exact absurd hx hne
      | cons a b => simp

theorem data_flag (ops : List Op) (hn : .setUD none ∉ ops) (h : NoWithUDH ops)
    (hd : (last userData ops).getD [] ≠ [] ∨ (last header ops).getD [] ≠ []) : (last dataFlag ops).getD false = true := by
  have hall : ∀ b ∈ ops.filterMap dataFlag, b = true := by
    intro b hb
    obtain ⟨o, ho, hb⟩ := List.mem_filterMap.1 hb
    unfold dataFlag at hb
    split at hb
    · next u =>
      cases u with
      | none => exact absurd ho hn
      | some u => cases hb; rfl
    · cases hb; rfl
    · cases hb
  have hex : ∃ b, b ∈ ops.filterMap dataFlag := by
    rcases hd with hd | hd
    · unfold last at hd
      cases hl : (ops.filterMap userData).getLast? with
      | none => rw [hl] at hd; exact absurd rfl hd
      | some x =>
        obtain ⟨o, ho, hx⟩ := List.mem_filterMap.1 (List.mem_of_getLast? hl)
        unfold userData at hx
        split at hx
        · exact ⟨_, List.mem_filterMap.2 ⟨_, ho, rfl⟩⟩
        · cases hx
    · obtain ⟨l, h1, h2, h3⟩ := headers_eq ops h
      unfold last at hd
      rw [h1, List.getLast?_map] at hd
      cases hl : l.getLast? with
      | none => rw [hl] at hd; exact absurd rfl hd
      | some x =>
        rw [hl] at hd
        have hx := h3 x (List.mem_of_getLast? hl)
        cases x with
        | none => exact absurd rfl hd
        | some u => exact ⟨_, List.mem_filterMap.2 ⟨_, hx, rfl⟩⟩
  unfold last
  cases hl : (ops.filterMap dataFlag).getLast? with
  | none =>
    rw [List.getLast?_eq_none_iff] at hl
    obtain ⟨b, hb⟩ := hex
    rw [hl] at hb; exact absurd hb (by simp)
  | some b => exact hall b (List.mem_of_getLast? hl)

/-- Without the option `WithUDH` and without `SetUD(nil)` a TPDU announces what it carries: the header in the first octet,
the format of the validity period, and the DCS, the PID and the user data or header in the parameter indicator. -/
theorem C76_announced_partial (options : List TpduOption) (ops : List Op) (t : TPDU) (hm : ∀ o ∈ all options ops, MtiOk o)
    (hv : ∀ o ∈ all options ops, VpfOk o) (hu : NoWithUDH (all options ops)) (hne : .setUDH (some []) ∉ all options ops)
    (hn : .setUD none ∉ all options ops) (h : build options ops = .ok t) :
    (t.UDHI = true ↔ t.UDH ≠ []) ∧ FirstOctet.VPF t.FirstOctet = t.VP.Format ∧ (t.DCS ≠ 0 → PI.DCS t.PI = true) ∧
    (t.PID ≠ 0 → PI.PID t.PI = true) ∧ (t.UD ≠ [] ∨ t.UDH ≠ [] → PI.UDL t.PI = true) := by
  have H := C76_last_writer options ops t hm hv h
  refine ⟨?_, H.vpf, ?_, ?_, ?_⟩
  · rw [H.udhi, H.udh]; exact header_flag _ hu hne
  · rw [H.dcs, H.piDcs]; cases last dcs (all options ops) <;> simp
  · rw [H.pid, H.piPid]; cases last pid (all options ops) <;> simp
  · rw [H.udl, H.ud, H.udh]; exact data_flag _ hn hu

instance (ops : List Op) : Decidable (NoWithUDH ops) :=
  decidable_of_iff (∀ o ∈ ops, (match o with | .option (.udh _) => false | _ => true) = true) (by
    unfold NoWithUDH
    refine ⟨fun h o ho u e => ?_, fun h o ho => ?_⟩
    · subst e; exact absurd (h _ ho) (by simp)
    · split
      · exact absurd rfl (h _ ho _)
      · rfl)

theorem last_cons_none {α : Type} (f : Op → Option α) (o : Op) (ops : List Op) (h : ∀ o ∈ ops, f o = none) : last f (o :: ops) = f o := by
  have : ops.filterMap f = [] := List.filterMap_eq_nil_iff.2 h
  unfold last
  cases ho : f o <;> simp [ho, this]

/-- A submit built by `NewSubmit` and the setters comes back as it was, given values that fit. -/
theorem C76_submit_roundtrip_partial (options : List TpduOption) (ops : List Op) (t : TPDU)
    (hk : ∀ o ∈ all options ops, mti o = none ∧ direction o = none)
    (hv : ∀ o ∈ all options ops, VpfOk o) (hu : NoWithUDH (all options ops)) (hne : .setUDH (some []) ∉ all options ops)
    (h : build (.smsType 3 :: options) ops = .ok t) (hda : AddrOk t.DA) (hvp : VpOk t.VP) (ha : t.Alphabet.2 = none)
    (hs : t.Alphabet.1 = .a7Bit → Septets t.UD) (he : t.Alphabet.1 = .ucs2 → t.UD.length % 2 = 0) (hf : udLen t ≤ 255) :
    ∃ p, t.MarshalBinary = .ok p ∧ ({ Direction := MO } : TPDU).UnmarshalBinary p = .ok
      { Direction := MO, FirstOctet := t.FirstOctet, MR := t.MR, DA := t.DA, PID := t.PID, DCS := t.DCS,
        VP := t.VP, UDH := t.UDH, UD := t.UD } := by
  have hall : all (.smsType 3 :: options) ops = .option (.smsType 3) :: all options ops := rfl
  have H := C76_last_writer (.smsType 3 :: options) ops t
    (by
      rw [hall]; intro o ho
      rcases List.mem_cons.1 ho with rfl | ho
      · trivial
      · have := (hk o ho).1
        unfold MtiOk; split
        · cases this
        · trivial)
    (by
      rw [hall]; intro o ho
      rcases List.mem_cons.1 ho with rfl | ho
      · trivial
      · exact hv o ho) h
  have hm := H.mti
  have hd := H.direction
  rw [hall, last_cons_none _ _ _ (fun o ho => (hk o ho).1)] at hm
  rw [hall, last_cons_none _ _ _ (fun o ho => (hk o ho).2)] at hd
  have hflag := header_flag (all (.smsType 3 :: options) ops)
    (by
      rw [hall]; intro o ho u
      rcases List.mem_cons.1 ho with rfl | ho
      · simp
      · exact hu o ho u)
    (by rw [hall]; simpa using hne)
  rw [← H.udhi, ← H.udh] at hflag
  exact C23_submit_roundtrip t hd (UInt8.toNat_inj.1 hm) hda hvp H.vpf ⟨ha, ⟨hflag.2, fun x => .inl (hflag.1 x)⟩, hs, he, hf⟩

/-- Likewise a deliver built by `NewDeliver`. -/
theorem C76_deliver_roundtrip_partial (options : List TpduOption) (ops : List Op) (t : TPDU)
    (hk : ∀ o ∈ all options ops, mti o = none ∧ direction o = none)
    (hv : ∀ o ∈ all options ops, VpfOk o) (hu : NoWithUDH (all options ops)) (hne : .setUDH (some []) ∉ all options ops)
    (h : build (.smsType 0 :: options) ops = .ok t) (hoa : AddrOk t.OA) (hts : TimeOk t.SCTS) (ha : t.Alphabet.2 = none)
    (hs : t.Alphabet.1 = .a7Bit → Septets t.UD) (he : t.Alphabet.1 = .ucs2 → t.UD.length % 2 = 0) (hf : udLen t ≤ 255) :
    ∃ p, t.MarshalBinary = .ok p ∧ ({ Direction := MT } : TPDU).UnmarshalBinary p = .ok
      { Direction := MT, FirstOctet := t.FirstOctet, OA := t.OA, PID := t.PID, DCS := t.DCS,
        SCTS := t.SCTS, UDH := t.UDH, UD := t.UD } := by
  have hall : all (.smsType 0 :: options) ops = .option (.smsType 0) :: all options ops := rfl
  have H := C76_last_writer (.smsType 0 :: options) ops t
    (by
      rw [hall]; intro o ho
      rcases List.mem_cons.1 ho with rfl | ho
      · trivial
      · have := (hk o ho).1
        unfold MtiOk; split
        · cases this
        · trivial)
    (by
      rw [hall]; intro o ho
      rcases List.mem_cons.1 ho with rfl | ho
      · trivial
      · exact hv o ho) h
  have hm := H.mti
  have hd := H.direction
  rw [hall, last_cons_none _ _ _ (fun o ho => (hk o ho).1)] at hm
  rw [hall, last_cons_none _ _ _ (fun o ho => (hk o ho).2)] at hd
  have hflag := header_flag (all (.smsType 0 :: options) ops)
    (by
      rw [hall]; intro o ho u
      rcases List.mem_cons.1 ho with rfl | ho
      · simp
      · exact hu o ho u)
    (by rw [hall]; simpa using hne)
  rw [← H.udhi, ← H.udh] at hflag
  exact C24_deliver_roundtrip t hd (UInt8.toNat_inj.1 hm) hoa hts ⟨ha, ⟨hflag.2, fun x => .inl (hflag.1 x)⟩, hs, he, hf⟩

/-- What the example of a submit below does. -/
def exSub : List Op :=
  [.setUDH (some [⟨0, [3, 2, 1]⟩]), .setUD (some [0x48, 0x69]), .setVP { Format := VpfRelative, Duration := relativeToDuration 5 }]

example : ∃ t, build (.smsType 3 :: [.dcs 0, .da ⟨0x91, [0x31, 0x32]⟩]) exSub = .ok t ∧ NoWithUDH (all [.dcs 0, .da ⟨0x91, [0x31, 0x32]⟩] exSub) ∧
    (∀ o ∈ all [.dcs 0, .da ⟨0x91, [0x31, 0x32]⟩] exSub, (mti o = none ∧ direction o = none) ∧ VpfOk o) ∧
    AddrOk t.DA ∧ VpOk t.VP ∧ t.UDH ≠ [] ∧ UdOk t :=
  ⟨{ Direction := MO, FirstOctet := 0x51, OA := Address.New, DA := ⟨0x91, [0x31, 0x32]⟩,
     RA := Address.New, PI := 6, VP := { Format := VpfRelative, Duration := relativeToDuration 5 },
     UDH := [⟨0, [3, 2, 1]⟩], UD := [0x48, 0x69] }, by decide +kernel, by decide, by decide, .inl (by decide), .relative 5 (by decide), by decide,
    ⟨by decide, by decide, by decide, by decide, by decide⟩⟩

/-- As stated the property fails.  A header given to `NewSubmit` by `WithUDH` is written but not announced, so it is read as text;
and the header of a status report is not written at all if `SetUD(nil)` comes after `SetUDH`. -/
theorem C76_counterexample :
    (∃ t p t', TPDU.NewSubmit [.dcs 4, .da ⟨0x91, [0x31, 0x32]⟩, .udh [⟨0, [3, 2, 1]⟩]] = .ok t ∧ t.UDHI = false ∧
      (t.SetUD (some [0x48, 0x69])).MarshalBinary = .ok p ∧ ({ Direction := MO } : TPDU).UnmarshalBinary p = .ok t' ∧
      t'.UDH = [] ∧ t'.UD = [5, 0, 3, 3, 2, 1, 0x48, 0x69]) ∧
    (∃ t p t', build [.smsType 4] [.setDCS 4, .setUDH (some [⟨0, [3, 2, 1]⟩]), .setUD none] = .ok t ∧ t.UDH ≠ [] ∧ PI.UDL t.PI = false ∧
      t.MarshalBinary = .ok p ∧ ({ Direction := MT } : TPDU).UnmarshalBinary p = .ok t' ∧ t'.UDHI = true ∧ t'.UDH = []) := by
  refine ⟨⟨_, _, _, rfl, rfl, rfl, rfl, rfl, rfl⟩, _, _, _, rfl, by decide, rfl, rfl, rfl, rfl, rfl⟩

end Verif.Props
