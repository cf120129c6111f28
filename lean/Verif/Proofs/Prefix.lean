import Verif.Proofs.Safe
import Verif.Proofs.Tpdu

/-! Decoding an input that extends another one. -/

namespace Verif.Proofs
open Verif.Model Verif.Spec Verif.Model.TPDU

theorem idx_append_left {α : Type} (p q : List α) (i : Nat) (h : i < p.length) :
    idx (p ++ q) (i : Int) = idx p (i : Int) := by
  rw [idx_getElem p i h, idx_getElem (p ++ q) i (by simp; omega), List.getElem_append_left h]

theorem slice_append_left {α : Type} (p q : List α) (a b : Nat) (hab : a ≤ b) (h : b ≤ p.length) :
    slice (p ++ q) (a : Int) (b : Int) = slice p (a : Int) (b : Int) := by
  rw [slice_ok p a b hab h, slice_ok (p ++ q) a b hab (by simp; omega), List.take_append_of_le_length h]

theorem timestamp_ext (p q : Bytes) (t : GoTime) (h : Timestamp.UnmarshalBinary p = .ok t) :
    Timestamp.UnmarshalBinary (p ++ q) = .ok t := by
  have hl : 7 ≤ p.length := by have := safe_timestamp p; rw [h] at this; exact this
  unfold Timestamp.UnmarshalBinary at h ⊢
  rw [if_neg (by omega)] at h
  rw [if_neg (by simp; omega)]
  have e : ∀ i : Nat, i < 7 → idx (p ++ q) (i : Int) = idx p (i : Int) := fun i hi => idx_append_left _ _ _ (by omega)
  have e0 := e 0 (by omega); have e1 := e 1 (by omega); have e2 := e 2 (by omega); have e3 := e 3 (by omega)
  have e4 := e 4 (by omega); have e5 := e 5 (by omega); have e6 := e 6 (by omega)
  simp only [Int.cast_ofNat_Int] at e0 e1 e2 e3 e4 e5 e6
  simp only [e0, e1, e2, e3, e4, e5, e6]
  exact h

theorem address_ext (p q : Bytes) (r : Address × Nat) (h : Address.UnmarshalBinary p = .ok r) :
    Address.UnmarshalBinary (p ++ q) = .ok r := by
  unfold Address.UnmarshalBinary at h ⊢
  by_cases h2 : p.length < 2
  · rw [if_pos h2] at h; cases h
  rw [if_neg h2] at h
  rw [if_neg (by simp; omega)]
  have e0 : idx (p ++ q) 0 = idx p 0 := idx_append_left p q 0 (by omega)
  have e1 : idx (p ++ q) 1 = idx p 1 := idx_append_left p q 1 (by omega)
  rw [e0, e1]
  obtain ⟨l, hl, h⟩ := bind_eq_ok.mp h
  rw [hl]
  simp only [ok_bind] at h ⊢
  obtain ⟨toa, ht, h⟩ := bind_eq_ok.mp h
  rw [ht]
  simp only [ok_bind] at h ⊢
  by_cases h3 : p.length < 2 + (l.toNat + 1) / 2
  · rw [if_pos h3] at h; cases h
  rw [if_neg h3] at h
  rw [if_neg (by simp; omega)]
  rw [slice_append_left p q _ _ (by omega) (by omega)]
  exact h

theorem checkZero_ext (p q : Bytes) (hp : 7 ≤ p.length) : ∀ fuel i,
    ValidityPeriod.checkZero (p ++ q) i fuel = ValidityPeriod.checkZero p i fuel := by
  intro fuel
  induction fuel with
  | zero => intro i; rfl
  | succ fuel ih =>
    intro i
    unfold ValidityPeriod.checkZero
    split
    · rw [idx_append_left p q i (by omega), ih]
    · rfl

theorem vp_ext (v : ValidityPeriod) (p q : Bytes) (f : UInt8) (r : ValidityPeriod × Nat) (h : v.UnmarshalBinary p f = .ok r) :
    v.UnmarshalBinary (p ++ q) f = .ok r := by
  unfold ValidityPeriod.UnmarshalBinary at h ⊢
  simp only at h ⊢
  split at h
  · rename_i hf
    rw [if_pos hf]
    obtain ⟨t, ht, h⟩ := bind_eq_ok.mp h
    rw [timestamp_ext p q t ht]
    exact h
  rename_i hf
  rw [if_neg hf]
  split at h
  · rename_i hf
    rw [if_pos hf]
    obtain ⟨t, ht, h⟩ := bind_eq_ok.mp h
    have : ValidityPeriod.unmarshalVPEnhanced { v with Format := VpfNotPresent } (p ++ q) = .ok t := by
      unfold ValidityPeriod.unmarshalVPEnhanced at ht ⊢
      by_cases h7 : p.length < 7
      · rw [if_pos h7] at ht; cases ht
      rw [if_neg h7] at ht
      rw [if_neg (by simp; omega)]
      have e0 : idx (p ++ q) 0 = idx p 0 := idx_append_left p q 0 (by omega)
      have e1 : idx (p ++ q) 1 = idx p 1 := idx_append_left p q 1 (by omega)
      have e2 : idx (p ++ q) 2 = idx p 2 := idx_append_left p q 2 (by omega)
      have e3 : idx (p ++ q) 3 = idx p 3 := idx_append_left p q 3 (by omega)
      simp only [e0, e1, e2, e3, checkZero_ext p q (by omega)]
      exact ht
    rw [this]
    exact h
  rename_i hf
  rw [if_neg hf]
  split at h
  · rename_i hf
    rw [if_pos hf]
    by_cases h1 : p.length < 1
    · rw [if_pos h1] at h; cases h
    rw [if_neg h1] at h
    rw [if_neg (by rw [List.length_append]; omega)]
    rw [show idx (p ++ q) 0 = idx p 0 from idx_append_left p q 0 (by omega)]
    exact h
  · rename_i hf
    rw [if_neg hf]
    exact h

theorem readAt_eq_ok {f : String} {src : Bytes} {ri : Nat} {b : UInt8} (h : readAt f src ri = .ok b) : src[ri]? = some b := by
  unfold readAt at h
  split at h
  · cases h
  · exact idx_eq_ok h

/-- The parts of a successfully decoded SMS-SUBMIT. -/
theorem submit_parts (t t' : TPDU) (src : Bytes) (h : t.unmarshalSubmit src = .ok t') :
    ∃ mr da n pid dcs vp m, src[0]? = some mr ∧ Address.UnmarshalBinary (src.drop 1) = .ok (da, n) ∧
      src[1 + n]? = some pid ∧ src[1 + n + 1]? = some dcs ∧
      t.VP.UnmarshalBinary (src.drop (1 + n + 1 + 1)) (FirstOctet.VPF t.FirstOctet) = .ok (vp, m) ∧
      1 + n + 1 + 1 + m ≤ src.length ∧
      ({ t with MR := mr, DA := da, PID := pid, DCS := dcs, VP := vp } : TPDU).decodeUserData (src.drop (1 + n + 1 + 1 + m)) = .ok t' := by
  unfold unmarshalSubmit at h
  obtain ⟨mr, hmr, h⟩ := bind_eq_ok.mp h
  obtain ⟨s, hs, h⟩ := bind_eq_ok.mp h
  obtain ⟨r, hda, h⟩ := bind_eq_ok.mp h
  obtain ⟨da, n⟩ := r
  obtain ⟨pid, hpid, h⟩ := bind_eq_ok.mp h
  obtain ⟨dcs, hdcs, h⟩ := bind_eq_ok.mp h
  obtain ⟨s', hs', h⟩ := bind_eq_ok.mp h
  obtain ⟨r, hvp, h⟩ := bind_eq_ok.mp h
  obtain ⟨vp, m⟩ := r
  obtain ⟨s'', hs'', h⟩ := bind_eq_ok.mp h
  obtain ⟨_, _, rfl⟩ := slice_eq_ok hs
  obtain ⟨_, _, rfl⟩ := slice_eq_ok hs'
  obtain ⟨_, hle, rfl⟩ := slice_eq_ok hs''
  rw [List.take_length] at *
  rw [wrapD_eq_ok] at *
  exact ⟨mr, da, n, pid, dcs, vp, m, readAt_eq_ok hmr, hda, readAt_eq_ok hpid, readAt_eq_ok hdcs, hvp, by assumption, h⟩

theorem getElem?_ext {p q : Bytes} {i : Nat} {x y : UInt8} (h : p[i]? = some x) (h' : (p ++ q)[i]? = some y) : x = y := by
  obtain ⟨hl, _⟩ := List.getElem?_eq_some_iff.mp h
  rw [List.getElem?_append_left hl, h] at h'
  cases h'; rfl

theorem readByte_eq_ok {b : Bytes} {r : UInt8 × Bytes} (h : readByte b = .ok r) : b = r.1 :: r.2 := by
  cases b with
  | nil => cases h
  | cons x b => cases h; rfl

/-- The parts of a successfully decoded SMS-DELIVER. -/
theorem deliver_parts (t t' : TPDU) (src : Bytes) (h : t.unmarshalDeliver src = .ok t') :
    ∃ oa n pid dcs ts, Address.UnmarshalBinary src = .ok (oa, n) ∧
      src[n]? = some pid ∧ src[n + 1]? = some dcs ∧
      Timestamp.UnmarshalBinary (src.drop (n + 2)) = .ok ts ∧ n + 2 + 7 ≤ src.length ∧
      ({ t with OA := oa, PID := pid, DCS := dcs, SCTS := ts } : TPDU).decodeUserData (src.drop (n + 2 + 7)) = .ok t' := by
  unfold unmarshalDeliver at h
  obtain ⟨r, hoa, h⟩ := bind_eq_ok.mp h
  obtain ⟨oa, n⟩ := r
  obtain ⟨s, hs, h⟩ := bind_eq_ok.mp h
  obtain ⟨_, _, rfl⟩ := slice_eq_ok hs
  obtain ⟨r, hpid, h⟩ := bind_eq_ok.mp h
  obtain ⟨pid, b1⟩ := r
  obtain ⟨r, hdcs, h⟩ := bind_eq_ok.mp h
  obtain ⟨dcs, b2⟩ := r
  obtain ⟨ts, hts, hud⟩ := bind_eq_ok.mp h
  simp only [wrapD_eq_ok, List.take_length] at hoa hpid hdcs hts hud
  have e1 := readByte_eq_ok hpid
  have e2 := readByte_eq_ok hdcs
  simp only at e1 e2
  subst e2
  have hb2 : b2 = src.drop (n + 2) := by
    have := congrArg (List.drop 2) e1
    rw [List.drop_drop] at this
    simpa using this.symm
  have hlen : 7 ≤ b2.length := by have := safe_timestamp b2; rw [hts] at this; exact this
  have g0 : src[n]? = some pid := by
    have := congrArg (fun l => l[0]?) e1
    simpa using this
  have g1 : src[n + 1]? = some dcs := by
    have := congrArg (fun l => l[1]?) e1
    simpa using this
  rw [hb2] at hts hud hlen
  refine ⟨oa, n, pid, dcs, ts, hoa, g0, g1, hts, ?_, ?_⟩
  · simp at hlen; omega
  · rw [List.drop_drop] at hud; exact hud

/-- Two inputs, one extending the other, are both accepted as user data only when the length octet is 0. -/
theorem decodeUserData_ext (t t1 t2 : TPDU) (s q : Bytes) (hq : q ≠ []) (h1 : t.decodeUserData s = .ok t1)
    (h2 : t.decodeUserData (s ++ q) = .ok t2) : s.head? = some 0 ∧ t1 = t ∧ t2 = t := by
  have hql : 0 < q.length := by cases q with | nil => exact absurd rfl hq | cons => simp
  cases s with
  | nil => cases h1
  | cons l s =>
    unfold decodeUserData at h1 h2
    rw [if_neg (by simp)] at h1 h2
    simp only [List.cons_append, idx_zero_cons, ok_bind] at h1 h2
    by_cases h0 : l.toNat = 0
    · rw [if_pos h0] at h1 h2
      cases h1; cases h2
      have : l = 0 := UInt8.toNat_inj.mp h0
      exact ⟨by rw [this]; rfl, rfl, rfl⟩
    rw [if_neg h0] at h1 h2
    exfalso
    split at h1
    · cases h1
    rename_i alphabet ha
    simp only [ha] at h2
    generalize (if alphabet = .a7Bit then ((if alphabet = .a7Bit then l.toNat else 0) * 7 + 7) / 8 else l.toNat) = u at h1 h2
    by_cases a1 : (l :: s).length < 1 + u
    · rw [if_pos a1] at h1; cases h1
    by_cases a2 : (l :: s).length > 1 + u
    · rw [if_neg a1, if_pos a2] at h1; cases h1
    simp only [List.length_cons] at a1 a2
    rw [if_neg (by simp; omega), if_pos (by simp; omega)] at h2
    cases h2

theorem drop_ext {p q : Bytes} {n : Nat} (h : n ≤ p.length) : (p ++ q).drop n = p.drop n ++ q := by
  rw [List.drop_append_of_le_length h]

/-- Where the user data of an accepted SMS-SUBMIT starts does not depend on what follows. -/
theorem submit_ext (t t1 t2 : TPDU) (src q : Bytes) (hq : q ≠ []) (h1 : t.unmarshalSubmit src = .ok t1)
    (h2 : t.unmarshalSubmit (src ++ q) = .ok t2) : t2 = t1 ∧ t1.UDH = t.UDH ∧ t1.UD = t.UD := by
  obtain ⟨mr, da, n, pid, dcs, vp, m, a1, a2, a3, a4, a5, a6, a7⟩ := submit_parts t t1 src h1
  obtain ⟨mr', da', n', pid', dcs', vp', m', b1, b2, b3, b4, b5, b6, b7⟩ := submit_parts t t2 (src ++ q) h2
  rw [drop_ext (by omega), address_ext _ q _ a2] at b2
  cases b2
  cases getElem?_ext a1 b1
  cases getElem?_ext a3 b3
  cases getElem?_ext a4 b4
  rw [drop_ext (by omega), vp_ext _ _ q _ _ a5] at b5
  cases b5
  rw [drop_ext (by omega)] at b7
  obtain ⟨_, e1, e2⟩ := decodeUserData_ext _ _ _ _ q hq a7 b7
  rw [e1, e2]
  exact ⟨rfl, rfl, rfl⟩

theorem deliver_ext (t t1 t2 : TPDU) (src q : Bytes) (hq : q ≠ []) (h1 : t.unmarshalDeliver src = .ok t1)
    (h2 : t.unmarshalDeliver (src ++ q) = .ok t2) : t2 = t1 ∧ t1.UDH = t.UDH ∧ t1.UD = t.UD := by
  obtain ⟨oa, n, pid, dcs, ts, a1, a2, a3, a4, a5, a6⟩ := deliver_parts t t1 src h1
  obtain ⟨oa', n', pid', dcs', ts', b1, b2, b3, b4, b5, b6⟩ := deliver_parts t t2 (src ++ q) h2
  rw [address_ext _ q _ a1] at b1
  cases b1
  cases getElem?_ext a2 b2
  cases getElem?_ext a3 b3
  rw [drop_ext (by omega), timestamp_ext _ q _ a4] at b4
  cases b4
  rw [drop_ext (by omega)] at b6
  obtain ⟨_, e1, e2⟩ := decodeUserData_ext _ _ _ _ q hq a6 b6
  rw [e1, e2]
  exact ⟨rfl, rfl, rfl⟩

theorem prefix_cases {p h e q : Bytes} (hp : p ++ q = h ++ e) (hl : h.length ≤ p.length) : ∃ s, p = h ++ s ∧ s ++ q = e := by
  refine ⟨p.drop h.length, ?_, ?_⟩
  · have := congrArg (List.take h.length) hp
    rw [List.take_append_of_le_length hl, List.take_left'] at this
    · conv => lhs; rw [← List.take_append_drop h.length p]
      rw [this]
    · rfl
  · rw [← drop_ext hl, hp, List.drop_left' rfl]

theorem ud_cut (t t0 t1 : TPDU) (s q : Bytes) (hq : q ≠ []) (h : UdOk t) (hd : t0.DCS = t.DCS)
    (hf : t0.FirstOctet = t.FirstOctet) (h1 : t0.UDH = []) (h2 : t0.UD = []) (he : t.encodeUserData = .ok (s ++ q)) :
    t0.decodeUserData s ≠ .ok t1 := by
  intro hs
  obtain ⟨e, g1, g2, g3, g4, g5⟩ := ud_roundtrip t t0 h hd hf h1 h2
  rw [he] at g1
  cases g1
  obtain ⟨e1, _, e3⟩ := decodeUserData_ext _ _ _ s q hq hs g2
  have hh : (s ++ q).head? = some 0 := by
    cases s with
    | nil => cases e1
    | cons x s => exact e1
  by_cases hu : t.UD = [] ∧ t.UDH = []
  · have := g4 hu.1 hu.2
    cases s with
    | nil => cases e1
    | cons x s =>
      cases q with
      | nil => exact hq rfl
      | cons y q => simp at this
  · refine g5 ?_ hh
    by_cases h3 : t.UD = []
    · exact .inr fun h4 => hu ⟨h3, h4⟩
    · exact .inl h3

theorem getElem?_mid (pre post : Bytes) (x : UInt8) (i : Nat) (h : i = pre.length) : (pre ++ x :: post)[i]? = some x := by
  subst h; simp

theorem submit_cut (t t1 : TPDU) (p q : Bytes) (hq : q ≠ []) (hdir : t.Direction = MO) (hmti : FirstOctet.MTI t.FirstOctet = 1)
    (hda : AddrOk t.DA) (hvp : VpOk t.VP) (hvpf : FirstOctet.VPF t.FirstOctet = t.VP.Format) (hud : UdOk t)
    (hm : t.MarshalBinary = .ok (p ++ q)) : ({ Direction := MO } : TPDU).UnmarshalBinary p ≠ .ok t1 := by
  intro h1
  obtain ⟨da, ha, ha'⟩ := addr_rt _ hda
  obtain ⟨vp, hv, hv'⟩ := vp_rt _ hvp
  obtain ⟨ud, hu, _⟩ := ud_roundtrip t
    { Direction := MO, FirstOctet := t.FirstOctet, MR := t.MR, DA := t.DA,
      PID := t.PID, DCS := t.DCS, VP := t.VP } hud rfl rfl rfl rfl
  have hst : t.SmsType = SmsSubmit := by rw [smsType_of t _ _ hmti hdir]; decide
  have hst' : ({ Direction := MO, FirstOctet := t.FirstOctet } : TPDU).SmsType = SmsSubmit :=
    (smsType_of { Direction := MO, FirstOctet := t.FirstOctet } 1 MO hmti rfl).trans (by decide)
  have hm' := marshal_Submit t hst _ (submit_bytes t da vp ud ha hv hu)
  rw [hm] at hm'
  cases p with
  | nil => cases h1
  | cons fo b =>
    simp only [List.cons_append, Except.ok.injEq, List.cons.injEq] at hm'
    obtain ⟨rfl, hb⟩ := hm'
    rw [unmarshal_Submit _ _ hst', wrapD_eq_ok] at h1
    obtain ⟨mr, da1, n, pid, dcs, vp1, m, a1, a2, a3, a4, a5, a6, a7⟩ := submit_parts _ _ _ h1
    have x2 := address_ext _ q _ a2
    rw [← drop_ext (by omega), hb] at x2
    have y2 := ha' (t.PID :: t.DCS :: (vp ++ ud))
    rw [show (t.MR :: (da ++ t.PID :: t.DCS :: (vp ++ ud))).drop 1 = da ++ t.PID :: t.DCS :: (vp ++ ud) from rfl, y2] at x2
    cases x2
    have x5 := vp_ext _ _ q _ _ a5
    rw [← drop_ext (by omega), hb] at x5
    have y5 := hv' ud
    have e5 : (t.MR :: (da ++ t.PID :: t.DCS :: (vp ++ ud))).drop (1 + da.length + 1 + 1) = vp ++ ud := by
      have := List.drop_left' (l₁ := t.MR :: da ++ [t.PID, t.DCS]) (l₂ := vp ++ ud) (i := 1 + da.length + 1 + 1) (by simp; omega)
      simpa using this
    rw [e5] at x5
    have x5' : ({} : ValidityPeriod).UnmarshalBinary (vp ++ ud) (FirstOctet.VPF t.FirstOctet) = .ok (vp1, m) := x5
    rw [hvpf, y5] at x5'
    cases x5'
    have e6 : t.MR :: (da ++ t.PID :: t.DCS :: (vp ++ ud)) = (t.MR :: (da ++ t.PID :: t.DCS :: vp)) ++ ud := by simp
    rw [e6] at hb
    obtain ⟨s, rfl, hs⟩ := prefix_cases hb (by simp at a6 ⊢; omega)
    have e7 : ((t.MR :: (da ++ t.PID :: t.DCS :: vp)) ++ s).drop (1 + da.length + 1 + 1 + vp.length) = s :=
      List.drop_left' (by simp; omega)
    rw [e7] at a7
    have x4 : dcs = t.DCS := by
      have : ((t.MR :: (da ++ t.PID :: t.DCS :: vp)) ++ s)[1 + da.length + 1]? = some t.DCS := by
        have e : (t.MR :: (da ++ t.PID :: t.DCS :: vp)) ++ s = (t.MR :: (da ++ [t.PID])) ++ t.DCS :: (vp ++ s) := by simp
        rw [e]; exact getElem?_mid _ _ _ _ (by simp; omega)
      rw [this] at a4; cases a4; rfl
    rw [← hs] at hu
    refine ud_cut t _ t1 s q hq hud ?_ ?_ ?_ ?_ hu a7
    · exact x4
    · rfl
    · rfl
    · rfl

theorem deliver_cut (t t1 : TPDU) (p q : Bytes) (hq : q ≠ []) (hdir : t.Direction = MT) (hmti : FirstOctet.MTI t.FirstOctet = 0)
    (hoa : AddrOk t.OA) (hts : TimeOk t.SCTS) (hud : UdOk t)
    (hm : t.MarshalBinary = .ok (p ++ q)) : ({ Direction := MT } : TPDU).UnmarshalBinary p ≠ .ok t1 := by
  intro h1
  obtain ⟨oa, ha, ha'⟩ := addr_rt _ hoa
  obtain ⟨ts, hv, hl, hv'⟩ := time_rt _ hts
  obtain ⟨ud, hu, _⟩ := ud_roundtrip t
    { Direction := MT, FirstOctet := t.FirstOctet, DCS := t.DCS } hud rfl rfl rfl rfl
  have hst : t.SmsType = SmsDeliver := by rw [smsType_of t _ _ hmti hdir]; decide
  have hst' : ({ Direction := MT, FirstOctet := t.FirstOctet } : TPDU).SmsType = SmsDeliver :=
    (smsType_of { Direction := MT, FirstOctet := t.FirstOctet } 0 MT hmti rfl).trans (by decide)
  have hm' := marshal_Deliver t hst _ (deliver_bytes t oa ts ud ha hv hu)
  rw [hm] at hm'
  cases p with
  | nil => cases h1
  | cons fo b =>
    simp only [List.cons_append, Except.ok.injEq, List.cons.injEq] at hm'
    obtain ⟨rfl, hb⟩ := hm'
    rw [unmarshal_Deliver _ _ hst', wrapD_eq_ok] at h1
    obtain ⟨oa1, n, pid, dcs, ts1, a1, a2, a3, a4, a5, a6⟩ := deliver_parts _ _ _ h1
    have x2 := address_ext _ q _ a1
    rw [hb, ha' (t.PID :: t.DCS :: (ts ++ ud))] at x2
    cases x2
    have e6 : oa ++ t.PID :: t.DCS :: (ts ++ ud) = (oa ++ t.PID :: t.DCS :: ts) ++ ud := by simp
    rw [e6] at hb
    obtain ⟨s, rfl, hs⟩ := prefix_cases hb (by simp [hl] at a5 ⊢; omega)
    have e7 : ((oa ++ t.PID :: t.DCS :: ts) ++ s).drop (oa.length + 2 + 7) = s :=
      List.drop_left' (by simp [hl])
    rw [e7] at a6
    have x4 : dcs = t.DCS := by
      have : ((oa ++ t.PID :: t.DCS :: ts) ++ s)[oa.length + 1]? = some t.DCS := by
        have e : (oa ++ t.PID :: t.DCS :: ts) ++ s = (oa ++ [t.PID]) ++ t.DCS :: (ts ++ s) := by simp
        rw [e]; exact getElem?_mid _ _ _ _ (by simp)
      rw [this] at a3; cases a3; rfl
    rw [← hs] at hu
    refine ud_cut t _ t1 s q hq hud ?_ ?_ ?_ ?_ hu a6
    · exact x4
    · rfl
    · rfl
    · rfl

end Verif.Proofs
