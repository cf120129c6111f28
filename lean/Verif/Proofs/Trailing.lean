import Verif.Proofs.Prefix
import Verif.Proofs.Keeps
import Verif.Spec.Trailing

/-! What Unmarshal does with octets that follow an accepted TPDU. -/

namespace Verif.Proofs
open Verif.Model Verif.Spec Verif.Model.TPDU
open Verif.Spec.Trailing (octet)

theorem octet_of {p : Bytes} {i : Nat} {b : UInt8} (h : p[i]? = some b) : octet p i = b.toNat := by
  unfold octet; rw [h]; rfl

theorem readAt_append {f : String} {src : Bytes} {ri : Nat} {b : UInt8} (q : Bytes) (h : readAt f src ri = .ok b) :
    readAt f (src ++ q) ri = .ok b := by
  unfold readAt at h ⊢
  split at h
  · cases h
  · rw [if_neg (by simp; omega), idx_append_left _ _ _ (by omega)]; exact h

theorem slice_to_end (src q : Bytes) (a : Nat) (h : a ≤ src.length) :
    slice (src ++ q) (a : Int) ((src ++ q).length : Int) = .ok (src.drop a ++ q) := by
  rw [slice_ok _ _ _ (by simp; omega) (Nat.le_refl _), List.take_length, drop_ext h]

theorem decodeUserData_zero (t : TPDU) (s : Bytes) (h : s.head? = some 0) : t.decodeUserData s = .ok t := by
  cases s with
  | nil => cases h
  | cons l s => cases h; rfl

/-- What is accepted as user data with octets appended. -/
theorem decodeUserData_append (t t1 : TPDU) (s q : Bytes) (hq : q ≠ []) (h1 : t.decodeUserData s = .ok t1) :
    (∀ t2, t.decodeUserData (s ++ q) = .ok t2 ↔ s.head? = some 0 ∧ t2 = t1) := by
  intro t2
  constructor
  · intro h2
    obtain ⟨a, b, c⟩ := decodeUserData_ext t t1 t2 s q hq h1 h2
    exact ⟨a, c.trans b.symm⟩
  · rintro ⟨a, rfl⟩
    rw [decodeUserData_zero t s a] at h1
    rw [← h1]
    apply decodeUserData_zero
    cases s with
    | nil => cases a
    | cons l s => exact a

theorem address_len (s : Bytes) (r : Address × Nat) (h : Address.UnmarshalBinary s = .ok r) :
    r.2 = 2 + (octet s 0 + 1) / 2 ∧ r.2 ≤ s.length := by
  unfold Address.UnmarshalBinary at h
  split at h
  · cases h
  next h2 =>
  obtain ⟨l, hl, h⟩ := bind_eq_ok.mp h
  obtain ⟨toa, ht, h⟩ := bind_eq_ok.mp h
  have hl' : s[0]? = some l := idx_eq_ok (i := 0) hl
  rw [octet_of hl']
  simp only at h
  split at h
  · cases h
  next h3 =>
  split at h
  · obtain ⟨_, _, h⟩ := bind_eq_ok.mp h
    split at h <;>
    · obtain ⟨_, _, h⟩ := bind_eq_ok.mp h
      obtain ⟨_, _, h⟩ := bind_eq_ok.mp h
      cases h
      exact ⟨rfl, by omega⟩
  · obtain ⟨_, _, h⟩ := bind_eq_ok.mp h
    obtain ⟨d, _, h⟩ := bind_eq_ok.mp h
    split at h
    · cases h
    · split at h
      · cases h
      · next hd =>
        cases h
        have : d.read = (l.toNat + 1) / 2 := by
          by_cases e : d.read = (l.toNat + 1) / 2
          · exact e
          · exact absurd (.inl e) hd
        simp only [this]
        exact ⟨trivial, by omega⟩

theorem vpf_div (f : UInt8) : (FirstOctet.VPF f).toNat = f.toNat / 8 % 4 := by
  revert f; apply forall_u8; decide +kernel

theorem vp_len (v : ValidityPeriod) (s : Bytes) (f : UInt8) (r : ValidityPeriod × Nat)
    (h : v.UnmarshalBinary s (FirstOctet.VPF f) = .ok r) :
    r.2 = (match f.toNat / 8 % 4 with | 0 => 0 | 2 => 1 | _ => 7) := by
  rw [← vpf_div]
  unfold ValidityPeriod.UnmarshalBinary at h
  simp only at h
  split at h
  · next e =>
    obtain ⟨_, _, h⟩ := bind_eq_ok.mp h
    cases h; rw [e]; rfl
  split at h
  · next e =>
    obtain ⟨x, hx, h⟩ := bind_eq_ok.mp h
    cases h
    rw [e]
    unfold ValidityPeriod.unmarshalVPEnhanced at hx
    split at hx
    · cases hx
    obtain ⟨_, _, hx⟩ := bind_eq_ok.mp hx
    obtain ⟨_, _, hx⟩ := bind_eq_ok.mp hx
    obtain ⟨_, _, hx⟩ := bind_eq_ok.mp hx
    cases hx
    rfl
  split at h
  · next e =>
    split at h
    · cases h
    obtain ⟨_, _, h⟩ := bind_eq_ok.mp h
    cases h; rw [e]; rfl
  split at h
  · next e => cases h; rw [e]; rfl
  · cases h

/-- The user data of `src` start at `k`: everything before is read alike whatever follows. -/
def Split (f : Bytes → M TPDU) (src : Bytes) (k : Nat) : Prop :=
  ∃ t0 : TPDU, k ≤ src.length ∧ ∀ q, ∃ i, f (src ++ q) = wrapD "ud" i (t0.decodeUserData (src.drop k ++ q))

/-- Whatever follows the first `k` octets is ignored. -/
def Ignores (f : Bytes → M TPDU) (src : Bytes) (k : Nat) : Prop := k ≤ src.length ∧ ∀ q, f (src ++ q) = f src

theorem split_append {f : Bytes → M TPDU} {src : Bytes} {k : Nat} (h : Split f src k) (t1 t2 : TPDU) (q : Bytes) (hq : q ≠ [])
    (h1 : f src = .ok t1) : f (src ++ q) = .ok t2 ↔ src[k]? = some 0 ∧ t2 = t1 := by
  obtain ⟨t0, hk, h⟩ := h
  obtain ⟨i, hi⟩ := h []
  simp only [List.append_nil] at hi
  rw [h1] at hi
  have hi := wrapD_eq_ok.1 hi.symm
  obtain ⟨j, hj⟩ := h q
  rw [hj, wrapD_eq_ok, decodeUserData_append _ _ _ q hq hi, List.head?_drop]

theorem submit_split (t t' : TPDU) (src : Bytes) (h : t.unmarshalSubmit src = .ok t') :
    Split t.unmarshalSubmit src (1 + (2 + (octet src 1 + 1) / 2) + 2 +
      (match t.FirstOctet.toNat / 8 % 4 with | 0 => 0 | 2 => 1 | _ => 7)) := by
  unfold unmarshalSubmit at h
  obtain ⟨mr, hmr, h⟩ := bind_eq_ok.mp h
  obtain ⟨s, hs, h⟩ := bind_eq_ok.mp h
  obtain ⟨r, hda, h⟩ := bind_eq_ok.mp h
  obtain ⟨da, n⟩ := r
  obtain ⟨pid, hpid, h⟩ := bind_eq_ok.mp h
  obtain ⟨dcs, hdcs, h⟩ := bind_eq_ok.mp h
  obtain ⟨s', hs', h⟩ := bind_eq_ok.mp h
  obtain ⟨r, hvp, h⟩ := bind_eq_ok.mp h
  obtain ⟨vp, m⟩ := r
  obtain ⟨s'', hs'', h⟩ := bind_eq_ok.mp h
  obtain ⟨l1, _, rfl⟩ := slice_eq_ok hs
  obtain ⟨l2, _, rfl⟩ := slice_eq_ok hs'
  obtain ⟨l3, _, rfl⟩ := slice_eq_ok hs''
  rw [List.take_length] at hda hvp h
  rw [wrapD_eq_ok] at hda hvp h
  have ha := (address_len _ _ hda).1
  have hv := vp_len _ _ _ _ hvp
  have e0 : octet (src.drop 1) 0 = octet src 1 := by unfold octet; rw [List.getElem?_drop]
  rw [e0] at ha
  refine ⟨{ t with MR := mr, DA := da, PID := pid, DCS := dcs, VP := vp }, ?_, ?_⟩
  · rw [← ha, ← hv]; exact (by omega : 1 + n + 2 + m ≤ src.length)
  · intro q
    refine ⟨1 + n + 1 + 1 + m, ?_⟩
    unfold unmarshalSubmit
    rw [readAt_append q hmr]
    have z := slice_to_end src q 1 l1
    rw [ok_bind]
    simp only [z, ok_bind, address_ext _ q _ hda, wrapD_ok]
    rw [readAt_append q hpid]
    simp only [ok_bind]
    rw [readAt_append q hdcs]
    simp only [ok_bind]
    rw [slice_to_end src q _ l2]
    simp only [ok_bind, vp_ext _ _ q _ _ hvp, wrapD_ok]
    rw [slice_to_end src q _ l3]
    simp only [ok_bind]
    rw [← ha, ← hv]

theorem deliver_split (t t' : TPDU) (src : Bytes) (h : t.unmarshalDeliver src = .ok t') :
    Split t.unmarshalDeliver src ((2 + (octet src 0 + 1) / 2) + 2 + 7) := by
  obtain ⟨oa, n, pid, dcs, ts, a1, a2, a3, a4, a5, a6⟩ := deliver_parts t t' src h
  have ha := (address_len _ _ a1).1
  simp only at ha
  rw [← ha]
  refine ⟨{ t with OA := oa, PID := pid, DCS := dcs, SCTS := ts }, by omega, ?_⟩
  intro q
  have d0 : src.drop n = pid :: dcs :: src.drop (n + 2) := by
    rw [List.drop_eq_getElem_cons (by omega), List.drop_eq_getElem_cons (by omega)]
    rw [List.getElem?_eq_getElem (by omega)] at a2 a3
    cases a2; cases a3; rfl
  unfold unmarshalDeliver
  rw [address_ext _ q _ a1]
  simp only [wrapD_ok, ok_bind]
  rw [slice_to_end src q n (by omega), d0]
  simp only [ok_bind, List.cons_append, readByte, wrapD_ok]
  rw [timestamp_ext _ q _ a4]
  simp only [wrapD_ok, ok_bind]
  rw [drop_ext (by simp; omega), List.drop_drop]
  exact ⟨_, rfl⟩

theorem command_split (t t' : TPDU) (src : Bytes) (h : t.unmarshalCommand src = .ok t') :
    Split t.unmarshalCommand src (4 + (2 + (octet src 4 + 1) / 2)) := by
  unfold unmarshalCommand at h
  obtain ⟨⟨mr, b1⟩, h1, h⟩ := bind_eq_ok.mp h
  obtain ⟨⟨pid, b2⟩, h2, h⟩ := bind_eq_ok.mp h
  obtain ⟨⟨ct, b3⟩, h3, h⟩ := bind_eq_ok.mp h
  obtain ⟨⟨mn, b4⟩, h4, h⟩ := bind_eq_ok.mp h
  obtain ⟨⟨da, n⟩, h5, h⟩ := bind_eq_ok.mp h
  rw [wrapD_eq_ok] at h1 h2 h3 h4 h5 h
  have e1 := readByte_eq_ok h1
  have e2 := readByte_eq_ok h2
  have e3 := readByte_eq_ok h3
  have e4 := readByte_eq_ok h4
  simp only at e1 e2 e3 e4
  subst e4 e3 e2 e1
  obtain ⟨ha, hl⟩ := address_len _ _ h5
  simp only at ha hl
  have e0 : octet (mr :: pid :: ct :: mn :: b4) 4 = octet b4 0 := rfl
  rw [e0, ← ha]
  refine ⟨{ t with MR := mr, PID := pid, CT := ct, MN := mn, DA := da, DCS := DCS.Dcs8BitData }, by simp; omega, ?_⟩
  intro q
  unfold unmarshalCommand
  simp only [List.cons_append, readByte, wrapD_ok, ok_bind]
  rw [address_ext _ q _ h5]
  simp only [wrapD_ok, ok_bind]
  rw [drop_ext hl, show (4 + n) = n + 4 by omega]
  exact ⟨_, rfl⟩

theorem pi_div (p : UInt8) : (PI.PID p = true ↔ p.toNat % 2 = 1) ∧ (PI.DCS p = true ↔ p.toNat / 2 % 2 = 1) ∧
    (PI.UDL p = true ↔ p.toNat / 4 % 2 = 1) := by
  revert p; apply forall_u8; decide +kernel

/-- The optional part: either there is a user data length, or what follows is ignored. -/
theorem optionals_split (t t' : TPDU) (src : Bytes) (ri : Nat) (hri : ri ≤ src.length) (h : t.unmarshalOptionals src ri = .ok t') :
    if t.PI.toNat / 4 % 2 = 1 then
      Split (fun s => t.unmarshalOptionals s ri) src (ri + (t.PI.toNat % 2 + t.PI.toNat / 2 % 2))
    else Ignores (fun s => t.unmarshalOptionals s ri) src (ri + (t.PI.toNat % 2 + t.PI.toNat / 2 % 2)) := by
  obtain ⟨p1, p2, p3⟩ := pi_div t.PI
  have b1 : t.PI.toNat % 2 < 2 := Nat.mod_lt _ (by omega)
  have b2 : t.PI.toNat / 2 % 2 < 2 := Nat.mod_lt _ (by omega)
  unfold unmarshalOptionals at h
  obtain ⟨⟨t1, r1⟩, h1, h⟩ := bind_eq_ok.mp h
  obtain ⟨⟨t2, r2⟩, h2, h⟩ := bind_eq_ok.mp h
  simp only at h1 h2 h
  have q1 : t1.PI = t.PI ∧ r1 = ri + t.PI.toNat % 2 ∧ r1 ≤ src.length ∧ ∀ q, (if PI.PID t.PI = true then do
      let b ← readAt "pid" (src ++ q) ri
      return ({ t with PID := b }, ri + 1)
    else .ok (t, ri) : M (TPDU × Nat)) = .ok (t1, r1) := by
    split at h1
    · next hp =>
      obtain ⟨b, hb, h1⟩ := bind_eq_ok.mp h1
      cases h1
      have := (List.getElem?_eq_some_iff.1 (readAt_eq_ok hb)).1
      refine ⟨rfl, by have := p1.1 hp; omega, by omega, fun q => ?_⟩
      rw [if_pos hp, readAt_append q hb]; rfl
    · next hp =>
      cases h1
      refine ⟨rfl, ?_, hri, fun q => by rw [if_neg hp]⟩
      have : ¬ t.PI.toNat % 2 = 1 := fun e => hp (p1.2 e)
      omega
  obtain ⟨pi1, e1, le1, f1⟩ := q1
  have q2 : t2.PI = t.PI ∧ r2 = r1 + t.PI.toNat / 2 % 2 ∧ r2 ≤ src.length ∧ ∀ q, (if PI.DCS t1.PI = true then do
      let b ← readAt "dcs" (src ++ q) r1
      return ({ t1 with DCS := b }, r1 + 1)
    else .ok (t1, r1) : M (TPDU × Nat)) = .ok (t2, r2) := by
    split at h2
    · next hp =>
      obtain ⟨b, hb, h2⟩ := bind_eq_ok.mp h2
      cases h2
      have := (List.getElem?_eq_some_iff.1 (readAt_eq_ok hb)).1
      refine ⟨pi1, by have := p2.1 (pi1 ▸ hp); omega, by omega, fun q => ?_⟩
      rw [if_pos hp, readAt_append q hb]; rfl
    · next hp =>
      cases h2
      refine ⟨pi1, ?_, le1, fun q => by rw [if_neg hp]⟩
      have : ¬ t.PI.toNat / 2 % 2 = 1 := fun e => hp (pi1 ▸ p2.2 e)
      omega
  obtain ⟨pi2, e2, le2, f2⟩ := q2
  have main : ∀ q, t.unmarshalOptionals (src ++ q) ri = if PI.UDL t.PI = true then
      wrapD "ud" r2 (t2.decodeUserData (src.drop r2 ++ q)) else .ok t2 := by
    intro q
    unfold unmarshalOptionals
    rw [f1 q]
    simp only [ok_bind]
    rw [f2 q]
    simp only [ok_bind, pi2]
    split
    · rw [slice_to_end src q r2 le2]; rfl
    · rfl
  split
  · next hu =>
    refine ⟨t2, by omega, fun q => ⟨r2, ?_⟩⟩
    show t.unmarshalOptionals (src ++ q) ri = _
    rw [main q, if_pos (p3.2 hu), e2, e1, Nat.add_assoc]
  · next hu =>
    refine ⟨by omega, ?_⟩
    intro q
    have := main []
    rw [List.append_nil] at this
    show t.unmarshalOptionals (src ++ q) ri = t.unmarshalOptionals src ri
    rw [main q, this, if_neg (fun e => hu (p3.1 e)), if_neg (fun e => hu (p3.1 e))]

theorem deliverReport_split (t t' : TPDU) (src : Bytes) (h : t.unmarshalDeliverReport src = .ok t') :
    if octet src 1 / 4 % 2 = 1 then Split t.unmarshalDeliverReport src (2 + (octet src 1 % 2 + octet src 1 / 2 % 2))
    else Ignores t.unmarshalDeliverReport src (2 + (octet src 1 % 2 + octet src 1 / 2 % 2)) := by
  unfold unmarshalDeliverReport at h
  obtain ⟨fcs, hf, h⟩ := bind_eq_ok.mp h
  obtain ⟨pi, hp, h⟩ := bind_eq_ok.mp h
  have hp' := readAt_eq_ok hp
  have hl := (List.getElem?_eq_some_iff.1 hp').1
  have key := optionals_split _ _ src 2 (by omega) h
  rw [octet_of hp']
  simp only at key
  have e : ∀ q, t.unmarshalDeliverReport (src ++ q) =
      ({ t with FCS := fcs, PI := pi } : TPDU).unmarshalOptionals (src ++ q) 2 := by
    intro q
    unfold unmarshalDeliverReport
    rw [readAt_append q hf]
    simp only [ok_bind]
    rw [readAt_append q hp]
    simp only [ok_bind]
  split
  · next hu =>
    rw [if_pos hu] at key
    obtain ⟨t0, k0, key⟩ := key
    exact ⟨t0, k0, fun q => by rw [e q]; exact key q⟩
  · next hu =>
    rw [if_neg hu] at key
    refine ⟨key.1, ?_⟩
    intro q
    have := e []
    rw [List.append_nil] at this
    rw [e q, this]; exact key.2 q

theorem submitReport_split (t t' : TPDU) (src : Bytes) (h : t.unmarshalSubmitReport src = .ok t') :
    if octet src 1 / 4 % 2 = 1 then Split t.unmarshalSubmitReport src (2 + 7 + (octet src 1 % 2 + octet src 1 / 2 % 2))
    else Ignores t.unmarshalSubmitReport src (2 + 7 + (octet src 1 % 2 + octet src 1 / 2 % 2)) := by
  unfold unmarshalSubmitReport at h
  obtain ⟨fcs, hf, h⟩ := bind_eq_ok.mp h
  obtain ⟨pi, hp, h⟩ := bind_eq_ok.mp h
  have hp' := readAt_eq_ok hp
  simp only at h
  split at h
  · cases h
  next hl =>
  obtain ⟨s, hs, h⟩ := bind_eq_ok.mp h
  obtain ⟨ts, hts, h⟩ := bind_eq_ok.mp h
  have key := optionals_split _ _ src (2 + 7) (by omega) h
  rw [octet_of hp']
  simp only at key
  have e : ∀ q, t.unmarshalSubmitReport (src ++ q) =
      ({ t with FCS := fcs, PI := pi, SCTS := ts } : TPDU).unmarshalOptionals (src ++ q) (2 + 7) := by
    intro q
    unfold unmarshalSubmitReport
    rw [readAt_append q hf]
    simp only [ok_bind]
    rw [readAt_append q hp]
    simp only [ok_bind]
    rw [if_neg (by simp; omega), slice_append_left src q _ _ (by omega) (by omega), hs]
    simp only [ok_bind]
    rw [hts]
    rfl
  split
  · next hu =>
    rw [if_pos hu] at key
    obtain ⟨t0, k0, key⟩ := key
    exact ⟨t0, k0, fun q => by rw [e q]; exact key q⟩
  · next hu =>
    rw [if_neg hu] at key
    refine ⟨key.1, ?_⟩
    intro q
    have := e []
    rw [List.append_nil] at this
    rw [e q, this]; exact key.2 q

/-- The octets every accepted status report has. -/
theorem statusReport_len (t t' : TPDU) (src : Bytes) (h : t.unmarshalStatusReport src = .ok t') :
    1 + (2 + (octet src 1 + 1) / 2) + 7 + 7 + 1 ≤ src.length := by
  unfold unmarshalStatusReport at h
  obtain ⟨mr, hmr, h⟩ := bind_eq_ok.mp h
  obtain ⟨s, hs, h⟩ := bind_eq_ok.mp h
  obtain ⟨l1, _, rfl⟩ := slice_eq_ok hs
  obtain ⟨⟨ra, n⟩, hra, h⟩ := bind_eq_ok.mp h
  rw [List.take_length, wrapD_eq_ok] at hra
  have ha := (address_len _ _ hra).1
  have e0 : octet (src.drop 1) 0 = octet src 1 := by unfold octet; rw [List.getElem?_drop]
  simp only [e0] at ha
  rw [← ha]
  simp only at h
  split at h
  · cases h
  obtain ⟨s1, hs1, h⟩ := bind_eq_ok.mp h
  obtain ⟨ts, hts, h⟩ := bind_eq_ok.mp h
  split at h
  · cases h
  obtain ⟨s2, hs2, h⟩ := bind_eq_ok.mp h
  obtain ⟨dt, hdt, h⟩ := bind_eq_ok.mp h
  obtain ⟨st, hst, h⟩ := bind_eq_ok.mp h
  exact (List.getElem?_eq_some_iff.1 (readAt_eq_ok hst)).1

/-- A status report with a parameter indicator. -/
theorem statusReport_split (t t' : TPDU) (src : Bytes) (h : t.unmarshalStatusReport src = .ok t')
    (hlen : 1 + (2 + (octet src 1 + 1) / 2) + 7 + 7 + 1 < src.length) :
    if octet src (1 + (2 + (octet src 1 + 1) / 2) + 7 + 7 + 1) / 4 % 2 = 1 then
      Split t.unmarshalStatusReport src (1 + (2 + (octet src 1 + 1) / 2) + 7 + 7 + 1 + 1 +
        (octet src (1 + (2 + (octet src 1 + 1) / 2) + 7 + 7 + 1) % 2 + octet src (1 + (2 + (octet src 1 + 1) / 2) + 7 + 7 + 1) / 2 % 2))
    else Ignores t.unmarshalStatusReport src (1 + (2 + (octet src 1 + 1) / 2) + 7 + 7 + 1 + 1 +
        (octet src (1 + (2 + (octet src 1 + 1) / 2) + 7 + 7 + 1) % 2 + octet src (1 + (2 + (octet src 1 + 1) / 2) + 7 + 7 + 1) / 2 % 2)) := by
  unfold unmarshalStatusReport at h
  obtain ⟨mr, hmr, h⟩ := bind_eq_ok.mp h
  obtain ⟨s, hs, h⟩ := bind_eq_ok.mp h
  obtain ⟨l1, _, rfl⟩ := slice_eq_ok hs
  obtain ⟨⟨ra, n⟩, hra, h⟩ := bind_eq_ok.mp h
  rw [List.take_length, wrapD_eq_ok] at hra
  have ha := (address_len _ _ hra).1
  have e0 : octet (src.drop 1) 0 = octet src 1 := by unfold octet; rw [List.getElem?_drop]
  simp only [e0] at ha
  rw [← ha] at hlen ⊢
  simp only at h
  split at h
  · cases h
  next g1 =>
  obtain ⟨s1, hs1, h⟩ := bind_eq_ok.mp h
  obtain ⟨ts, hts, h⟩ := bind_eq_ok.mp h
  split at h
  · cases h
  next g2 =>
  obtain ⟨s2, hs2, h⟩ := bind_eq_ok.mp h
  obtain ⟨dt, hdt, h⟩ := bind_eq_ok.mp h
  obtain ⟨st, hst, h⟩ := bind_eq_ok.mp h
  obtain ⟨pi, hpi, h⟩ := bind_eq_ok.mp h
  have hp' := idx_eq_ok hpi
  have key := optionals_split _ _ src _ (by omega) h
  rw [octet_of hp']
  simp only at key
  have e : ∀ q, t.unmarshalStatusReport (src ++ q) =
      ({ t with MR := mr, RA := ra, SCTS := ts, DT := dt, ST := st, PI := pi } : TPDU).unmarshalOptionals (src ++ q)
        (1 + n + 7 + 7 + 1 + 1) := by
    intro q
    unfold unmarshalStatusReport
    have z := slice_to_end src q 1 l1
    rw [readAt_append q hmr, ok_bind]
    simp only [z, ok_bind, address_ext _ q _ hra, wrapD_ok]
    rw [if_neg (by simp; omega), slice_append_left src q _ _ (by omega) (by omega), hs1]
    simp only [ok_bind]
    rw [hts]
    simp only [ok_bind]
    rw [if_neg (by simp; omega), slice_append_left src q _ _ (by omega) (by omega), hs2]
    simp only [ok_bind]
    rw [hdt]
    simp only [ok_bind]
    rw [readAt_append q hst]
    simp only [ok_bind]
    rw [if_pos (by simp; omega), idx_append_left _ _ _ hlen, hpi]
    rfl
  split
  · next hu =>
    rw [if_pos hu] at key
    obtain ⟨t0, k0, key⟩ := key
    exact ⟨t0, k0, fun q => by rw [e q]; exact key q⟩
  · next hu =>
    rw [if_neg hu] at key
    refine ⟨key.1, ?_⟩
    intro q
    have := e []
    rw [List.append_nil] at this
    rw [e q, this]; exact key.2 q

/-- What the optional part sets. -/
def OptKept (t t' : TPDU) : Prop := t' = { t with PID := t'.PID, DCS := t'.DCS, UDH := t'.UDH, UD := t'.UD }

theorem optKept_decodeUserData (t : TPDU) (src : Bytes) : Post (t.decodeUserData src) (OptKept t) := by
  unfold TPDU.decodeUserData
  split
  · exact .fail
  refine Post.bind ?_; intro _
  repeat' (first | exact .fail | exact .ok rfl | split | (refine Post.bind ?_; intro _) | simp only)

theorem optKept_optionals (t : TPDU) (src : Bytes) (ri : Nat) : Post (t.unmarshalOptionals src ri) (OptKept t) := by
  unfold TPDU.unmarshalOptionals
  refine Post.bind' (Q := fun x => OptKept t x.1) ?_ ?_
  · split
    · refine Post.bind ?_; intro _; exact .ok rfl
    · exact .ok rfl
  rintro ⟨t1, r1⟩ h1
  refine Post.bind' (Q := fun x => OptKept t x.1) ?_ ?_
  · split
    · refine Post.bind ?_; intro b; refine .ok ?_
      unfold OptKept at h1 ⊢; simp only at h1 ⊢; rw [h1]
    · exact .ok h1
  rintro ⟨t2, r2⟩ h2
  simp only
  split
  · refine Post.bind ?_; intro _
    apply Post.wrapD
    intro t' ht
    have h3 := optKept_decodeUserData _ _ t' ht
    unfold OptKept at h2 h3 ⊢
    simp only at h2 h3
    rw [h2] at h3
    exact h3
  · exact .ok h2

theorem statusReport_bare (t0 t t' : TPDU) (src : Bytes) (x : UInt8) (q : Bytes)
    (h0 : t0 = { Direction := t0.Direction, FirstOctet := t0.FirstOctet })
    (h : t0.unmarshalStatusReport src = .ok t) (hlen : src.length ≤ 1 + (2 + (octet src 1 + 1) / 2) + 7 + 7 + 1)
    (h' : t0.unmarshalStatusReport (src ++ x :: q) = .ok t') :
    t' = { t with PI := x, PID := t'.PID, DCS := t'.DCS, UDH := t'.UDH, UD := t'.UD } ∧ t.PI = 0 ∧ t.PID = 0 ∧ t.DCS = 0 ∧ t.UDH = [] ∧
      t.UD = [] := by
  unfold unmarshalStatusReport at h
  obtain ⟨mr, hmr, h⟩ := bind_eq_ok.mp h
  obtain ⟨s, hs, h⟩ := bind_eq_ok.mp h
  obtain ⟨l1, _, rfl⟩ := slice_eq_ok hs
  obtain ⟨⟨ra, n⟩, hra, h⟩ := bind_eq_ok.mp h
  rw [List.take_length, wrapD_eq_ok] at hra
  have ha := (address_len _ _ hra).1
  have e0 : octet (src.drop 1) 0 = octet src 1 := by unfold octet; rw [List.getElem?_drop]
  simp only [e0] at ha
  rw [← ha] at hlen
  simp only at h
  split at h
  · cases h
  next g1 =>
  obtain ⟨s1, hs1, h⟩ := bind_eq_ok.mp h
  obtain ⟨ts, hts, h⟩ := bind_eq_ok.mp h
  split at h
  · cases h
  next g2 =>
  obtain ⟨s2, hs2, h⟩ := bind_eq_ok.mp h
  obtain ⟨dt, hdt, h⟩ := bind_eq_ok.mp h
  obtain ⟨st, hst, h⟩ := bind_eq_ok.mp h
  have hl := (List.getElem?_eq_some_iff.1 (readAt_eq_ok hst)).1
  rw [if_neg (by omega)] at h
  cases h
  have hlen' : src.length = 1 + n + 7 + 7 + 1 := by omega
  unfold unmarshalStatusReport at h'
  have z := slice_to_end src (x :: q) 1 l1
  rw [readAt_append (x :: q) hmr, ok_bind] at h'
  simp only [z, ok_bind, address_ext _ (x :: q) _ hra, wrapD_ok] at h'
  rw [if_neg (by simp; omega), slice_append_left src (x :: q) _ _ (by omega) (by omega), hs1] at h'
  simp only [ok_bind] at h'
  rw [hts] at h'
  simp only [ok_bind] at h'
  rw [if_neg (by simp; omega), slice_append_left src (x :: q) _ _ (by omega) (by omega), hs2] at h'
  simp only [ok_bind] at h'
  rw [hdt] at h'
  simp only [ok_bind] at h'
  rw [readAt_append (x :: q) hst] at h'
  simp only [ok_bind] at h'
  rw [if_pos (by simp; omega)] at h'
  obtain ⟨pi, hpi, h'⟩ := bind_eq_ok.mp h'
  have hpi' := idx_eq_ok hpi
  rw [List.getElem?_append_right (by omega), hlen', Nat.sub_self] at hpi'
  cases hpi'
  have k := optKept_optionals _ _ _ t' h'
  refine ⟨k, ?_⟩
  rw [h0]
  exact ⟨rfl, rfl, rfl, rfl, rfl⟩

end Verif.Proofs
