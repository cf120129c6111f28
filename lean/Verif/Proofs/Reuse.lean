import Verif.Spec.Reuse
import Verif.Proofs.Tpdu

/-! Decoding into a used TPDU compared with decoding into a new one. -/

namespace Verif.Proofs
open Verif.Model Verif.Spec

/-- The same failure, or results that are related. -/
def Alike {α β : Type} (m : M α) (m' : M β) (R : α → β → Prop) : Prop :=
  (∃ e, m = .error e ∧ m' = .error e) ∨ ∃ a b, m = .ok a ∧ m' = .ok b ∧ R a b

theorem Alike.ok {α β : Type} {a : α} {b : β} {R : α → β → Prop} (h : R a b) : Alike (.ok a) (.ok b) R := .inr ⟨a, b, rfl, rfl, h⟩
theorem Alike.error {α β : Type} {R : α → β → Prop} (e : Fault) : Alike (.error e : M α) (.error e : M β) R := .inl ⟨e, rfl, rfl⟩
theorem Alike.same {α : Type} (m : M α) : Alike m m (fun a b => a = b ∧ m = .ok a) := by
  rcases m with e | a
  · exact .error e
  · exact .ok ⟨rfl, rfl⟩

theorem Alike.bind {α β γ δ : Type} {m : M α} {m' : M β} {R : α → β → Prop} {f : α → M γ} {f' : β → M δ} {S : γ → δ → Prop}
    (h : Alike m m' R) (hf : ∀ a b, R a b → Alike (f a) (f' b) S) : Alike (m >>= f) (m' >>= f') S := by
  rcases h with ⟨e, rfl, rfl⟩ | ⟨a, b, rfl, rfl, hr⟩
  · exact .error e
  · exact hf a b hr

/-- Both begin with the same step. -/
theorem Alike.step {α γ δ : Type} {m : M α} {f : α → M γ} {f' : α → M δ} {S : γ → δ → Prop}
    (hf : ∀ a, m = .ok a → Alike (f a) (f' a) S) : Alike (m >>= f) (m >>= f') S :=
  (Alike.same m).bind fun a b h => by obtain ⟨rfl, h⟩ := h; exact hf a h

theorem Alike.wrapD {α β : Type} {m : M α} {m' : M β} {R : α → β → Prop} (f : String) (o : Nat) (h : Alike m m' R) :
    Alike (wrapD f o m) (wrapD f o m') R := by
  rcases h with ⟨e, rfl, rfl⟩ | ⟨a, b, rfl, rfl, hr⟩
  · rcases e with e | k
    · exact .error _
    · exact .error _
  · exact .ok hr

theorem Alike.mono {α β : Type} {m : M α} {m' : M β} {R S : α → β → Prop} (h : Alike m m' R) (hs : ∀ a b, m = .ok a → m' = .ok b → R a b → S a b) :
    Alike m m' S := by
  rcases h with ⟨e, rfl, rfl⟩ | ⟨a, b, rfl, rfl, hr⟩
  · exact .error e
  · exact .ok (hs a b rfl rfl hr)

theorem udhi_bit (fo : UInt8) : FirstOctet.UDHI fo = fo.toNat.testBit 6 := by
  have : ∀ fo : UInt8, FirstOctet.UDHI fo = fo.toNat.testBit 6 := by apply forall_u8; decide +kernel
  exact this fo

theorem udh_read {s : Bytes} {udh : UDH} {n : Nat} (h : UDH.UnmarshalBinary s = .ok (udh, n)) : n = (s.getD 0 0).toNat + 1 := by
  unfold UDH.UnmarshalBinary at h
  rcases s with _ | ⟨a, s⟩
  · cases h
  · rw [if_neg (by simp)] at h
    simp only [idx_zero_cons, ok_bind] at h
    split at h
    · cases h
    · obtain ⟨_, _, h⟩ := bind_eq_ok.1 h
      cases h; rfl

/-- What `decodeUserData` changes. -/
theorem alike_ud (t t' : TPDU) (hf : t.FirstOctet = t'.FirstOctet) (hd : t.DCS = t'.DCS) (u : Bytes) :
    Alike (t.decodeUserData u) (t'.decodeUserData u) (fun r r' =>
      r = udInto (some u) t r' ∧ r' = { t' with UDH := r'.UDH, UD := r'.UD }) := by
  unfold TPDU.decodeUserData TPDU.Alphabet TPDU.UDHI
  rw [hf, hd]
  split
  · exact .error _
  rename_i hl
  obtain ⟨l, u, rfl⟩ : ∃ l v, u = l :: v := by
    rcases u with _ | ⟨l, v⟩
    · simp at hl
    · exact ⟨l, v, rfl⟩
  simp only [idx_zero_cons, ok_bind]
  by_cases h0 : l.toNat = 0
  · rw [if_pos h0, if_pos h0]
    have : l = 0 := UInt8.toNat_inj.1 h0
    subst this
    refine .ok ⟨?_, rfl⟩
    unfold udInto; simp
  rw [if_neg h0, if_neg h0]
  have hl0 : ¬ (l :: u).getD 0 0 = 0 := by
    intro h; apply h0; have : l = 0 := h; rw [this]; rfl
  rcases DCS.Alphabet t'.DCS with ⟨alphabet, e | _⟩
  case some => exact .error _
  simp only
  have hpos : 0 < (if alphabet = Alphabet.a7Bit then ((if alphabet = Alphabet.a7Bit then l.toNat else 0) * 7 + 7) / 8 else l.toNat) := by
    split <;> omega
  generalize (if alphabet = Alphabet.a7Bit then l.toNat else 0) = sml7 at hpos ⊢
  generalize (if alphabet = Alphabet.a7Bit then (sml7 * 7 + 7) / 8 else l.toNat) = udl at hpos ⊢
  split
  · exact .error _
  split
  · exact .error _
  rename_i hlt hgt
  have hlen : (l :: u).length = 1 + udl := by omega
  refine .step fun p hp => ?_
  obtain ⟨udh, udhl⟩ := p
  simp only
  have key : (t'.FirstOctet.toNat.testBit 6 = true ∧ (l :: u).length = 2 + ((l :: u).getD 1 0).toNat) ↔ 1 + udhl = (l :: u).length := by
    rw [← udhi_bit]
    by_cases hu : FirstOctet.UDHI t'.FirstOctet = true
    · rw [if_pos hu] at hp
      obtain ⟨s, hs, hp⟩ := bind_eq_ok.1 hp
      rw [show slice (l :: u) ((1 : Nat) : Int) ((l :: u).length : Nat) = .ok u from slice_tail l u] at hs
      cases hs
      have hn := udh_read (wrapD_eq_ok.1 hp)
      have : (l :: u).getD 1 0 = u.getD 0 0 := rfl
      rw [this, hn]
      constructor
      · intro h; omega
      · intro h; exact ⟨hu, by omega⟩
    · rw [if_neg hu] at hp
      cases hp
      constructor
      · intro h; exact absurd h.1 hu
      · intro h; omega
  have final : ∀ r' : TPDU, r'.FirstOctet = t'.FirstOctet → udInto (some (l :: u)) t r' =
      if 1 + udhl = (l :: u).length then { t with UDH := r'.UDH } else { t with UDH := r'.UDH, UD := r'.UD } := by
    intro r' hr
    unfold udInto
    simp only
    rw [if_neg hl0, hr]
    by_cases h : 1 + udhl = (l :: u).length
    · rw [if_pos h, if_pos (key.2 h)]
    · rw [if_neg h, if_neg (fun h' => h (key.1 h'))]
  by_cases h : 1 + udhl = (l :: u).length
  · rw [if_pos h, if_pos h]
    refine .ok ⟨?_, rfl⟩
    have := ((final { t' with UDH := udh } rfl).trans (if_pos h)).symm
    rw [hf, hd] at this; exact this
  rw [if_neg h, if_neg h]
  refine .step fun s _ => ?_
  by_cases ha : alphabet = .a7Bit
  · rw [if_pos ha, if_pos ha]
    refine .step fun sm _ => .ok ⟨?_, rfl⟩
    have := ((final { t' with UD := sm, UDH := udh } rfl).trans (if_neg h)).symm
    rw [hf, hd] at this; exact this
  rw [if_neg ha, if_neg ha]
  split
  · exact .error _
  · refine .ok ⟨?_, rfl⟩
    have := ((final { t' with UD := s, UDH := udh } rfl).trans (if_neg h)).symm
    rw [hf, hd] at this; exact this

theorem addr_read {b : Bytes} {a : Address} {n : Nat} (h : Address.UnmarshalBinary b = .ok (a, n)) :
    n = 2 + ((b.getD 0 0).toNat + 1) / 2 ∧ n ≤ b.length := by
  unfold Address.UnmarshalBinary at h
  split at h
  · cases h
  rename_i hl
  obtain ⟨l, b, rfl⟩ : ∃ l v, b = l :: v := by
    rcases b with _ | ⟨l, v⟩
    · simp at hl
    · exact ⟨l, v, rfl⟩
  simp only [idx_zero_cons, ok_bind] at h
  obtain ⟨toa, _, h⟩ := bind_eq_ok.1 h
  split at h
  · cases h
  rename_i hs
  split at h
  · obtain ⟨_, _, h⟩ := bind_eq_ok.1 h
    split at h
    · obtain ⟨_, _, h⟩ := bind_eq_ok.1 h
      obtain ⟨_, _, h⟩ := bind_eq_ok.1 h
      cases h
      exact ⟨rfl, by omega⟩
    · obtain ⟨_, _, h⟩ := bind_eq_ok.1 h
      cases h
      exact ⟨rfl, by omega⟩
  · obtain ⟨_, _, h⟩ := bind_eq_ok.1 h
    obtain ⟨d, _, h⟩ := bind_eq_ok.1 h
    split at h
    · cases h
    split at h
    · cases h
    rename_i hr
    cases h
    have : d.read = (l.toNat + 1) / 2 := by
      apply Decidable.byContradiction; intro h; exact hr (.inl h)
    rw [this]
    exact ⟨rfl, by omega⟩

theorem slice_drop (s : Bytes) (n : Nat) (h : n ≤ s.length) : slice s (n : Int) (s.length : Nat) = .ok (s.drop n) := by
  rw [slice_ok s n s.length h (Nat.le_refl _), List.take_length]

theorem readByte_ok {b : Bytes} {f : String} {o : Nat} {x : UInt8} {b' : Bytes} (h : wrapD f o (TPDU.readByte b) = .ok (x, b')) : b = x :: b' := by
  rw [wrapD_eq_ok] at h
  unfold TPDU.readByte at h
  split at h
  · cases h
  · cases h; rfl

/-- Deliver. -/
theorem alike_deliver (t t' : TPDU) (hf : t.FirstOctet = t'.FirstOctet) (fo : UInt8) (hfo : t'.FirstOctet = fo) (body : Bytes) :
    Alike (t.unmarshalDeliver body) (t'.unmarshalDeliver body) fun r r' => r = into SmsDeliver (fo :: body) t r' := by
  unfold TPDU.unmarshalDeliver
  refine .step fun ⟨oa, n⟩ h1 => ?_
  obtain ⟨hn, hle⟩ := addr_read (wrapD_eq_ok.1 h1)
  simp only
  rw [slice_drop _ _ hle]
  simp only [ok_bind]
  refine .step fun ⟨pid, b1⟩ h2 => .step fun ⟨dcs, b2⟩ h3 => .step fun scts _ => ?_
  have h2 := readByte_ok h2
  have h3 : b1 = dcs :: b2 := readByte_ok h3
  refine .wrapD _ _ (.mono (alike_ud _ _ ?_ ?_ _) fun r r' _ _ h => ?_)
  · exact hf
  · rfl
  obtain ⟨h, h'⟩ := h
  rw [h]
  unfold into udOf
  rw [if_pos rfl, if_pos rfl]
  have hb : (fo :: body).drop (1 + addrOctets (fo :: body) 1 + 2 + 7) = b2.drop 7 := by
    have : b2 = body.drop (n + 2) := by
      rw [← List.drop_drop, h2, h3]; rfl
    rw [this, List.drop_drop, show 1 + addrOctets (fo :: body) 1 + 2 + 7 = (n + 2 + 7) + 1 by rw [hn]; unfold addrOctets; show 1 + (2 + ((body.getD 0 0).toNat + 1) / 2) + 2 + 7 = _; omega]
    rfl
  rw [hb, h', hf, hfo]

theorem drop_cons {b : Bytes} {n : Nat} {x : UInt8} {b' : Bytes} (h : b.drop n = x :: b') : b' = b.drop (n + 1) := by
  rw [← List.drop_drop, h]; rfl

theorem drop_getD (b : Bytes) (n i : Nat) : (b.drop n).getD i 0 = b.getD (n + i) 0 := by
  simp [List.getD_eq_getElem?_getD]

/-- Command. -/
theorem alike_command (t t' : TPDU) (hf : t.FirstOctet = t'.FirstOctet) (fo : UInt8) (hfo : t'.FirstOctet = fo) (body : Bytes) :
    Alike (t.unmarshalCommand body) (t'.unmarshalCommand body) fun r r' => r = into SmsCommand (fo :: body) t r' := by
  unfold TPDU.unmarshalCommand
  refine .step fun ⟨mr, b1⟩ h1 => .step fun ⟨pid, b2⟩ h2 => .step fun ⟨ct, b3⟩ h3 => .step fun ⟨mn, b4⟩ h4 => .step fun ⟨da, n⟩ h5 => ?_
  have h1 : body = mr :: b1 := readByte_ok h1
  have h2 : b1 = pid :: b2 := readByte_ok h2
  have h3 : b2 = ct :: b3 := readByte_ok h3
  have h4 : b3 = mn :: b4 := readByte_ok h4
  obtain ⟨hn, hle⟩ := addr_read (wrapD_eq_ok.1 h5)
  refine .wrapD _ _ (.mono (alike_ud _ _ ?_ ?_ _) fun r r' _ _ h => ?_)
  · exact hf
  · rfl
  obtain ⟨h, h'⟩ := h
  rw [h]
  unfold into udOf
  rw [if_neg (by decide), if_neg (by decide), if_pos rfl, if_neg (by decide), if_neg (by decide), if_pos rfl]
  have hb : (fo :: body).drop (5 + addrOctets (fo :: body) 5) = b4.drop n := by
    rw [h1, h2, h3, h4, hn]
    unfold addrOctets
    rw [show (fo :: mr :: pid :: ct :: mn :: b4).getD 5 0 = b4.getD 0 0 from rfl, Nat.add_comm 5]
    rfl
  rw [hb, h', hf, hfo]

theorem readAt_ok {f : String} {src : Bytes} {i : Nat} {x : UInt8} (h : TPDU.readAt f src i = .ok x) :
    i < src.length ∧ src.getD i 0 = x ∧ src[i]? = some x := by
  unfold TPDU.readAt at h
  split at h
  · cases h
  · rename_i hl
    have hl : i < src.length := by omega
    rw [idx_getElem src i hl] at h
    cases h
    exact ⟨hl, by simp [List.getD_eq_getElem?_getD, hl], by simp [hl]⟩

theorem vpf_octets : ∀ fo : UInt8, (FirstOctet.VPF fo = VpfAbsolute → vpOctets fo = 7) ∧ (FirstOctet.VPF fo = VpfEnhanced → vpOctets fo = 7) ∧
    (FirstOctet.VPF fo = VpfRelative → vpOctets fo = 1) ∧ (FirstOctet.VPF fo = VpfNotPresent → vpOctets fo = 0) := by
  apply forall_u8; decide +kernel

theorem alike_enhanced (v v' : ValidityPeriod) (src : Bytes) :
    Alike (v.unmarshalVPEnhanced src) (v'.unmarshalVPEnhanced src) fun r r' =>
      r.2 = r'.2 ∧ r.2 = 7 ∧ 7 ≤ src.length ∧ r.1 = { v with EFI := r'.1.EFI, Duration := r'.1.Duration } := by
  unfold ValidityPeriod.unmarshalVPEnhanced
  split
  · exact .error _
  refine .step fun efi _ => .step fun ⟨d, used⟩ _ => .step fun _ _ => .ok ?_
  exact ⟨rfl, rfl, by omega, rfl⟩

theorem alike_vp (v v' : ValidityPeriod) (src : Bytes) (fo : UInt8) :
    Alike (v.UnmarshalBinary src (FirstOctet.VPF fo)) (v'.UnmarshalBinary src (FirstOctet.VPF fo)) fun r r' =>
      r.2 = r'.2 ∧ r.2 = vpOctets fo ∧ r.2 ≤ src.length ∧ r.1 = vpInto v r'.1 := by
  obtain ⟨h1, h2, h3, h4⟩ := vpf_octets fo
  unfold ValidityPeriod.UnmarshalBinary
  simp only
  split
  · rename_i hv
    refine .step fun tm ht => .ok ⟨rfl, (h1 hv).symm, ?_, ?_⟩
    · unfold Timestamp.UnmarshalBinary at ht
      split at ht
      · cases ht
      · show 7 ≤ _; omega
    · unfold vpInto; simp only; rw [if_pos hv]
  split
  · rename_i h0 hv
    refine .bind (alike_enhanced _ _ _) fun ⟨a, n⟩ ⟨b, m⟩ ⟨e1, e2, e3, e4⟩ => .ok ⟨e1, e2.trans (h2 hv).symm, ?_, ?_⟩
    · show n ≤ _; have : n = 7 := e2; omega
    · have e4 : a = _ := e4
      unfold vpInto; simp only; rw [if_neg h0, if_pos hv, e4]
  split
  · rename_i h0 h00 hv
    split
    · exact .error _
    refine .step fun b _ => .ok ⟨rfl, (h3 hv).symm, ?_, ?_⟩
    · show 1 ≤ _; omega
    · unfold vpInto; simp only; rw [if_neg h0, if_neg h00, if_pos hv]
  split
  · rename_i h0 h00 h000 hv
    refine .ok ⟨rfl, (h4 hv).symm, Nat.zero_le _, ?_⟩
    unfold vpInto; simp only
    rw [if_neg (by decide), if_neg (by decide), if_neg (by decide)]
  · exact .error _

/-- Submit. -/
theorem alike_submit (t t' : TPDU) (hf : t.FirstOctet = t'.FirstOctet) (fo : UInt8) (hfo : t'.FirstOctet = fo) (body : Bytes) :
    Alike (t.unmarshalSubmit body) (t'.unmarshalSubmit body) fun r r' => r = into SmsSubmit (fo :: body) t r' := by
  unfold TPDU.unmarshalSubmit
  rw [hf, hfo]
  refine .step fun mr h1 => ?_
  obtain ⟨h1, _, _⟩ := readAt_ok h1
  simp only
  rw [slice_drop body 1 (by omega)]
  simp only [ok_bind]
  refine .step fun ⟨da, n⟩ h2 => ?_
  obtain ⟨hn, hle⟩ := addr_read (wrapD_eq_ok.1 h2)
  simp only
  refine .step fun pid h3 => .step fun dcs h4 => ?_
  obtain ⟨h4, _, _⟩ := readAt_ok h4
  rw [slice_drop body _ (by omega)]
  simp only [ok_bind]
  refine .bind (.wrapD _ _ (alike_vp t.VP t'.VP _ fo)) fun ⟨vp, k⟩ ⟨vp', k'⟩ ⟨e1, e2, e3, e4⟩ => ?_
  simp only at e1 e2 e3 e4 ⊢
  subst e1
  rw [List.length_drop] at e3
  rw [slice_drop body _ (by omega)]
  simp only [ok_bind]
  refine .wrapD _ _ (.mono (alike_ud _ _ ?_ ?_ _) fun r r' _ _ h => ?_)
  · rfl
  · rfl
  obtain ⟨h, h'⟩ := h
  rw [h]
  unfold into udOf
  rw [if_neg (by decide), if_pos rfl, if_neg (by decide), if_pos rfl]
  have hb : (fo :: body).drop (2 + addrOctets (fo :: body) 2 + 2 + vpOctets ((fo :: body).getD 0 0)) = body.drop (1 + n + 1 + 1 + k) := by
    rw [hn, drop_getD, e2]
    show (fo :: body).drop (2 + (2 + (((fo :: body).getD (1 + 1) 0).toNat + 1) / 2) + 2 + vpOctets fo) = _
    rw [show ((fo :: body).getD (1 + 1) 0) = body.getD (1 + 0) 0 from rfl,
      show 2 + (2 + ((body.getD (1 + 0) 0).toNat + 1) / 2) + 2 + vpOctets fo = (1 + (2 + ((body.getD (1 + 0) 0).toNat + 1) / 2) + 1 + 1 + vpOctets fo) + 1 by omega]
    rfl
  rw [hb, h', e4]

/-- The optional fields. -/
theorem alike_opt (t t' : TPDU) (hf : t.FirstOctet = t'.FirstOctet) (hd : t'.PI.toNat.testBit 2 = true → t'.PI.toNat.testBit 1 = false → t.DCS = t'.DCS) (hp : t.PI = t'.PI) (src : Bytes) (ri : Nat) (hri : ri ≤ src.length) :
    Alike (t.unmarshalOptionals src ri) (t'.unmarshalOptionals src ri) fun r r' =>
      r = udInto (if t'.PI.toNat.testBit 2 then some (src.drop (ri + (if t'.PI.toNat.testBit 0 then 1 else 0) + (if t'.PI.toNat.testBit 1 then 1 else 0))) else none)
        { t with PID := if t'.PI.toNat.testBit 0 then r'.PID else t.PID, DCS := if t'.PI.toNat.testBit 1 then r'.DCS else t.DCS } r' ∧
      r' = { t' with PID := r'.PID, DCS := r'.DCS, UDH := r'.UDH, UD := r'.UD } := by
  have hb : ∀ p : UInt8, PI.PID p = p.toNat.testBit 0 ∧ PI.DCS p = p.toNat.testBit 1 ∧ PI.UDL p = p.toNat.testBit 2 := by
    apply forall_u8; decide +kernel
  obtain ⟨b0, b1, b2⟩ := hb t'.PI
  obtain ⟨tDirection, tFirstOctet, tOA, tFCS, tMR, tCT, tMN, tDA, tRA, tPI, tSCTS, tDT, tST, tPID, tDCS, tVP, tUDH, tUD⟩ := t
  simp only at hf hd hp
  subst hf hp
  unfold TPDU.unmarshalOptionals
  simp only [b0]
  generalize hp0 : t'.PI.toNat.testBit 0 = p0
  generalize hp1 : t'.PI.toNat.testBit 1 = p1
  rw [hp1] at b1
  rw [hp1] at hd
  -- PID
  refine .bind (R := fun x y => ∃ pid pid' : UInt8, (p0 = true → pid = pid') ∧ (p0 = false → pid = tPID) ∧
    x = ({ t' with Direction := tDirection, OA := tOA, FCS := tFCS, MR := tMR, CT := tCT, MN := tMN, DA := tDA, RA := tRA, SCTS := tSCTS, DT := tDT, ST := tST, PID := pid, DCS := tDCS, VP := tVP, UDH := tUDH, UD := tUD }, ri + if p0 then 1 else 0) ∧
    y = ({ t' with PID := pid' }, ri + if p0 then 1 else 0) ∧ ri + (if p0 then 1 else 0) ≤ src.length) ?_ ?_
  · rcases p0 with _ | _
    · exact .ok ⟨tPID, t'.PID, by simp, by simp, rfl, rfl, hri⟩
    · refine .step fun b hb => .ok ⟨b, b, by simp, by simp, rfl, rfl, ?_⟩
      have := (readAt_ok hb).1
      simp only [↓reduceIte]; omega
  rintro _ _ ⟨pid, pid', hpid, hpid', rfl, rfl, hn⟩
  generalize ri + (if p0 then 1 else 0) = n at hn ⊢
  simp only [b1]
  refine .bind (R := fun x y => ∃ dcs dcs' : UInt8, (p1 = false → dcs = tDCS ∧ dcs' = t'.DCS) ∧ (p1 = true → dcs = dcs') ∧
    x = ({ t' with Direction := tDirection, OA := tOA, FCS := tFCS, MR := tMR, CT := tCT, MN := tMN, DA := tDA, RA := tRA, SCTS := tSCTS, DT := tDT, ST := tST, PID := pid, DCS := dcs, VP := tVP, UDH := tUDH, UD := tUD }, n + if p1 then 1 else 0) ∧
    y = ({ t' with PID := pid', DCS := dcs' }, n + if p1 then 1 else 0) ∧ n + (if p1 then 1 else 0) ≤ src.length) ?_ ?_
  · rcases p1 with _ | _
    · exact .ok ⟨tDCS, t'.DCS, by simp, by simp, rfl, rfl, hn⟩
    · refine .step fun b hb => .ok ⟨b, b, by simp, by simp, rfl, rfl, ?_⟩
      have := (readAt_ok hb).1
      simp only [↓reduceIte]; omega
  rintro _ _ ⟨dcs, dcs', hdcs, hdcs', rfl, rfl, hk⟩
  generalize n + (if p1 then 1 else 0) = k at hk ⊢
  simp only [b2]
  have e0 : (if p0 = true then pid' else tPID) = pid := by
    rcases p0 with _ | _
    · simp [hpid' rfl]
    · simp [hpid rfl]
  have e1 : (if p1 = true then dcs' else tDCS) = dcs := by
    rcases p1 with _ | _
    · simp [(hdcs rfl).1]
    · simp [hdcs' rfl]
  generalize t'.PI.toNat.testBit 2 = p2 at hd
  rcases p2 with _ | _
  · refine .ok ⟨?_, rfl⟩
    unfold udInto
    simp only [e0, e1]
    rfl
  · simp only [↓reduceIte]
    rw [slice_drop _ _ hk]
    simp only [ok_bind]
    refine .wrapD _ _ (.mono (alike_ud _ _ ?_ ?_ _) fun r r' _ _ h => ?_)
    · rfl
    · rcases p1 with _ | _
      · show dcs = dcs'
        rw [(hdcs rfl).1, (hdcs rfl).2]; exact hd rfl rfl
      · exact hdcs' rfl
    obtain ⟨h, h'⟩ := h
    have q1 : r'.PID = pid' := by rw [h']
    have q2 : r'.DCS = dcs' := by rw [h']
    refine ⟨?_, ?_⟩
    · rw [h, q1, q2, e0, e1]
    · rw [q1, q2]; exact h'

theorem announced_eq {st : UInt8} {src : Bytes} {pi : UInt8} (h : piOf st src = some pi) (n : Nat) : announced st src n = pi.toNat.testBit n := by
  unfold announced; rw [h]

theorem announced_none {st : UInt8} {src : Bytes} (h : piOf st src = none) (n : Nat) : announced st src n = false := by
  unfold announced; rw [h]

theorem borrows_of {st : UInt8} {src : Bytes} {pi : UInt8} (h : piOf st src = some pi)
    (hst : (st = SmsDeliverReport || st = SmsSubmitReport || st = SmsStatusReport) = true)
    (h2 : pi.toNat.testBit 2 = true) (h1 : pi.toNat.testBit 1 = false) : borrowsDCS st src = true := by
  unfold borrowsDCS
  rw [announced_eq h, announced_eq h, hst, h2, h1]; rfl

/-- Deliver report. -/
theorem alike_deliverReport (t t' : TPDU) (hf : t.FirstOctet = t'.FirstOctet)  (fo : UInt8) (body : Bytes)
    (hd : borrowsDCS SmsDeliverReport (fo :: body) = true → t.DCS = t'.DCS) :
    Alike (t.unmarshalDeliverReport body) (t'.unmarshalDeliverReport body) fun r r' => r = into SmsDeliverReport (fo :: body) t r' := by
  unfold TPDU.unmarshalDeliverReport
  refine .step fun fcs h1 => .step fun pi h2 => ?_
  obtain ⟨hl, _, hpi⟩ := readAt_ok h2
  have hpo : piOf SmsDeliverReport (fo :: body) = some pi := hpi
  refine .mono (alike_opt _ _ ?_ ?_ ?_ _ _ (by omega)) fun r r' _ _ h => ?_
  · exact hf
  · exact fun h2 h1 => hd (borrows_of hpo (by decide) h2 h1)
  · rfl
  obtain ⟨h, h'⟩ := h
  have e : into SmsDeliverReport (fo :: body) t r' =
      udInto (if announced SmsDeliverReport (fo :: body) 2 then
        some ((fo :: body).drop (2 + 1 + 0 + (if announced SmsDeliverReport (fo :: body) 0 then 1 else 0) + (if announced SmsDeliverReport (fo :: body) 1 then 1 else 0))) else none)
      (optInto SmsDeliverReport (fo :: body) { t with FirstOctet := r'.FirstOctet, FCS := r'.FCS } r') r' := rfl
  rw [e]
  unfold optInto
  simp only [announced_eq hpo, hpo]
  have q1 : r'.FirstOctet = t.FirstOctet := by rw [h']; exact hf.symm
  have q2 : r'.FCS = fcs := by rw [h']
  have q3 : r'.PI = pi := by rw [h']
  rw [h, q1, q2, q3, show 2 + 1 + 0 + (if pi.toNat.testBit 0 = true then 1 else 0) + (if pi.toNat.testBit 1 = true then 1 else 0) =
    (2 + (if pi.toNat.testBit 0 = true then 1 else 0) + (if pi.toNat.testBit 1 = true then 1 else 0)) + 1 by omega]
  rfl

/-- Submit report. -/
theorem alike_submitReport (t t' : TPDU) (hf : t.FirstOctet = t'.FirstOctet)  (fo : UInt8) (body : Bytes)
    (hd : borrowsDCS SmsSubmitReport (fo :: body) = true → t.DCS = t'.DCS) :
    Alike (t.unmarshalSubmitReport body) (t'.unmarshalSubmitReport body) fun r r' => r = into SmsSubmitReport (fo :: body) t r' := by
  unfold TPDU.unmarshalSubmitReport
  refine .step fun fcs h1 => .step fun pi h2 => ?_
  obtain ⟨hl, _, hpi⟩ := readAt_ok h2
  have hpo : piOf SmsSubmitReport (fo :: body) = some pi := hpi
  simp only
  split
  · exact .error _
  rename_i h9
  refine .step fun s h3 => .step fun scts h4 => ?_
  refine .mono (alike_opt _ _ ?_ ?_ ?_ _ _ (by omega)) fun r r' _ _ h => ?_
  · exact hf
  · exact fun h2 h1 => hd (borrows_of hpo (by decide) h2 h1)
  · rfl
  obtain ⟨h, h'⟩ := h
  have e : into SmsSubmitReport (fo :: body) t r' =
      udInto (if announced SmsSubmitReport (fo :: body) 2 then
        some ((fo :: body).drop (2 + 1 + 7 + (if announced SmsSubmitReport (fo :: body) 0 then 1 else 0) + (if announced SmsSubmitReport (fo :: body) 1 then 1 else 0))) else none)
      (optInto SmsSubmitReport (fo :: body) { t with FirstOctet := r'.FirstOctet, FCS := r'.FCS, SCTS := r'.SCTS } r') r' := rfl
  rw [e]
  unfold optInto
  simp only [announced_eq hpo, hpo]
  have q1 : r'.FirstOctet = t.FirstOctet := by rw [h']; exact hf.symm
  have q2 : r'.FCS = fcs := by rw [h']
  have q3 : r'.PI = pi := by rw [h']
  have q4 : r'.SCTS = scts := by rw [h']
  rw [h, q1, q2, q3, q4, show 2 + 1 + 7 + (if pi.toNat.testBit 0 = true then 1 else 0) + (if pi.toNat.testBit 1 = true then 1 else 0) =
    (9 + (if pi.toNat.testBit 0 = true then 1 else 0) + (if pi.toNat.testBit 1 = true then 1 else 0)) + 1 by omega]
  rfl

/-- Status report. -/
theorem alike_statusReport (t t' : TPDU) (hf : t.FirstOctet = t'.FirstOctet)  (fo : UInt8) (body : Bytes)
    (hd : borrowsDCS SmsStatusReport (fo :: body) = true → t.DCS = t'.DCS) :
    Alike (t.unmarshalStatusReport body) (t'.unmarshalStatusReport body) fun r r' => r = into SmsStatusReport (fo :: body) t r' := by
  unfold TPDU.unmarshalStatusReport
  refine .step fun mr h1 => ?_
  obtain ⟨hl, _, _⟩ := readAt_ok h1
  simp only
  rw [slice_drop body _ (by omega)]
  simp only [ok_bind]
  refine .step fun p h2 => ?_
  obtain ⟨ra, n⟩ := p
  have hn := addr_read (wrapD_eq_ok.1 h2)
  simp only
  split
  · exact .error _
  rename_i h9
  refine .step fun s h3 => .step fun scts h4 => ?_
  split
  · exact .error _
  rename_i h10
  refine .step fun s' h5 => .step fun dt h6 => .step fun st h7 => ?_
  have ho : piOffset SmsStatusReport (fo :: body) = (1 + n + 7 + 7 + 1) + 1 := by
    show 2 + (2 + (((fo :: body).getD (1 + 1) 0).toNat + 1) / 2) + 7 + 7 + 1 = _
    rw [hn.1, drop_getD]
    show 2 + (2 + ((body.getD (1 + 0) 0).toNat + 1) / 2) + 7 + 7 + 1 = _
    omega
  have e : ∀ r', into SmsStatusReport (fo :: body) t r' =
      udInto (if announced SmsStatusReport (fo :: body) 2 then
        some ((fo :: body).drop (piOffset SmsStatusReport (fo :: body) + 1 + 0 + (if announced SmsStatusReport (fo :: body) 0 then 1 else 0) + (if announced SmsStatusReport (fo :: body) 1 then 1 else 0))) else none)
      (optInto SmsStatusReport (fo :: body) { t with FirstOctet := r'.FirstOctet, MR := r'.MR, RA := r'.RA, SCTS := r'.SCTS, DT := r'.DT, ST := r'.ST } r') r' := fun _ => rfl
  split
  · rename_i hgt
    refine .step fun pi h8 => ?_
    have hpo : piOf SmsStatusReport (fo :: body) = some pi := by
      unfold piOf
      rw [ho]
      show body[1 + n + 7 + 7 + 1]? = _
      rw [idx_getElem _ _ hgt] at h8
      cases h8
      simp [hgt]
    refine .mono (alike_opt _ _ ?_ ?_ ?_ _ _ (by omega)) fun r r' _ _ h => ?_
    · exact hf
    · exact fun h2 h1 => hd (borrows_of hpo (by decide) h2 h1)
    · rfl
    obtain ⟨h, h'⟩ := h
    rw [e]
    unfold optInto
    simp only [announced_eq hpo, hpo]
    have q1 : r'.FirstOctet = t.FirstOctet := by rw [h']; exact hf.symm
    have q2 : r'.MR = mr := by rw [h']
    have q3 : r'.PI = pi := by rw [h']
    have q4 : r'.SCTS = scts := by rw [h']
    have q5 : r'.RA = ra := by rw [h']
    have q6 : r'.DT = dt := by rw [h']
    have q7 : r'.ST = st := by rw [h']
    rw [h, q1, q2, q3, q4, q5, q6, q7, ho, show 1 + n + 7 + 7 + 1 + 1 + 1 + 0 + (if pi.toNat.testBit 0 = true then 1 else 0) + (if pi.toNat.testBit 1 = true then 1 else 0) =
      (1 + n + 7 + 7 + 1 + 1 + (if pi.toNat.testBit 0 = true then 1 else 0) + (if pi.toNat.testBit 1 = true then 1 else 0)) + 1 by omega]
    rfl
  · rename_i hgt
    have hpo : piOf SmsStatusReport (fo :: body) = none := by
      unfold piOf
      rw [ho]
      show body[1 + n + 7 + 7 + 1]? = _
      rw [List.getElem?_eq_none]; omega
    refine .ok ?_
    rw [e]
    unfold optInto udInto
    simp only [announced_none hpo, hpo]
    rw [← hf]
    rfl

/-- Decoding into `t` compared with decoding into a TPDU of the same direction and, if it matters, DCS. -/
theorem alike_unmarshal (t t' : TPDU) (hdir : t.Direction = t'.Direction) (src : Bytes)
    (hd : borrowsDCS ({ t with FirstOctet := src.getD 0 0 } : TPDU).SmsType src = true → t.DCS = t'.DCS) :
    Alike (t.UnmarshalBinary src) (t'.UnmarshalBinary src) fun r r' =>
      r = into ({ t with FirstOctet := src.getD 0 0 } : TPDU).SmsType src t r' := by
  unfold TPDU.UnmarshalBinary
  rcases src with _ | ⟨fo, body⟩
  · exact .error _
  have hst : ({ t with FirstOctet := fo } : TPDU).SmsType = ({ t' with FirstOctet := fo } : TPDU).SmsType := by
    unfold TPDU.SmsType; rw [hdir]
  change borrowsDCS ({ t with FirstOctet := fo } : TPDU).SmsType (fo :: body) = true → t.DCS = t'.DCS at hd
  rw [if_neg (by simp), if_neg (by simp)]
  simp only [idx_zero_cons, ok_bind]
  rw [show slice (fo :: body) (1 : Int) ((fo :: body).length : Nat) = .ok body from slice_tail fo body]
  simp only [ok_bind]
  rw [← hst]
  show Alike _ _ fun r r' => r = into ({ t with FirstOctet := fo } : TPDU).SmsType (fo :: body) t r'
  generalize ({ t with FirstOctet := fo } : TPDU).SmsType = st at hd
  split
  · rename_i h; subst h; exact .wrapD _ _ (alike_deliver { t with FirstOctet := fo } { t' with FirstOctet := fo } rfl fo rfl body)
  split
  · rename_i h; subst h; exact .wrapD _ _ (alike_deliverReport { t with FirstOctet := fo } { t' with FirstOctet := fo } rfl fo body hd)
  split
  · rename_i h; subst h; exact .wrapD _ _ (alike_submitReport { t with FirstOctet := fo } { t' with FirstOctet := fo } rfl fo body hd)
  split
  · rename_i h; subst h; exact .wrapD _ _ (alike_submit { t with FirstOctet := fo } { t' with FirstOctet := fo } rfl fo rfl body)
  split
  · rename_i h; subst h; exact .wrapD _ _ (alike_statusReport { t with FirstOctet := fo } { t' with FirstOctet := fo } rfl fo body hd)
  split
  · rename_i h; subst h; exact .wrapD _ _ (alike_command { t with FirstOctet := fo } { t' with FirstOctet := fo } rfl fo rfl body)
  · exact .error _

theorem udInto_direction (u : Option Bytes) (t r : TPDU) : (udInto u t r).Direction = t.Direction := by
  unfold udInto
  repeat' split
  all_goals rfl

theorem udInto_dcs (u : Option Bytes) (t r : TPDU) : (udInto u t r).DCS = t.DCS := by
  unfold udInto
  repeat' split
  all_goals rfl

theorem udInto_self (u : Option Bytes) (r : TPDU) : udInto u r r = r := by
  unfold udInto
  repeat' split
  all_goals rfl

theorem into_direction (st : UInt8) (src : Bytes) (t r : TPDU) : (into st src t r).Direction = t.Direction := by
  unfold into
  rw [udInto_direction]
  repeat' split
  all_goals rfl

theorem into_dcs {st : UInt8} {src : Bytes} (h : borrowsDCS st src = true) (t r : TPDU) : (into st src t r).DCS = t.DCS := by
  unfold borrowsDCS at h
  simp only [Bool.and_eq_true, Bool.or_eq_true, decide_eq_true_eq, Bool.not_eq_true'] at h
  obtain ⟨⟨h, _⟩, h1⟩ := h
  unfold into
  rw [udInto_dcs]
  rcases h with (rfl | rfl) | rfl
  · show (if announced _ _ _ then _ else _) = _
    rw [h1]; rfl
  · show (if announced _ _ _ then _ else _) = _
    rw [h1]; rfl
  · show (if announced _ _ _ then _ else _) = _
    rw [h1]; rfl

theorem into_self (st : UInt8) (src : Bytes) (r : TPDU) : into st src r r = r := by
  unfold into
  have hv : vpInto r.VP r.VP = r.VP := by
    unfold vpInto
    repeat' split
    all_goals rfl
  have ho : ∀ t : TPDU, t = r → optInto st src t r = r := by
    intro t h; subst h; unfold optInto; simp
  have : ∀ t : TPDU, t = r → udInto (udOf st src) t r = r := fun t h => by rw [h]; exact udInto_self _ _
  apply this
  split
  · rfl
  split
  · rw [hv]
  split
  · rfl
  split
  · exact ho _ rfl
  split
  · exact ho _ rfl
  · exact ho _ rfl

end Verif.Proofs
