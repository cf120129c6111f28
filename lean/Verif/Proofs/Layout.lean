import Verif.Spec.Layout
import Verif.Proofs.MarshalTotal
import Verif.Proofs.Address
import Verif.Proofs.TpduUd
import Verif.Proofs.ValidityPeriod
import Verif.Proofs.Keeps
import Verif.Props.CharTables

/-! What a successful `MarshalBinary` writes. -/

namespace Verif.Proofs
open Verif.Model Verif.Spec

theorem post_wrapE {α : Type} {m : M α} {f : String} {P : α → Prop} (h : Post m P) : Post (wrapE f m) P :=
  fun a ha => h a (wrapE_eq_ok.1 ha)

theorem ton_toNat (a : Address) : a.TypeOfNumber = 5 ↔ a.TOA.toNat / 16 % 8 = 5 := by
  have : ∀ t : UInt8, ((t >>> 4) &&& 0x07 = 5) ↔ t.toNat / 16 % 8 = 5 := by apply forall_u8; decide +kernel
  exact this a.TOA

theorem byteOf_ofNat (n : Nat) : byteOf (n : Int) = UInt8.ofNat n := by
  apply UInt8.toNat_inj.mp
  rw [toNat_byteOf]; simp; omega

/-- Without an extension table there is a septet for each character. -/
theorem plain_chars (us : List Nat) : ∀ (g : Bytes), Gsm7.Encoder.loop ⟨Charset.NewEncoder 0, []⟩ us = .ok g →
    g.map (fun s => Alphabet.locking 0 s.toNat) = us.map some := by
  induction us with
  | nil => intro g h; cases h; rfl
  | cons u us ih =>
    intro g h
    rw [Gsm7.Encoder.loop] at h
    split at h
    · rename_i c hc
      obtain ⟨r, hr, h⟩ := bind_eq_ok.1 h
      cases h
      have := ((locking_ok 0).sect _ _ hc).1
      rw [Verif.Props.C68_locking_partial 0 c (by intro h; cases h)] at this
      simp only [List.map_cons, this, ih _ hr]
    · simp at h
      cases h

theorem addr_wire (a : Address) (h : AddrFits a) : Post a.MarshalBinary (AddrWire a) := by
  unfold Address.MarshalBinary
  split
  · rename_i ht
    have ht' := (ton_toNat a).1 ht
    refine Post.bind' (Q := fun g => Septets g ∧ g.map (fun s => Alphabet.locking 0 s.toNat) = (Unicode.decodeRunes a.Addr).map some)
      (post_wrapE fun g hg => ⟨septets_of_default _ _ hg, ?_⟩) ?_
    · rw [encoder_encode_eq] at hg
      exact plain_chars _ g hg
    rintro g ⟨h1, h2⟩
    refine .ok ⟨_, _, rfl, ?_⟩
    rw [if_pos ht']
    unfold AddrFits at h
    rw [if_pos ht'] at h
    have hl : g.length = (Unicode.decodeRunes a.Addr).length := by simpa using congrArg List.length h2
    refine ⟨g, h1, h2, ?_, ?_⟩
    · have e : g.length * 7 + 3 = 7 * g.length + 3 := by omega
      have hlt : (7 * g.length + 3) / 4 < 256 := by omega
      rw [byteOf_ofNat, UInt8.toNat_ofNat', e]
      exact Nat.mod_eq_of_lt hlt
    · by_cases hg : g = []
      · subst hg; exact ⟨0, by decide, rfl⟩
      · obtain ⟨k, hk, e⟩ := pack7Bit_bits g 0 (by decide) h1 hg
        exact ⟨k, hk, by simpa using e⟩
  · rename_i ht
    have ht' := fun x => ht ((ton_toNat a).2 x)
    refine Post.bind' (Q := fun body => body.flatMap nibbles = a.Addr.map digitCode ++ (if a.Addr.length % 2 = 1 then [15] else []))
      (post_wrapE fun p hp => ?_) ?_
    · have hd : Digits a.Addr := Classical.byContradiction fun hd => by
        obtain ⟨_, d, _, _, _, _, e⟩ := encodeLoop_error a.Addr none hd
        rw [Semioctet.Encode, e] at hp; cases hp
      obtain ⟨p', e1, e2⟩ := encodeLoop_ok a.Addr none (by simp) hd
      rw [Semioctet.Encode, e1] at hp; cases hp
      rw [e2]; simp
    intro body hb
    refine .ok ⟨_, _, rfl, ?_⟩
    rw [if_neg ht']
    unfold AddrFits at h
    rw [if_neg ht'] at h
    exact ⟨by rw [toNat_byteOf]; omega, hb⟩

theorem bcd_wire (u : Int) : Post (Bcd.Encode u) (fun b => 0 ≤ u ∧ b = twoDigits u.toNat) := by
  intro b hb
  rw [bcd_encode] at hb
  split at hb
  · cases hb; exact ⟨by omega, rfl⟩
  · cases hb

theorem bcdS_wire (s : Int) : Post (Bcd.EncodeSigned s) (fun b => b = UInt8.ofNat (16 * (s.natAbs % 10) + (if s < 0 then 8 else 0) + s.natAbs / 10)) := by
  intro b hb
  rw [bcd_encodeSigned] at hb
  split at hb
  · cases hb; rfl
  · cases hb

theorem time_wire (t : GoTime) : Post (Timestamp.MarshalBinary t) (TimeWire t) := by
  unfold Timestamp.MarshalBinary
  refine Post.bind' (bcd_wire _) ?_; rintro _ ⟨hy, rfl⟩
  refine Post.bind' (bcd_wire _) ?_; rintro _ ⟨_, rfl⟩
  refine Post.bind' (bcd_wire _) ?_; rintro _ ⟨_, rfl⟩
  refine Post.bind' (bcd_wire _) ?_; rintro _ ⟨_, rfl⟩
  refine Post.bind' (bcd_wire _) ?_; rintro _ ⟨_, rfl⟩
  refine Post.bind' (bcd_wire _) ?_; rintro _ ⟨_, rfl⟩
  refine Post.bind' (bcdS_wire _) ?_; rintro _ rfl
  refine .ok ?_
  have e1 : t.Year.tmod 100 = t.Year % 100 := by
    rcases Int.lt_or_le t.Year 0 with h | h
    · obtain ⟨n, hn⟩ : ∃ n : Nat, t.Year = -(n:Int) := ⟨t.Year.natAbs, by omega⟩
      rw [hn] at hy ⊢
      rw [Int.neg_tmod, Int.tmod_eq_emod_of_nonneg (by omega)] at hy ⊢; omega
    · rw [Int.tmod_eq_emod_of_nonneg h]
  have e2 : (t.off.tdiv (15 * 60)).natAbs = t.off.natAbs / 900 ∧ (t.off.tdiv (15 * 60) < 0 ↔ t.off ≤ -900) := by
    rcases Int.lt_or_le t.off 0 with h | h
    · obtain ⟨n, hn⟩ : ∃ n : Nat, t.off = -(n:Int) := ⟨t.off.natAbs, by omega⟩
      rw [hn, Int.neg_tdiv, Int.tdiv_eq_ediv_of_nonneg (by omega)]; omega
    · rw [Int.tdiv_eq_ediv_of_nonneg h]; omega
  unfold TimeWire
  rw [e1, e2.1]
  simp only [e2.2]

theorem relativeMinutes_eq (c : UInt8) : relativeToDuration c = relativeMinutes c.toNat * minute := by
  rw [rel_eq, Int.mul_comm]
  congr 1
  unfold relativeMinutes
  split
  · rfl
  split
  · omega
  split <;> omega

theorem relative_wire (d : Int) (h : 10 * minute ≤ d) : RelativeWire d (durationToRelative d) := by
  have h' : 600 * second ≤ d := by
    have e : 10 * minute = 600 * second := by decide
    omega
  have hm : minute = 60000000000 := rfl
  constructor
  · rw [← relativeMinutes_eq, rel_floor d h']
    have hs : second = 1000000000 := rfl
    simp only [hs] at *
    split
    · omega
    split
    · omega
    split
    · omega
    split
    · omega
    split <;> omega
  · intro c' hc' hle
    have hof : (UInt8.ofNat c').toNat = c' := by simp; omega
    have := rel_greatest d h' (UInt8.ofNat c') (by rw [relativeMinutes_eq, hof]; exact hle)
    rw [relativeMinutes_eq, relativeMinutes_eq, hof, hm] at this
    omega

theorem efi_toNat (o : UInt8) : (o &&& 7).toNat = o.toNat % 8 := by
  revert o; apply forall_u8; decide +kernel

theorem vp_wire (v : ValidityPeriod) (h : VpFits v) : Post v.MarshalBinary (VpWire v) := by
  obtain ⟨h1, h2, h3, h4⟩ := h
  have hefi := efi_toNat v.EFI
  unfold ValidityPeriod.MarshalBinary
  split
  · rename_i hf
    exact fun p hp => .inr (.inr (.inl ⟨hf, time_wire _ p hp⟩))
  split
  · rename_i hf
    simp only
    split
    · exact .fail
    rename_i h3'
    split
    · rename_i he
      rw [he] at hefi
      have he : v.EFI.toNat % 8 = 1 := hefi.symm
      exact .ok (.inr (.inr (.inr (.inr (.inl ⟨hf, he, _, relative_wire _ (h2 hf he), rfl⟩)))))
    split
    · rename_i he
      rw [he] at hefi
      have he : v.EFI.toNat % 8 = 2 := hefi.symm
      have hd := h3 hf he
      refine .ok (.inr (.inr (.inr (.inr (.inr (.inl ⟨hf, he, ?_⟩))))))
      rw [Int.tdiv_eq_ediv_of_nonneg hd]
      have hs : second = 1000000000 := rfl
      have hn : 0 ≤ v.Duration / second := by rw [hs]; omega
      obtain ⟨n, hn⟩ := Int.eq_ofNat_of_zero_le hn
      rw [hn]
      have : (if (n : Int) > 255 then (255 : Int) else n) = ((min n 255 : Nat) : Int) := by split <;> omega
      rw [this, byteOf_ofNat]; rfl
    split
    · rename_i he
      rw [he] at hefi
      have he : v.EFI.toNat % 8 = 3 := hefi.symm
      obtain ⟨hd, hd'⟩ := h4 hf he
      refine Post.bind' (post_wrapE (bcd_wire _)) ?_; rintro _ ⟨_, rfl⟩
      refine Post.bind' (post_wrapE (bcd_wire _)) ?_; rintro _ ⟨_, rfl⟩
      refine Post.bind' (post_wrapE (bcd_wire _)) ?_; rintro _ ⟨_, rfl⟩
      refine .ok (.inr (.inr (.inr (.inr (.inr (.inr ⟨hf, he, ?_⟩))))))
      have hs : second = 1000000000 := rfl
      obtain ⟨w1, w2, w3⟩ := Float.whole_small v.Duration (by simp only [hour, minute, hs] at hd'; omega)
      rw [w1, w2, w3]
      simp only [hour, minute, hs] at hd' ⊢
      rw [Int.tdiv_eq_ediv_of_nonneg hd, Int.tdiv_eq_ediv_of_nonneg hd, Int.tdiv_eq_ediv_of_nonneg hd,
        Int.tmod_eq_emod_of_nonneg (by omega), Int.tmod_eq_emod_of_nonneg (by omega), Int.tmod_eq_emod_of_nonneg (by omega)]
      rw [Int.emod_eq_of_lt (a := v.Duration / _) (b := 100) (by omega) (by omega)]
    · rename_i ha hb hc
      have hz : v.EFI &&& 7 = 0 := by
        have a1 : ¬ (v.EFI &&& 7) > EvpfRelativeHHMMSS := h3'
        have : ∀ o : UInt8, ¬ (o &&& 7) > EvpfRelativeHHMMSS → ¬ (o &&& 7) = EvpfRelative → ¬ (o &&& 7) = EvpfRelativeSeconds →
            ¬ (o &&& 7) = EvpfRelativeHHMMSS → o &&& 7 = 0 := by apply forall_u8; decide +kernel
        exact this _ a1 ha hb hc
      rw [hz] at hefi
      exact .ok (.inr (.inr (.inr (.inl ⟨hf, hefi.symm, rfl⟩))))
  split
  · rename_i hf
    exact .ok (.inr (.inl ⟨hf, _, relative_wire _ (h1 hf), rfl⟩))
  split
  · rename_i hf
    exact .ok (.inl ⟨hf, rfl⟩)
  · exact .fail

theorem hdr_wire (udh : UDH) : udh.MarshalBinary = hdrWire udh := by
  unfold UDH.MarshalBinary hdrWire
  by_cases h : udh = []
  · subst h; rfl
  · rw [if_neg h, if_neg (by simpa using h), byteOf_ofNat, UDH.UDHL]
    simp only [byteOf_ofNat, List.flatMap]

theorem ud_wire (t : TPDU) (h : UdFits t) : Post t.encodeUserData (UdWire t) := by
  unfold TPDU.encodeUserData
  rw [hdr_wire]
  simp only
  unfold UdFits at h
  split
  · exact .fail
  rename_i al hal
  split
  · rename_i h7
    subst h7
    rw [hal, if_pos rfl] at h
    obtain ⟨hs, hl, he⟩ := h
    rw [fill_eq]
    refine .ok ⟨_, _, rfl, ?_⟩
    rw [hal, if_pos rfl]
    by_cases hu : t.UD = []
    · have := he hu
      refine ⟨0, by decide, 0, by decide, by omega, ?_, ?_⟩
      · rw [hu] at hl ⊢
        simp only [List.length_nil] at hl ⊢
        rw [if_neg (by decide), toNat_byteOf]; omega
      · rw [hu]; simp [Gsm7.Pack7Bit, septetBits]
    · have hpos : t.UD.length > 0 := List.length_pos_iff.2 hu
      obtain ⟨k, hk, e⟩ := pack7Bit_bits t.UD ((7 - (hdrWire t.UDH).length % 7) % 7) (by omega) hs hu
      refine ⟨(7 - (hdrWire t.UDH).length % 7) % 7, by omega, k, hk, by omega, ?_, ?_⟩
      · rw [if_pos hpos, toNat_byteOf]; omega
      · show octetBits (_ ++ _) = _
        rw [octetBits_append, e]; simp
  split
  · exact .fail
  · rename_i h7 _
    rw [hal, if_neg h7] at h
    refine .ok ⟨_, _, rfl, ?_⟩
    rw [hal, if_neg h7]
    refine ⟨?_, rfl⟩
    show _ = (_ ++ _ : List UInt8).length
    rw [toNat_byteOf, List.length_append]; omega

theorem pi_bits (p : UInt8) : PI.PID p = p.toNat.testBit 0 ∧ PI.DCS p = p.toNat.testBit 1 ∧ PI.UDL p = p.toNat.testBit 2 := by
  revert p; apply forall_u8; decide +kernel

theorem opt_wire (t : TPDU) (h : t.PI.toNat.testBit 2 = true → UdFits t) :
    Post t.optUserData (fun ud => OptWire t (t.piOctets ++ ud)) := by
  obtain ⟨b0, b1, b2⟩ := pi_bits t.PI
  unfold TPDU.optUserData TPDU.piOctets OptWire
  rw [b0, b1, b2]
  split
  · rename_i hu
    exact post_wrapE fun ud hud => ⟨ud, ud_wire t (h hu) ud hud, rfl⟩
  · exact .ok ⟨[], rfl, rfl⟩

theorem mti_toNat (f : UInt8) : (FirstOctet.MTI f).toNat = f.toNat % 4 := by
  revert f; apply forall_u8; decide +kernel

/-- What is written is laid out as the standard says. -/
theorem wire (t : TPDU) (hd : t.Direction = MO ∨ t.Direction = MT) (hf : Fits t) : Post t.MarshalBinary (Wire t) := by
  obtain ⟨f1, f2, f3, f4, f5, f6⟩ := hf
  have hm := mti_toNat t.FirstOctet
  have key : ∀ f : UInt8, (smsType (FirstOctet.MTI f) 0 = SmsDeliver → f.toNat % 4 = 0) ∧
      (smsType (FirstOctet.MTI f) 0 = SmsSubmitReport → f.toNat % 4 = 1) ∧
      (smsType (FirstOctet.MTI f) 0 = SmsStatusReport → f.toNat % 4 = 2) ∧
      (smsType (FirstOctet.MTI f) 1 = SmsDeliverReport → f.toNat % 4 = 0) ∧
      (smsType (FirstOctet.MTI f) 1 = SmsSubmit → f.toNat % 4 = 1) ∧
      (smsType (FirstOctet.MTI f) 1 = SmsCommand → f.toNat % 4 = 2) ∧
      smsType (FirstOctet.MTI f) 0 ≠ SmsDeliverReport ∧ smsType (FirstOctet.MTI f) 0 ≠ SmsSubmit ∧
      smsType (FirstOctet.MTI f) 0 ≠ SmsCommand ∧ smsType (FirstOctet.MTI f) 1 ≠ SmsDeliver ∧
      smsType (FirstOctet.MTI f) 1 ≠ SmsSubmitReport ∧ smsType (FirstOctet.MTI f) 1 ≠ SmsStatusReport := by
    apply forall_u8; decide +kernel
  obtain ⟨k1, k2, k3, k4, k5, k6, n1, n2, n3, n4, n5, n6⟩ := key t.FirstOctet
  have hty : t.SmsType = smsType (FirstOctet.MTI t.FirstOctet) t.Direction := rfl
  have d0 : ∀ st, t.SmsType = st → smsType (FirstOctet.MTI t.FirstOctet) 1 ≠ st → t.Direction = 0 := by
    intro st hs hn
    rcases hd with hd | hd
    · rw [hty, hd] at hs; exact absurd hs hn
    · exact hd
  have d1 : ∀ st, t.SmsType = st → smsType (FirstOctet.MTI t.FirstOctet) 0 ≠ st → t.Direction = 1 := by
    intro st hs hn
    rcases hd with hd | hd
    · exact hd
    · rw [hty, hd] at hs; exact absurd hs hn
  unfold TPDU.MarshalBinary
  simp only
  split
  · rename_i hs
    have hdir := d0 _ hs n4
    refine post_wrapE ?_
    unfold TPDU.marshalDeliver
    refine Post.bind' (post_wrapE (addr_wire _ (f1 hs).1)) ?_; intro oa hoa
    refine Post.bind' (post_wrapE (time_wire _)) ?_; intro ts hts
    refine Post.bind' (post_wrapE (ud_wire _ (f1 hs).2)) ?_; intro ud hud
    exact .ok (.inl ⟨hdir, k1 (by rw [← hdir]; exact hs), oa, ts, ud, hoa, hts, hud, by simp⟩)
  split
  · rename_i hs
    have hdir := d1 _ hs n1
    refine post_wrapE ?_
    unfold TPDU.marshalDeliverReport
    refine Post.bind' (opt_wire t (f2 hs)) ?_; intro ud hud
    refine .ok (.inr (.inl ⟨hdir, k4 (by rw [← hdir]; exact hs), _, hud, ?_⟩))
    by_cases hz : t.FCS = 0 <;> simp [hz]
  split
  · rename_i hs
    have hdir := d0 _ hs n5
    refine post_wrapE ?_
    unfold TPDU.marshalSubmitReport
    refine Post.bind' (post_wrapE (time_wire _)) ?_; intro ts hts
    refine Post.bind' (opt_wire t (f3 hs)) ?_; intro ud hud
    refine .ok (.inr (.inr (.inr (.inl ⟨hdir, k2 (by rw [← hdir]; exact hs), ts, _, hts, hud, ?_⟩))))
    by_cases hz : t.FCS = 0 <;> simp [hz]
  split
  · rename_i hs
    have hdir := d1 _ hs n2
    refine post_wrapE ?_
    unfold TPDU.marshalSubmit
    refine Post.bind' (post_wrapE (addr_wire _ (f4 hs).1)) ?_; intro da hda
    refine Post.bind' (post_wrapE (ud_wire _ (f4 hs).2.2)) ?_; intro ud hud
    have fin : ∀ vp, VpWire t.VP vp → Wire t ([t.FirstOctet, t.MR] ++ da ++ [t.PID, t.DCS] ++ vp ++ ud) := fun vp hvp =>
      .inr (.inr (.inl ⟨hdir, k5 (by rw [← hdir]; exact hs), da, vp, ud, hda, hvp, hud, by simp⟩))
    simp only
    split
    · refine Post.bind' (post_wrapE (vp_wire _ (f4 hs).2.1)) ?_
      exact fun vp hvp => .ok (fin vp hvp)
    · rename_i hz
      exact .ok (fin [] (.inl ⟨Classical.byContradiction hz, rfl⟩))
  split
  · rename_i hs
    have hdir := d0 _ hs n6
    refine post_wrapE ?_
    unfold TPDU.marshalStatusReport
    refine Post.bind' (post_wrapE (addr_wire _ (f5 hs).1)) ?_; intro ra hra
    refine Post.bind' (post_wrapE (time_wire _)) ?_; intro ts hts
    refine Post.bind' (post_wrapE (time_wire _)) ?_; intro dt hdt
    refine Post.bind' (opt_wire t (f5 hs).2) ?_; intro ud hud
    simp only
    split
    · rename_i hz
      exact .ok (.inr (.inr (.inr (.inr (.inl ⟨hdir, k3 (by rw [← hdir]; exact hs), ra, ts, dt, [], hra, hts, hdt,
        by rw [if_pos hz], by simp⟩)))))
    · rename_i hz
      exact .ok (.inr (.inr (.inr (.inr (.inl ⟨hdir, k3 (by rw [← hdir]; exact hs), ra, ts, dt, _, hra, hts, hdt,
        by (rw [if_neg hz]; exact ⟨_, hud, rfl⟩), by simp⟩)))))
  split
  · rename_i hs
    have hdir := d1 _ hs n3
    obtain ⟨g1, g2, g3⟩ := f6 hs
    refine post_wrapE ?_
    unfold TPDU.marshalCommand
    refine Post.bind' (post_wrapE (addr_wire _ g1)) ?_; intro da hda
    refine .ok (.inr (.inr (.inr (.inr (.inr ⟨hdir, k6 (by rw [← hdir]; exact hs), da, byteOf t.UD.length, hda, ?_, ?_⟩)))))
    · rw [g2, toNat_byteOf]; simp [hdrWire]; omega
    · rw [g2]; simp [hdrWire]
  · exact .fail

end Verif.Proofs
