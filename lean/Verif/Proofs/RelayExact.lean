import Verif.Proofs.TpduExact

/-! The converse of `remarshal`: what is read back as it was met the conditions. -/

namespace Verif.Proofs
open Verif.Model Verif.Spec

theorem bcd_enc_dec {u : Int} {b : UInt8} {v : Int} (h : Bcd.Encode u = .ok b) (h' : Bcd.Decode b = .ok v) :
    v = u ∧ 0 ≤ u ∧ u ≤ 99 := by
  have hb := bcd_encode u
  rw [h] at hb
  split at hb
  · rename_i hu
    obtain ⟨b', e, d⟩ := bcd_roundtrip u hu.1 hu.2
    rw [h] at e; cases e
    rw [h'] at d; cases d
    exact ⟨rfl, hu⟩
  · cases hb

theorem days_inj (y y' m d : Int) (h : GoTime.daysFromCivil y m d = GoTime.daysFromCivil y' m d) : y = y' := by
  unfold GoTime.daysFromCivil at h
  simp only at h
  have hm := @dayOf_mono
  unfold dayOf at hm
  by_cases c : m ≤ 2
  · simp only [if_pos c] at h
    rcases Int.lt_trichotomy y y' with l | l | l
    · have := hm (a := y - 1) (b := y' - 1) (by omega); omega
    · exact l
    · have := hm (a := y' - 1) (b := y - 1) (by omega); omega
  · simp only [if_neg c] at h
    rcases Int.lt_trichotomy y y' with l | l | l
    · have := hm (a := y) (b := y') (by omega); omega
    · exact l
    · have := hm (a := y') (b := y) (by omega); omega

/-- A time that is read back as it was has a year of the window. -/
theorem time_back (t : GoTime) (p rest : Bytes) (h : Timestamp.MarshalBinary t = .ok p)
    (h' : Timestamp.UnmarshalBinary (p ++ rest) = .ok t) : YearOk t := by
  unfold Timestamp.MarshalBinary at h
  obtain ⟨b0, h0, h⟩ := bind_eq_ok.1 h
  obtain ⟨b1, h1, h⟩ := bind_eq_ok.1 h
  obtain ⟨b2, h2, h⟩ := bind_eq_ok.1 h
  obtain ⟨b3, h3, h⟩ := bind_eq_ok.1 h
  obtain ⟨b4, h4, h⟩ := bind_eq_ok.1 h
  obtain ⟨b5, h5, h⟩ := bind_eq_ok.1 h
  obtain ⟨b6, h6, h⟩ := bind_eq_ok.1 h
  cases h
  unfold Timestamp.UnmarshalBinary at h'
  rw [if_neg (by simp)] at h'
  have i0 : idx ([b0, b1, b2, b3, b4, b5, b6] ++ rest) 0 = .ok b0 := rfl
  have i1 : idx ([b0, b1, b2, b3, b4, b5, b6] ++ rest) 1 = .ok b1 := rfl
  have i2 : idx ([b0, b1, b2, b3, b4, b5, b6] ++ rest) 2 = .ok b2 := rfl
  have i3 : idx ([b0, b1, b2, b3, b4, b5, b6] ++ rest) 3 = .ok b3 := rfl
  have i4 : idx ([b0, b1, b2, b3, b4, b5, b6] ++ rest) 4 = .ok b4 := rfl
  have i5 : idx ([b0, b1, b2, b3, b4, b5, b6] ++ rest) 5 = .ok b5 := rfl
  have i6 : idx ([b0, b1, b2, b3, b4, b5, b6] ++ rest) 6 = .ok b6 := rfl
  simp only [i0, i1, i2, i3, i4, i5, i6, ok_bind] at h'
  obtain ⟨v0, g0, h'⟩ := bind_eq_ok.1 h'
  obtain ⟨v1, g1, h'⟩ := bind_eq_ok.1 h'
  obtain ⟨v2, g2, h'⟩ := bind_eq_ok.1 h'
  obtain ⟨v3, g3, h'⟩ := bind_eq_ok.1 h'
  obtain ⟨v4, g4, h'⟩ := bind_eq_ok.1 h'
  obtain ⟨v5, g5, h'⟩ := bind_eq_ok.1 h'
  obtain ⟨v6, g6, h'⟩ := bind_eq_ok.1 h'
  obtain ⟨rfl, l0, l0'⟩ := bcd_enc_dec h0 g0
  obtain ⟨rfl, -, -⟩ := bcd_enc_dec h1 g1
  obtain ⟨rfl, -, -⟩ := bcd_enc_dec h2 g2
  obtain ⟨rfl, -, -⟩ := bcd_enc_dec h3 g3
  obtain ⟨rfl, -, -⟩ := bcd_enc_dec h4 g4
  obtain ⟨rfl, -, -⟩ := bcd_enc_dec h5 g5
  have hw : ∃ y, y = (if t.Year.tmod 100 < 70 then t.Year.tmod 100 + 2000 else t.Year.tmod 100 + 1900) ∧ 1970 ≤ y ∧ y ≤ 2069 :=
    ⟨_, rfl, by split <;> omega, by split <;> omega⟩
  obtain ⟨y, hy, hy1, hy2⟩ := hw
  rw [← hy] at h'
  injection h' with h'
  have hv := civil_valid t.localDay
  have hd := days_civil t.localDay
  have hc := clock_fields t
  obtain ⟨hm1, hm2, _, _⟩ := hv
  have e1 : y + (t.Month - 1) / 12 = y := by
    have : (t.Month - 1) / 12 = 0 := by unfold GoTime.Month; omega
    omega
  have e2 : (t.Month - 1) % 12 + 1 = t.Month := by unfold GoTime.Month; omega
  have hoff : v6 * 15 * 60 = t.off := congrArg GoTime.off h'
  have hsec := congrArg GoTime.sec h'
  unfold GoTime.date at hsec
  simp only [e1, e2, daysFromCivil_day, hoff] at hsec
  have he : GoTime.daysFromCivil y t.Month t.Day = GoTime.daysFromCivil t.Year t.Month t.Day := by
    unfold GoTime.Year GoTime.Month GoTime.Day at *
    rw [hd]; omega
  have := days_inj _ _ _ _ he
  unfold YearOk; omega

/-- A validity period that is read back as it was. -/
theorem vp_back (v : ValidityPeriod) (p rest : Bytes) (n : Nat) (h : v.MarshalBinary = .ok p)
    (h' : ValidityPeriod.UnmarshalBinary {} (p ++ rest) v.Format = .ok (v, n)) : VpKept v ∧ n = p.length := by
  have h5 : relativeToDuration (durationToRelative (5 * minute)) ≠ 5 * minute := by decide
  unfold ValidityPeriod.MarshalBinary at h
  unfold ValidityPeriod.UnmarshalBinary at h'
  simp only at h h'
  split at h
  · rename_i hf
    rw [if_pos hf] at h'
    obtain ⟨x, hx, h'⟩ := bind_eq_ok.1 h'
    injection h' with h'
    have hn : 7 = n := congrArg Prod.snd h'
    have ht : x = v.Time := congrArg (fun r => r.1.Time) h'
    refine ⟨⟨fun h => absurd (hf.symm.trans h) (by decide), fun _ => time_back _ p rest h (ht ▸ hx),
      fun h => absurd (hf.symm.trans h) (by decide)⟩, ?_⟩
    rw [← hn]
    unfold Timestamp.MarshalBinary at h
    iterate 7 (obtain ⟨_, -, h⟩ := bind_eq_ok.1 h)
    cases h; rfl
  rename_i hf1
  rw [if_neg hf1] at h'
  split at h
  · rename_i hf
    rw [if_pos hf] at h'
    obtain ⟨⟨w, k⟩, hx, h'⟩ := bind_eq_ok.1 h'
    injection h' with h'
    have hk : k = n := congrArg Prod.snd h'
    have hdur : w.Duration = v.Duration := congrArg (fun r => r.1.Duration) h'
    have hefi : w.EFI = v.EFI := congrArg (fun r => r.1.EFI) h'
    unfold ValidityPeriod.unmarshalVPEnhanced at hx
    split at hx
    · cases hx
    obtain ⟨efi, he, hx⟩ := bind_eq_ok.1 hx
    obtain ⟨⟨d, used⟩, hd, hx⟩ := bind_eq_ok.1 hx
    obtain ⟨-, -, hx⟩ := bind_eq_ok.1 hx
    injection hx with hx
    have hk7 : 7 = k := congrArg Prod.snd hx
    have ed : d = w.Duration := congrArg (fun r => r.1.Duration) hx
    have ee : efi = w.EFI := congrArg (fun r => r.1.EFI) hx
    rw [hdur] at ed
    rw [hefi] at ee
    subst ee ed hk hk7
    refine ⟨⟨fun h => absurd (hf.symm.trans h) (by decide), fun h => absurd (hf.symm.trans h) (by decide), fun _ => ?_⟩, ?_⟩
    · split at h
      · cases h
      split at h
      · rename_i ev
        refine ⟨fun _ => ?_, fun h => absurd (ev.symm.trans h) (by decide)⟩
        cases h
        rw [if_neg (by rw [ev]; decide), if_pos ev] at hd
        obtain ⟨b, hb, hd⟩ := bind_eq_ok.1 hd
        have : b = durationToRelative v.Duration := by cases hb; rfl
        injection hd with hd
        have hd := congrArg Prod.fst hd
        simp only at hd
        intro hc
        rw [this, hc] at hd
        exact h5 hd
      rename_i ev1
      refine ⟨fun h => absurd h ev1, fun ev => ?_⟩
      split at h
      · rename_i ev2; exact absurd (ev2.symm.trans ev) (by decide)
      rename_i ev2
      try rw [if_pos ev] at h
      rw [if_neg (by rw [ev]; decide), if_neg ev1, if_neg ev2, if_pos ev] at hd
      obtain ⟨bh, eh, h⟩ := bind_eq_ok.1 h
      obtain ⟨bm, em, h⟩ := bind_eq_ok.1 h
      obtain ⟨bs, es, h⟩ := bind_eq_ok.1 h
      cases h
      have i1 : idx ([v.EFI, bh, bm, bs, 0, 0, 0] ++ rest) 1 = .ok bh := rfl
      have i2 : idx ([v.EFI, bh, bm, bs, 0, 0, 0] ++ rest) 2 = .ok bm := rfl
      have i3 : idx ([v.EFI, bh, bm, bs, 0, 0, 0] ++ rest) 3 = .ok bs := rfl
      simp only [i1, i2, i3, ok_bind] at hd
      obtain ⟨vh, gh, hd⟩ := bind_eq_ok.1 hd
      obtain ⟨vm, gm, hd⟩ := bind_eq_ok.1 hd
      obtain ⟨vs, gs, hd⟩ := bind_eq_ok.1 hd
      obtain ⟨-, a1, a2⟩ := bcd_enc_dec (wrapE_eq_ok.1 eh) (wrapD_eq_ok.1 gh)
      obtain ⟨b0, b1, -⟩ := bcd_enc_dec (wrapE_eq_ok.1 em) (wrapD_eq_ok.1 gm)
      obtain ⟨c0, c1, -⟩ := bcd_enc_dec (wrapE_eq_ok.1 es) (wrapD_eq_ok.1 gs)
      obtain ⟨a0, -, -⟩ := bcd_enc_dec (wrapE_eq_ok.1 eh) (wrapD_eq_ok.1 gh)
      injection hd with hd
      have hd : vh * hour + vm * minute + vs * second = v.Duration := congrArg Prod.fst hd
      have m1 := Int.tmod_lt_of_pos (Float.whole v.Duration minute) (b := 60) (by decide)
      have m2 := Int.tmod_lt_of_pos (Float.whole v.Duration second) (b := 60) (by decide)
      rw [← b0] at m1
      rw [← c0] at m2
      rw [← a0] at a2
      simp only [hour, minute, second] at hd ⊢
      omega
    · split at h
      · cases h
      split at h
      · cases h; rfl
      split at h
      · cases h; rfl
      split at h
      · obtain ⟨_, _, h⟩ := bind_eq_ok.1 h
        obtain ⟨_, _, h⟩ := bind_eq_ok.1 h
        obtain ⟨_, _, h⟩ := bind_eq_ok.1 h
        cases h; rfl
      · cases h; rfl
  rename_i hf2
  rw [if_neg hf2] at h'
  split at h
  · rename_i hf
    cases h
    rw [if_pos hf, if_neg (by simp)] at h'
    obtain ⟨b, hb, h'⟩ := bind_eq_ok.1 h'
    have : b = durationToRelative v.Duration := by cases hb; rfl
    injection h' with h'
    have hn : 1 = n := congrArg Prod.snd h'
    have hd : relativeToDuration b = v.Duration := congrArg (fun r => r.1.Duration) h'
    refine ⟨⟨fun _ hc => ?_, fun h => absurd (hf.symm.trans h) (by decide), fun h => absurd (hf.symm.trans h) (by decide)⟩, hn.symm⟩
    rw [this, hc] at hd
    exact h5 hd
  rename_i hf3
  rw [if_neg hf3] at h'
  split at h
  · rename_i hf
    cases h
    rw [if_pos hf] at h'
    injection h' with h'
    have hn : 0 = n := congrArg Prod.snd h'
    exact ⟨⟨fun h => absurd h hf3, fun h => absurd h hf1, fun h => absurd h hf2⟩, hn.symm⟩
  · cases h

theorem decode7Bit_len (sml udhl : Nat) (src : Bytes) (h : 1 ≤ udhl) : Post (decode7Bit sml udhl src)
    (fun r => r.length < sml) := by
  unfold decode7Bit
  simp only
  simp only [show udhl > 0 from h, if_true]
  have hq : 1 ≤ (udhl * 8 + (if udhl % 7 ≠ 0 then 7 - udhl % 7 else 0)) / 7 := by omega
  generalize (udhl * 8 + (if udhl % 7 ≠ 0 then 7 - udhl % 7 else 0)) / 7 = q at hq ⊢
  generalize Gsm7.Unpack7Bit src _ = sm
  split
  · exact .fail
  split
  · split
    · exact .fail
    · refine Post.bind ?_; intro b
      split
      · exact .fail
      · intro r hr
        unfold slice at hr
        split at hr
        · cases hr
          simp only [List.length_drop, List.length_take]; omega
        · cases hr
  · exact .ok (by omega)

theorem udh_used (src : Bytes) : Post (UDH.UnmarshalBinary src) (fun r => 1 ≤ r.2) := by
  unfold UDH.UnmarshalBinary
  split
  · exact .fail
  refine Post.bind ?_; intro n
  simp only
  split
  · exact .fail
  refine Post.bind ?_; intro ies
  exact .ok (by simp)

/-- What is known of the user data that were read: nothing, if the length is 0; otherwise the octets are as many as
the length says, septets are septets, and a header that is announced has taken room. -/
theorem decode_facts (T : TPDU) (x : UInt8) (b : Bytes) (alpha : Alphabet) (hal : T.Alphabet = (alpha, none)) (h1 : T.UDH = []) (h2 : T.UD = []) :
    Post (T.decodeUserData (x :: b)) (fun r => (x = 0 ∧ r.UDH = [] ∧ r.UD = []) ∨
      (x ≠ 0 ∧ b.length = (if alpha = .a7Bit then (7 * x.toNat + 7) / 8 else x.toNat) ∧ (alpha = .a7Bit → Septets r.UD) ∧
        (T.UDHI = true → r.UD = [] ∨ r.UD.length < (if alpha = .a7Bit then x.toNat else b.length)))) := by
  unfold TPDU.decodeUserData
  rw [if_neg (by simp), idx_zero_cons, hal]
  simp only [ok_bind]
  split
  · rename_i h0
    exact .ok (.inl ⟨UInt8.toNat_inj.mp h0, h1, h2⟩)
  rename_i h0
  have hx : x ≠ 0 := by rintro rfl; exact h0 rfl
  have hlen : (if alpha = .a7Bit then ((if alpha = .a7Bit then x.toNat else 0) * 7 + 7) / 8 else x.toNat) =
      (if alpha = .a7Bit then (7 * x.toNat + 7) / 8 else x.toNat) := by
    split
    · rw [Nat.mul_comm]
    · rfl
  rw [hlen]
  generalize hn : (if alpha = .a7Bit then (7 * x.toNat + 7) / 8 else x.toNat) = n
  split
  · exact .fail
  split
  · exact .fail
  rename_i l1 l2
  simp only [List.length_cons] at l1 l2
  have hb : b.length = n := by omega
  refine Post.bind' (Q := fun r => T.UDHI = true → 1 ≤ r.2) ?_ ?_
  · split
    · refine Post.bind ?_; intro s
      exact fun r hr _ => Post.wrapD (udh_used _) r hr
    · rename_i hu; exact .ok fun h => absurd h hu
  rintro ⟨udh, udhl⟩ hh
  simp only at hh ⊢
  split
  · exact .ok (.inr ⟨hx, hb, fun _ => by simp [h2, Septets], fun _ => .inl h2⟩)
  refine Post.bind' (fun s hs => (slice_eq_ok hs).2.2) ?_
  intro s hs
  split
  · rename_i h7
    intro r hr
    obtain ⟨sm, hsm, hr⟩ := bind_eq_ok.1 hr
    cases hr
    refine .inr ⟨hx, hb, fun _ => (Post.wrapD (decode7Bit_inv _ _ _) _ hsm).1, fun hu => .inr ?_⟩
    have := Post.wrapD (decode7Bit_len _ _ _ (hh hu)) _ hsm
    simpa using this
  rename_i h7
  split
  · exact .fail
  refine .ok (.inr ⟨hx, hb, fun h => absurd h h7, fun hu => .inr ?_⟩)
  have := hh hu
  rename_i hne _
  simp only [List.length_cons] at hne hs
  rw [if_neg h7] at hn
  show s.length < _
  rw [hs]
  simp only [List.length_drop, List.length_take, List.length_cons]
  omega

/-- User data that are read back as they were. -/
theorem ud_back (t T : TPDU) (e : Bytes) (hm : t.encodeUserData = .ok e) (hf : T.FirstOctet = t.FirstOctet) (hd : T.DCS = t.DCS)
    (h1 : T.UDH = []) (h2 : T.UD = []) (h : T.decodeUserData e = .ok { T with UDH := t.UDH, UD := t.UD }) :
    UdKept t := by
  have hTa : T.Alphabet = t.Alphabet := by unfold TPDU.Alphabet; rw [hd]
  have hTu : T.UDHI = t.UDHI := by unfold TPDU.UDHI; rw [hf]
  unfold TPDU.encodeUserData at hm
  simp only at hm
  split at hm
  · cases hm
  rename_i alpha hal
  have hn : t.Alphabet.2 = none := by rw [hal]
  have empty : t.UDH = [] → t.UD = [] → UdKept t := fun a b =>
    ⟨hn, fun _ => ⟨.inr b, by unfold udLen; rw [a, b]; split <;> decide⟩⟩
  have key : ∀ (n : Nat) (b : Bytes), e = byteOf n :: b →
      ((alpha = .a7Bit → Septets t.UD) → n % 256 ≠ 0 →
        b.length = (if alpha = .a7Bit then (7 * (n % 256) + 7) / 8 else n % 256) → udLen t ≤ 255) →
      (t.UDH = [] → (if alpha = .a7Bit then n % 256 else b.length) ≤ t.UD.length) →
      UdKept t := by
    intro n b he k1 k2
    subst he
    have hx : (byteOf (n : Int)).toNat = n % 256 := by rw [toNat_byteOf]; omega
    rcases decode_facts T _ b alpha (hTa.trans hal) h1 h2 _ h with ⟨-, a, b⟩ | ⟨x0, hb, hs, hu⟩
    · exact empty a b
    rw [hx] at hb hu
    have hz : n % 256 ≠ 0 := fun h0 => x0 (UInt8.toNat_inj.mp (by rw [hx, h0]; rfl))
    by_cases hE : t.UDH = [] ∧ t.UD = []
    · exact empty hE.1 hE.2
    refine ⟨hn, fun hi => ⟨.inl fun hz => ?_, k1 hs hz hb⟩⟩
    have := k2 hz
    rcases hu (hTu.trans hi) with hu | hu
    · exact hE ⟨hz, hu⟩
    · simp only at hu; omega
  split at hm
  · rename_i h7
    simp only [h7, if_true] at key
    cases hm
    refine key _ (t.UDH.MarshalBinary ++ Gsm7.Pack7Bit t.UD _) (by rfl) ?_ ?_
    · intro hs hz hb
      have hs := hs trivial
      unfold udLen
      rw [hal, if_pos h7]
      rw [hdrLen_eq] at hz hb
      simp only [List.length_append, hdrLen_eq] at hb
      generalize hdrLen t.UDH = H at *
      by_cases hU : t.UD = []
      · rw [hU] at hb hz ⊢
        have : (Gsm7.Pack7Bit [] (if H % 7 ≠ 0 then 7 - H % 7 else 0)).length = 0 := by unfold Gsm7.Pack7Bit; rfl
        rw [this] at hb
        simp only [List.length_nil, Nat.lt_irrefl, if_false] at hz hb ⊢
        have hc : H * 8 / 7 / 256 = 0 := by omega
        have hH : H ≤ 223 := by omega
        omega
      · have hp : 0 < t.UD.length := List.length_pos_iff.2 hU
        rw [pack7Bit_length _ _ (by split <;> omega) hs hU] at hb
        rw [if_pos hp] at hz hb
        have hfill : (8 * H + (if H % 7 ≠ 0 then 7 - H % 7 else 0)) % 7 = 0 := by split <;> omega
        have hfl : (if H % 7 ≠ 0 then 7 - H % 7 else 0) ≤ 6 := by split <;> omega
        generalize (if H % 7 ≠ 0 then 7 - H % 7 else 0) = fill at *
        omega
    · intro hz
      rw [hz]
      have : UDH.MarshalBinary [] = [] := rfl
      rw [this]
      simp only [List.length_nil, Nat.zero_mul, Nat.zero_mod, ne_eq, not_true_eq_false, if_false, Nat.zero_div]
      split <;> omega
  rename_i h7
  simp only [h7, if_false] at key
  split at hm
  · cases hm
  cases hm
  refine key _ (t.UDH.MarshalBinary ++ t.UD) (by rfl) ?_ ?_
  · intro hs hz hb
    unfold udLen
    rw [hal, if_neg h7]
    simp only [List.length_append, hdrLen_eq] at hb hz
    omega
  · intro hz
    rw [hz]
    exact Nat.le_refl _

theorem ud_back' (t T : TPDU) (e : Bytes) (hm : t.encodeUserData = .ok e) (hf : T.FirstOctet = t.FirstOctet) (hd : T.DCS = t.DCS)
    (h1 : T.UDH = []) (h2 : T.UD = []) (h : T.decodeUserData e = .ok t) : UdKept t := by
  have := (ud_inv T e h1 h2 t h).1
  refine ud_back t T e hm hf hd h1 h2 ?_
  rw [h]; exact congrArg _ this

theorem opt_back (t t0 : TPDU) (pre e : Bytes) (he : t.optUserData = .ok e) (hf : t0.FirstOctet = t.FirstOctet)
    (hpi : t0.PI = t.PI) (h1 : t0.UDH = []) (h2 : t0.UD = []) (h3 : t0.PID = 0) (h4 : t0.DCS = 0)
    (h : t0.unmarshalOptionals (pre ++ (t.piOctets ++ e)) pre.length = .ok t) :
    PI.UDL t.PI = true → UdKept t := by
  intro hu
  have ho := (opt_inv t0 _ _ h1 h2 h3 h4 t h).1
  have hdcs : t.DCS = if PI.DCS t.PI then t.DCS else 0 := by
    have := congrArg TPDU.DCS ho
    rwa [← hpi]
  unfold TPDU.optUserData at he
  rw [if_pos hu] at he
  have he := wrapE_eq_ok.1 he
  unfold TPDU.unmarshalOptionals TPDU.piOctets at h
  rw [hpi] at h
  have fin : ∀ (T : TPDU) (q : Bytes) (n : Nat), T.PI = t.PI → T.FirstOctet = t0.FirstOctet → T.DCS = t.DCS → T.UDH = [] → T.UD = [] → n = q.length →
      (if PI.UDL T.PI then do
        let s ← slice (q ++ e) (n : Nat) (q ++ e).length
        wrapD "ud" n (T.decodeUserData s)
      else .ok T) = .ok t → UdKept t := by
    intro T q n g1 g2 g3 g4 g5 hn g
    rw [g1, if_pos hu, slice_from q e _ hn] at g
    simp only [ok_bind] at g
    exact ud_back' t T e he (g2.trans hf) g3 g4 g5 (wrapD_eq_ok.1 g)
  by_cases hp : PI.PID t.PI = true <;> by_cases hd : PI.DCS t.PI = true
  · simp only [if_pos hp, if_pos hd] at h
    obtain ⟨⟨t1, r1⟩, q1, h⟩ := bind_eq_ok.1 h
    obtain ⟨p, hp', q1⟩ := bind_eq_ok.1 q1
    cases q1
    simp only [if_pos hd] at h
    obtain ⟨⟨t1, r1⟩, q1, h⟩ := bind_eq_ok.1 h
    obtain ⟨c, hc, q1⟩ := bind_eq_ok.1 q1
    cases q1
    have e2 : pre ++ ([t.PID] ++ [t.DCS] ++ e) = (pre ++ [t.PID]) ++ t.DCS :: e := by simp
    have e3 : pre ++ ([t.PID] ++ [t.DCS] ++ e) = (pre ++ [t.PID, t.DCS]) ++ e := by simp
    rw [e2, readAt_mid _ _ _ _ _ (by simp)] at hc
    cases hc
    rw [e3] at h
    refine fin { t0 with PI := t.PI, PID := p, DCS := t.DCS } (pre ++ [t.PID, t.DCS]) (pre.length + 1 + 1) rfl rfl rfl h1 h2 (by simp) (by exact h)
  · simp only [if_pos hp, if_neg hd] at h
    obtain ⟨⟨t1, r1⟩, q1, h⟩ := bind_eq_ok.1 h
    obtain ⟨p, hp', q1⟩ := bind_eq_ok.1 q1
    cases q1
    simp only [if_neg hd, ok_bind] at h
    have e3 : pre ++ ([t.PID] ++ [] ++ e) = (pre ++ [t.PID]) ++ e := by simp
    rw [e3] at h
    refine fin { t0 with PI := t.PI, PID := p } (pre ++ [t.PID]) (pre.length + 1) rfl rfl (h4.trans (by rw [hdcs, if_neg hd])) h1 h2 (by simp) (by exact h)
  · simp only [if_neg hp, if_pos hd, ok_bind, hpi] at h
    obtain ⟨⟨t1, r1⟩, q1, h⟩ := bind_eq_ok.1 h
    obtain ⟨c, hc, q1⟩ := bind_eq_ok.1 q1
    cases q1
    have e2 : pre ++ ([] ++ [t.DCS] ++ e) = pre ++ t.DCS :: e := by simp
    have e3 : pre ++ ([] ++ [t.DCS] ++ e) = (pre ++ [t.DCS]) ++ e := by simp
    rw [e2, readAt_mid _ _ _ _ _ (by simp)] at hc
    cases hc
    rw [e3] at h
    refine fin { t0 with PI := t.PI, DCS := t.DCS } (pre ++ [t.DCS]) (pre.length + 1) rfl rfl rfl h1 h2 (by simp) (by exact h)
  · simp only [if_neg hp, if_neg hd, ok_bind, hpi] at h
    have e3 : pre ++ ([] ++ [] ++ e) = pre ++ e := by simp
    rw [e3] at h
    refine fin t0 _ _ hpi rfl (h4.trans (by rw [hdcs, if_neg hd])) h1 h2 rfl (by rw [hpi]; exact h)

theorem marshal_type {t : TPDU} {p : Bytes} {st : UInt8} (h : t.MarshalBinary = .ok p) (hs : t.SmsType = st) :
    (st = SmsDeliver → t.marshalDeliver = .ok p) ∧ (st = SmsDeliverReport → t.marshalDeliverReport = .ok p) ∧
    (st = SmsSubmitReport → t.marshalSubmitReport = .ok p) ∧ (st = SmsSubmit → t.marshalSubmit = .ok p) ∧
    (st = SmsStatusReport → t.marshalStatusReport = .ok p) := by
  subst hs
  unfold TPDU.MarshalBinary at h
  simp only at h
  refine ⟨fun hs => ?_, fun hs => ?_, fun hs => ?_, fun hs => ?_, fun hs => ?_⟩ <;>
    simp only [hs] at h
  · exact wrapE_eq_ok.1 h
  · exact wrapE_eq_ok.1 h
  · exact wrapE_eq_ok.1 h
  · exact wrapE_eq_ok.1 h
  · exact wrapE_eq_ok.1 h

theorem time_len {t : GoTime} {p : Bytes} (h : Timestamp.MarshalBinary t = .ok p) : p.length = 7 := by
  unfold Timestamp.MarshalBinary at h
  iterate 7 (obtain ⟨_, -, h⟩ := bind_eq_ok.1 h)
  cases h; rfl

theorem deliver_back (t : TPDU) (p : Bytes) (hdir : t.Direction = MT) (hmti : FirstOctet.MTI t.FirstOctet = 0) (hoa : AddrOk t.OA)
    (hm : t.MarshalBinary = .ok p) (h : ({ Direction := MT } : TPDU).UnmarshalBinary p = .ok t) : YearOk t.SCTS ∧ UdKept t := by
  have hst : t.SmsType = SmsDeliver := by rw [smsType_of t _ _ hmti hdir]; decide
  have hst' : ({ Direction := MT, FirstOctet := t.FirstOctet } : TPDU).SmsType = SmsDeliver :=
    (smsType_of { Direction := MT, FirstOctet := t.FirstOctet } 0 MT hmti rfl).trans (by decide)
  have hm := (marshal_type hm hst).1 rfl
  obtain ⟨oa, ha, ha'⟩ := addr_rt _ hoa
  unfold TPDU.marshalDeliver at hm
  rw [ha] at hm
  simp only [wrapE_ok, ok_bind] at hm
  obtain ⟨ts, hv, hm⟩ := bind_eq_ok.1 hm
  obtain ⟨ud, hu, hm⟩ := bind_eq_ok.1 hm
  have hv := wrapE_eq_ok.1 hv
  have hu := wrapE_eq_ok.1 hu
  have hp : p = t.FirstOctet :: (oa ++ t.PID :: t.DCS :: (ts ++ ud)) := by
    injection hm with hm
    simpa using hm.symm
  subst hp
  rw [unmarshal_Deliver _ _ hst', wrapD_eq_ok] at h
  unfold TPDU.unmarshalDeliver at h
  simp only [ha', wrapD_ok, ok_bind] at h
  rw [slice_from oa _ _ rfl] at h
  simp only [ok_bind, TPDU.readByte, wrapD_ok] at h
  obtain ⟨s, hs, h⟩ := bind_eq_ok.1 h
  have hl := time_len hv
  have : (ts ++ ud).drop 7 = ud := List.drop_left' hl
  rw [this] at h
  have h := wrapD_eq_ok.1 h
  have ho := (ud_inv _ _ (by rfl) (by rfl) _ h).1
  have hsc : t.SCTS = s := congrArg TPDU.SCTS ho
  refine ⟨time_back _ ts ud hv (hsc ▸ wrapD_eq_ok.1 hs), ?_⟩
  exact ud_back' t _ ud hu (by rfl) (by rfl) (by rfl) (by rfl) h

theorem submit_back (t : TPDU) (p : Bytes) (hdir : t.Direction = MO) (hmti : FirstOctet.MTI t.FirstOctet = 1) (hda : AddrOk t.DA)
    (hvf : FirstOctet.VPF t.FirstOctet = t.VP.Format)
    (hm : t.MarshalBinary = .ok p) (h : ({ Direction := MO } : TPDU).UnmarshalBinary p = .ok t) : VpKept t.VP ∧ UdKept t := by
  have hst : t.SmsType = SmsSubmit := by rw [smsType_of t _ _ hmti hdir]; decide
  have hst' : ({ Direction := MO, FirstOctet := t.FirstOctet } : TPDU).SmsType = SmsSubmit :=
    (smsType_of { Direction := MO, FirstOctet := t.FirstOctet } 1 MO hmti rfl).trans (by decide)
  have hm := (marshal_type hm hst).2.2.2.1 rfl
  obtain ⟨da, ha, ha'⟩ := addr_rt _ hda
  have hm0 := hm
  unfold TPDU.marshalSubmit at hm
  rw [ha] at hm
  simp only [wrapE_ok, ok_bind] at hm
  obtain ⟨ud, hu, hm⟩ := bind_eq_ok.1 hm
  have hu := wrapE_eq_ok.1 hu
  have hv : ∃ vp, t.VP.MarshalBinary = .ok vp := by
    by_cases h : t.VP.Format = VpfNotPresent
    · unfold ValidityPeriod.MarshalBinary
      rw [h, if_neg (by decide), if_neg (by decide), if_neg (by decide), if_pos rfl]
      exact ⟨_, rfl⟩
    · simp only [if_pos h] at hm
      obtain ⟨vp, hv, -⟩ := bind_eq_ok.1 hm
      exact ⟨vp, wrapE_eq_ok.1 hv⟩
  obtain ⟨vp, hv⟩ := hv
  have hm' := submit_bytes t da vp ud ha hv hu
  rw [hm0] at hm'
  injection hm' with hp
  subst hp
  rw [unmarshal_Submit _ _ hst', wrapD_eq_ok] at h
  unfold TPDU.unmarshalSubmit at h
  rw [readAt_head] at h
  simp only [ok_bind] at h
  have s1 : slice (t.MR :: (da ++ t.PID :: t.DCS :: (vp ++ ud))) ((1 : Nat) : Int)
      (t.MR :: (da ++ t.PID :: t.DCS :: (vp ++ ud))).length = .ok (da ++ t.PID :: t.DCS :: (vp ++ ud)) :=
    slice_from [t.MR] _ 1 rfl
  rw [s1] at h
  simp only [ok_bind, ha', wrapD_ok] at h
  have r1 : TPDU.readAt "pid" (t.MR :: (da ++ t.PID :: t.DCS :: (vp ++ ud))) (1 + da.length) = .ok t.PID :=
    readAt_mid "pid" (t.MR :: da) _ t.PID _ (by simp [Nat.add_comm])
  have r2 : TPDU.readAt "dcs" (t.MR :: (da ++ t.PID :: t.DCS :: (vp ++ ud))) (1 + da.length + 1) = .ok t.DCS := by
    have := readAt_mid "dcs" (t.MR :: da ++ [t.PID]) (vp ++ ud) t.DCS (1 + da.length + 1) (by simp; omega)
    simpa using this
  have s2 : slice (t.MR :: (da ++ t.PID :: t.DCS :: (vp ++ ud))) ((1 + da.length + 1 + 1 : Nat) : Int)
      (t.MR :: (da ++ t.PID :: t.DCS :: (vp ++ ud))).length = .ok (vp ++ ud) := by
    have := slice_from (t.MR :: da ++ [t.PID, t.DCS]) (vp ++ ud) (1 + da.length + 1 + 1) (by simp; omega)
    simpa using this
  have s3 : slice (t.MR :: (da ++ t.PID :: t.DCS :: (vp ++ ud))) ((1 + da.length + 1 + 1 + vp.length : Nat) : Int)
      (t.MR :: (da ++ t.PID :: t.DCS :: (vp ++ ud))).length = .ok ud := by
    have := slice_from (t.MR :: da ++ [t.PID, t.DCS] ++ vp) ud (1 + da.length + 1 + 1 + vp.length) (by simp; omega)
    simpa using this
  rw [r1] at h
  simp only [ok_bind] at h
  rw [r2] at h
  simp only [ok_bind] at h
  rw [s2] at h
  simp only [ok_bind] at h
  obtain ⟨⟨v, n⟩, hv', h⟩ := bind_eq_ok.1 h
  have hv' := wrapD_eq_ok.1 hv'
  simp only at h
  obtain ⟨s, hs, h⟩ := bind_eq_ok.1 h
  have h := wrapD_eq_ok.1 h
  have ho := (ud_inv _ _ (by rfl) (by rfl) _ h).1
  have hvv : t.VP = v := congrArg TPDU.VP ho
  subst hvv
  rw [hvf] at hv'
  obtain ⟨hk, hn⟩ := vp_back _ vp ud n hv hv'
  subst hn
  rw [s3] at hs
  cases hs
  exact ⟨hk, ud_back' t _ ud hu (by rfl) (by rfl) (by rfl) (by rfl) (wrapD_eq_ok.1 h)⟩

theorem deliverReport_back (t : TPDU) (p : Bytes) (hdir : t.Direction = MO) (hmti : FirstOctet.MTI t.FirstOctet = 0)
    (hm : t.MarshalBinary = .ok p) (h : ({ Direction := MO } : TPDU).UnmarshalBinary p = .ok t) :
    t.FCS ≠ 0 ∧ (PI.UDL t.PI = true → UdKept t) := by
  have hst : t.SmsType = SmsDeliverReport := by rw [smsType_of t _ _ hmti hdir]; decide
  have hst' : ({ Direction := MO, FirstOctet := t.FirstOctet } : TPDU).SmsType = SmsDeliverReport :=
    (smsType_of { Direction := MO, FirstOctet := t.FirstOctet } 0 MO hmti rfl).trans (by decide)
  have hm := (marshal_type hm hst).2.1 rfl
  unfold TPDU.marshalDeliverReport at hm
  obtain ⟨e, he, hm⟩ := bind_eq_ok.1 hm
  by_cases h0 : t.FCS = 0
  · exfalso
    have hp : p = t.FirstOctet :: t.PI :: (t.piOctets ++ e) := by
      injection hm with hm
      simpa [h0] using hm.symm
    subst hp
    rw [unmarshal_DeliverReport _ _ hst', wrapD_eq_ok] at h
    unfold TPDU.unmarshalDeliverReport at h
    rw [readAt_head] at h
    simp only [ok_bind] at h
    obtain ⟨pi, hpi, h⟩ := bind_eq_ok.1 h
    have hf := opt_fcs { Direction := MO, FirstOctet := t.FirstOctet, FCS := t.PI, PI := pi } _ _ rfl rfl rfl rfl _ h
    have hz : t.PI = 0 := by rw [← h0]; exact hf.symm
    have hoe : t.piOctets = [] := by unfold TPDU.piOctets; rw [hz]; rfl
    have hee : e = [] := by
      unfold TPDU.optUserData at he
      rw [hz, if_neg (by decide)] at he
      injection he with he; exact he.symm
    rw [hoe, hee] at hpi
    unfold TPDU.readAt at hpi
    rw [if_pos (by simp)] at hpi
    cases hpi
  · refine ⟨h0, ?_⟩
    have hp : p = t.FirstOctet :: ([t.FCS, t.PI] ++ (t.piOctets ++ e)) := by
      injection hm with hm
      simpa [h0] using hm.symm
    subst hp
    rw [unmarshal_DeliverReport _ _ hst', wrapD_eq_ok] at h
    unfold TPDU.unmarshalDeliverReport at h
    have r1 : TPDU.readAt "fcs" ([t.FCS, t.PI] ++ (t.piOctets ++ e)) 0 = .ok t.FCS := readAt_head _ _ _
    have r2 : TPDU.readAt "pi" ([t.FCS, t.PI] ++ (t.piOctets ++ e)) 1 = .ok t.PI := readAt_mid "pi" [t.FCS] _ _ 1 rfl
    rw [r1] at h
    simp only [ok_bind] at h
    rw [r2] at h
    simp only [ok_bind] at h
    exact opt_back t _ [t.FCS, t.PI] e he (by rfl) (by rfl) (by rfl) (by rfl) (by rfl) (by rfl) h

theorem opt_scts (t : TPDU) (src : Bytes) (ri : Nat) (h1 : t.UDH = []) (h2 : t.UD = []) (h3 : t.PID = 0) (h4 : t.DCS = 0)
    (r : TPDU) (h : t.unmarshalOptionals src ri = .ok r) : r.SCTS = t.SCTS ∧ r.DT = t.DT ∧ r.PI = t.PI := by
  obtain ⟨_, _, _, _, e⟩ := (opt_inv t src ri h1 h2 h3 h4 r h).1.elim
  rw [e]; exact ⟨rfl, rfl, rfl⟩

theorem submitReport_back (t : TPDU) (p : Bytes) (hdir : t.Direction = MT) (hmti : FirstOctet.MTI t.FirstOctet = 1)
    (hm : t.MarshalBinary = .ok p) (h : ({ Direction := MT } : TPDU).UnmarshalBinary p = .ok t) :
    t.FCS ≠ 0 ∧ YearOk t.SCTS ∧ (PI.UDL t.PI = true → UdKept t) := by
  have hst : t.SmsType = SmsSubmitReport := by rw [smsType_of t _ _ hmti hdir]; decide
  have hst' : ({ Direction := MT, FirstOctet := t.FirstOctet } : TPDU).SmsType = SmsSubmitReport :=
    (smsType_of { Direction := MT, FirstOctet := t.FirstOctet } 1 MT hmti rfl).trans (by decide)
  have hm := (marshal_type hm hst).2.2.1 rfl
  unfold TPDU.marshalSubmitReport at hm
  obtain ⟨ts, hv, hm⟩ := bind_eq_ok.1 hm
  obtain ⟨e, he, hm⟩ := bind_eq_ok.1 hm
  have hv := wrapE_eq_ok.1 hv
  have hl := time_len hv
  by_cases h0 : t.FCS = 0
  · exfalso
    have hp : p = t.FirstOctet :: t.PI :: (ts ++ (t.piOctets ++ e)) := by
      injection hm with hm
      simpa [h0] using hm.symm
    subst hp
    rw [unmarshal_SubmitReport _ _ hst', wrapD_eq_ok] at h
    unfold TPDU.unmarshalSubmitReport at h
    rw [readAt_head] at h
    simp only [ok_bind] at h
    obtain ⟨pi, hpi, h⟩ := bind_eq_ok.1 h
    split at h
    · cases h
    rename_i hlen
    obtain ⟨s, hs, h⟩ := bind_eq_ok.1 h
    obtain ⟨scts, hscts, h⟩ := bind_eq_ok.1 h
    have hf := opt_fcs { Direction := MT, FirstOctet := t.FirstOctet, FCS := t.PI, PI := pi, SCTS := scts } _ _ rfl rfl rfl rfl _ h
    have hz : t.PI = 0 := by rw [← h0]; exact hf.symm
    have hoe : t.piOctets = [] := by unfold TPDU.piOctets; rw [hz]; rfl
    have hee : e = [] := by
      unfold TPDU.optUserData at he
      rw [hz, if_neg (by decide)] at he
      injection he with he; exact he.symm
    rw [hoe, hee] at hlen
    simp [hl] at hlen
  · have hp : p = t.FirstOctet :: ((t.FCS :: t.PI :: ts) ++ (t.piOctets ++ e)) := by
      injection hm with hm
      simpa [h0] using hm.symm
    subst hp
    rw [unmarshal_SubmitReport _ _ hst', wrapD_eq_ok] at h
    unfold TPDU.unmarshalSubmitReport at h
    have r1 : TPDU.readAt "fcs" ((t.FCS :: t.PI :: ts) ++ (t.piOctets ++ e)) 0 = .ok t.FCS := readAt_head _ _ _
    have r2 : TPDU.readAt "pi" ((t.FCS :: t.PI :: ts) ++ (t.piOctets ++ e)) 1 = .ok t.PI := readAt_mid "pi" [t.FCS] _ _ 1 rfl
    have s1 : slice ((t.FCS :: t.PI :: ts) ++ (t.piOctets ++ e)) ((2 : Nat) : Int) ((2 + 7 : Nat) : Int) = .ok ts :=
      slice_mid [t.FCS, t.PI] ts _ 2 (2 + 7) rfl (by simp [hl])
    rw [r1] at h
    simp only [ok_bind] at h
    rw [r2] at h
    simp only [ok_bind] at h
    split at h
    · cases h
    rw [s1] at h
    simp only [ok_bind] at h
    obtain ⟨s, hs, h⟩ := bind_eq_ok.1 h
    have hs := wrapD_eq_ok.1 hs
    obtain ⟨hsc, -, -⟩ := opt_scts _ _ _ (by rfl) (by rfl) (by rfl) (by rfl) _ h
    have hsc : t.SCTS = s := hsc
    have hlen : 2 + 7 = (t.FCS :: t.PI :: ts).length := by simp [hl]
    rw [hlen] at h
    refine ⟨h0, time_back _ ts [] hv (by rw [List.append_nil, hsc]; exact hs), ?_⟩
    exact opt_back t _ (t.FCS :: t.PI :: ts) e he (by rfl) (by rfl) (by rfl) (by rfl) (by rfl) (by rfl) h

theorem status_back (t : TPDU) (p : Bytes) (hdir : t.Direction = MT) (hmti : FirstOctet.MTI t.FirstOctet = 2) (hra : AddrOk t.RA)
    (hm : t.MarshalBinary = .ok p) (h : ({ Direction := MT } : TPDU).UnmarshalBinary p = .ok t) :
    YearOk t.SCTS ∧ YearOk t.DT ∧ (PI.UDL t.PI = true → UdKept t) := by
  have hst : t.SmsType = SmsStatusReport := by rw [smsType_of t _ _ hmti hdir]; decide
  have hst' : ({ Direction := MT, FirstOctet := t.FirstOctet } : TPDU).SmsType = SmsStatusReport :=
    (smsType_of { Direction := MT, FirstOctet := t.FirstOctet } 2 MT hmti rfl).trans (by decide)
  have hm := (marshal_type hm hst).2.2.2.2 rfl
  obtain ⟨ra, ha, ha'⟩ := addr_rt _ hra
  unfold TPDU.marshalStatusReport at hm
  rw [ha] at hm
  simp only [wrapE_ok, ok_bind] at hm
  obtain ⟨ts, hv, hm⟩ := bind_eq_ok.1 hm
  obtain ⟨dt, hw, hm⟩ := bind_eq_ok.1 hm
  obtain ⟨e, he, hm⟩ := bind_eq_ok.1 hm
  have hv := wrapE_eq_ok.1 hv
  have hw := wrapE_eq_ok.1 hw
  have hl := time_len hv
  have hl' := time_len hw
  have hp : ∃ tail, p = t.FirstOctet :: t.MR :: (ra ++ (ts ++ (dt ++ t.ST :: tail))) ∧
      ((t.PI = 0 ∧ tail = []) ∨ tail = t.PI :: (t.piOctets ++ e)) := by
    split at hm
    · rename_i h0
      injection hm with hm
      exact ⟨[], by simpa using hm.symm, .inl ⟨h0, rfl⟩⟩
    · injection hm with hm
      exact ⟨t.PI :: (t.piOctets ++ e), by simpa using hm.symm, .inr rfl⟩
  obtain ⟨tail, rfl, htail⟩ := hp
  rw [unmarshal_StatusReport _ _ hst', wrapD_eq_ok] at h
  have hlen : (t.MR :: (ra ++ (ts ++ (dt ++ t.ST :: tail)))).length = 1 + ra.length + 7 + 7 + 1 + tail.length := by
    simp [hl, hl']; omega
  unfold TPDU.unmarshalStatusReport at h
  rw [show TPDU.readAt "mr" (t.MR :: (ra ++ (ts ++ (dt ++ t.ST :: tail)))) 0 = .ok t.MR from readAt_mid "mr" [] _ t.MR 0 rfl] at h
  simp only [ok_bind] at h
  have s1 : slice (t.MR :: (ra ++ (ts ++ (dt ++ t.ST :: tail)))) ((1 : Nat) : Int)
      (t.MR :: (ra ++ (ts ++ (dt ++ t.ST :: tail)))).length = .ok (ra ++ (ts ++ (dt ++ t.ST :: tail))) :=
    slice_from [t.MR] _ 1 rfl
  rw [s1] at h
  simp only [ok_bind, ha', wrapD_ok] at h
  rw [if_neg (by rw [hlen]; omega)] at h
  have s2 : slice (t.MR :: (ra ++ (ts ++ (dt ++ t.ST :: tail)))) ((1 + ra.length : Nat) : Int) ((1 + ra.length + 7 : Nat) : Int) = .ok ts :=
    slice_mid (t.MR :: ra) ts _ _ _ (by simp [Nat.add_comm]) (by simp [hl]; omega)
  rw [s2] at h
  simp only [ok_bind] at h
  obtain ⟨s, hs, h⟩ := bind_eq_ok.1 h
  have hs := wrapD_eq_ok.1 hs
  rw [if_neg (by rw [hlen]; omega)] at h
  have s3 : slice (t.MR :: (ra ++ (ts ++ (dt ++ t.ST :: tail)))) ((1 + ra.length + 7 : Nat) : Int) ((1 + ra.length + 7 + 7 : Nat) : Int) = .ok dt := by
    have := slice_mid (t.MR :: (ra ++ ts)) dt (t.ST :: tail) (1 + ra.length + 7) (1 + ra.length + 7 + 7) (by simp [hl]; omega) (by simp [hl, hl']; omega)
    simpa using this
  rw [s3] at h
  simp only [ok_bind] at h
  obtain ⟨d, hd, h⟩ := bind_eq_ok.1 h
  have hd := wrapD_eq_ok.1 hd
  have r1 : TPDU.readAt "st" (t.MR :: (ra ++ (ts ++ (dt ++ t.ST :: tail)))) (1 + ra.length + 7 + 7) = .ok t.ST := by
    have := readAt_mid "st" (t.MR :: (ra ++ (ts ++ dt))) tail t.ST (1 + ra.length + 7 + 7) (by simp [hl, hl']; omega)
    simpa using this
  rw [r1] at h
  simp only [ok_bind] at h
  have fin : t.SCTS = s → t.DT = d → YearOk t.SCTS ∧ YearOk t.DT := fun a b =>
    ⟨time_back _ ts [] hv (by rw [List.append_nil, a]; exact hs), time_back _ dt [] hw (by rw [List.append_nil, b]; exact hd)⟩
  rcases htail with ⟨h0, rfl⟩ | rfl
  · rw [if_neg (by rw [hlen]; simp)] at h
    injection h with h
    have f := fin (congrArg TPDU.SCTS h).symm (congrArg TPDU.DT h).symm
    exact ⟨f.1, f.2, fun hu => absurd (h0 ▸ hu : PI.UDL 0 = true) (by decide)⟩
  · rw [if_pos (by rw [hlen]; simp)] at h
    have e0 : t.MR :: (ra ++ (ts ++ (dt ++ t.ST :: t.PI :: (t.piOctets ++ e)))) = (t.MR :: (ra ++ (ts ++ (dt ++ [t.ST])))) ++ t.PI :: (t.piOctets ++ e) := by simp
    have i1 : idx (t.MR :: (ra ++ (ts ++ (dt ++ t.ST :: t.PI :: (t.piOctets ++ e))))) ((1 + ra.length + 7 + 7 + 1 : Nat) : Int) = .ok t.PI := by
      rw [e0]; exact idx_at _ _ _ _ (by simp [hl, hl']; omega)
    rw [i1] at h
    simp only [ok_bind] at h
    have e2 : 1 + ra.length + 7 + 7 + 1 + 1 = (t.MR :: (ra ++ (ts ++ (dt ++ [t.ST, t.PI])))).length := by
      simp [hl, hl']; omega
    have e3 : t.MR :: (ra ++ (ts ++ (dt ++ t.ST :: t.PI :: (t.piOctets ++ e)))) = (t.MR :: (ra ++ (ts ++ (dt ++ [t.ST, t.PI])))) ++ (t.piOctets ++ e) := by simp
    rw [e2, e3] at h
    obtain ⟨g1, g2, -⟩ := opt_scts _ _ _ (by rfl) (by rfl) (by rfl) (by rfl) _ h
    have f := fin g1 g2
    exact ⟨f.1, f.2, opt_back t _ _ e he (by rfl) (by rfl) (by rfl) (by rfl) (by rfl) (by rfl) h⟩

/-- What is read back as it was loses nothing. -/
theorem remarshal_exact (d : Int) (hd : d = MO ∨ d = MT) (src : Bytes) (t : TPDU)
    (h : ({ Direction := d } : TPDU).UnmarshalBinary src = .ok t) :
    (∃ p, t.MarshalBinary = .ok p ∧ ({ Direction := d } : TPDU).UnmarshalBinary p = .ok t) ↔ Kept t := by
  refine ⟨?_, remarshal d hd src t h⟩
  rintro ⟨p, hm, hb⟩
  have hkind := unmarshal_kind _ _ _ h
  cases src with
  | nil => cases h
  | cons fo body =>
    have hfo : fo = t.FirstOctet := by simpa using hkind.1
    have hdir : t.Direction = d := hkind.2.1
    have hst : ({ Direction := d, FirstOctet := fo } : TPDU).SmsType = t.SmsType := by
      unfold TPDU.SmsType; rw [hfo, hdir]
    obtain ⟨m1, m2, m3, m4, m5, m6⟩ := type_mti t (by rw [hdir]; exact hd)
    unfold TPDU.UnmarshalBinary at h
    rw [if_neg (by simp)] at h
    simp only [idx_zero_cons, ok_bind, hst] at h
    obtain ⟨b, _, h⟩ := bind_eq_ok.1 h
    refine ⟨fun hs => ?_, fun hs => ?_, fun hs => ?_, fun hs => ?_, fun hs => ?_, fun hs => ?_⟩
    · obtain ⟨a1, a2⟩ := m1 hs
      simp only [hs] at h
      obtain ⟨-, i1, -⟩ := deliver_inv _ _ _ _ (wrapD_eq_ok.1 h)
      rw [hdir] at a1; subst a1
      exact deliver_back t p hdir a2 i1 hm hb
    · obtain ⟨a1, a2⟩ := m2 hs
      rw [hdir] at a1; subst a1
      exact deliverReport_back t p hdir a2 hm hb
    · obtain ⟨a1, a2⟩ := m3 hs
      rw [hdir] at a1; subst a1
      exact submitReport_back t p hdir a2 hm hb
    · obtain ⟨a1, a2⟩ := m4 hs
      simp only [hs] at h
      obtain ⟨-, i1, i2, -⟩ := submit_inv _ _ _ _ (wrapD_eq_ok.1 h)
      rw [hdir] at a1; subst a1
      exact submit_back t p hdir a2 i1 (by rw [i2, hfo]) hm hb
    · obtain ⟨a1, a2⟩ := m5 hs
      simp only [hs] at h
      obtain ⟨-, i1, -⟩ := statusReport_inv _ _ _ _ (wrapD_eq_ok.1 h)
      rw [hdir] at a1; subst a1
      exact status_back t p hdir a2 i1 hm hb
    · obtain ⟨a1, a2⟩ := m6 hs
      simp only [hs] at h
      obtain ⟨e, i1, -⟩ := command_inv _ _ _ _ (wrapD_eq_ok.1 h)
      rw [hdir] at a1; subst a1
      intro hu
      obtain ⟨q, hq, hr⟩ := command_relay t hdir a2 i1
      have := marshal_eq hm hq
      subst this
      rw [hr] at hb
      have hal : ({ DCS := DCS.Dcs8BitData } : TPDU).Alphabet = (.a8Bit, none) := by decide
      have hfacts := decode_facts
        { Direction := MO, FirstOctet := t.FirstOctet, MR := t.MR, PID := t.PID, CT := t.CT, MN := t.MN, DA := t.DA,
          DCS := DCS.Dcs8BitData } _ _ .a8Bit hal rfl rfl _ hb
      rcases hfacts with ⟨-, a, b⟩ | ⟨-, hl, -, hx⟩
      · exact ⟨a, b⟩
      · rcases hx hu with hx | hx
        · rw [hx] at hb
          cases hU : t.UDH with
          | nil => exact ⟨rfl, hx⟩
          | cons x l =>
            have := congrArg (Except.map TPDU.UDH) hb
            simp only [Except.map, hU] at this
            revert this
            exact fun h => nomatch h
        · simp at hx

end Verif.Proofs
