import Verif.Proofs.Float
import Verif.Spec.Encodable
import Verif.Proofs.Bcd
import Verif.Proofs.Semioctet
import Verif.Proofs.Gsm7
import Verif.Proofs.Time
import Verif.Proofs.Basic

/-! When marshalling succeeds. -/

namespace Verif.Proofs
open Verif.Model Verif.Spec

/-- `m` returns a value if `P` holds and an error if not; it never panics. -/
def Iff' {α : Type} (m : M α) (P : Prop) : Prop := P ∧ (∃ a, m = .ok a) ∨ ¬ P ∧ ∃ e, m = .error (.err e)

theorem Iff'.ok {α : Type} (a : α) : Iff' (.ok a : M α) True := .inl ⟨trivial, a, rfl⟩

theorem Iff'.congr {α : Type} {m : M α} {P Q : Prop} (h : Iff' m P) (e : P ↔ Q) : Iff' m Q := by
  rw [propext e] at h; exact h

theorem Iff'.bind {α β : Type} {m : M α} {f : α → M β} {P Q : Prop} (h : Iff' m P)
    (hf : ∀ a, Iff' (f a) Q) : Iff' (m >>= f) (P ∧ Q) := by
  rcases h with ⟨hp, a, rfl⟩ | ⟨hp, e, rfl⟩
  · rcases hf a with ⟨hq, h⟩ | ⟨hq, h⟩
    · exact .inl ⟨⟨hp, hq⟩, h⟩
    · exact .inr ⟨fun h' => hq h'.2, h⟩
  · exact .inr ⟨fun h' => hp h'.1, e, rfl⟩

theorem Iff'.wrapE {α : Type} {m : M α} {P : Prop} (h : Iff' m P) (f : String) : Iff' (wrapE f m) P := by
  rcases h with ⟨hp, a, rfl⟩ | ⟨hp, e, rfl⟩
  · exact .inl ⟨hp, a, rfl⟩
  · exact .inr ⟨hp, _, rfl⟩

theorem total_bcd (u : Int) : Iff' (Bcd.Encode u) (0 ≤ u ∧ u ≤ 99) := by
  rw [bcd_encode]
  by_cases h : 0 ≤ u ∧ u ≤ 99
  · rw [if_pos h]; exact .inl ⟨h, _, rfl⟩
  · rw [if_neg h]; exact .inr ⟨h, _, rfl⟩

theorem total_bcdS (u : Int) : Iff' (Bcd.EncodeSigned u) (-79 ≤ u ∧ u ≤ 79) := by
  rw [bcd_encodeSigned]
  by_cases h : -79 ≤ u ∧ u ≤ 79
  · rw [if_pos h]; exact .inl ⟨h, _, rfl⟩
  · rw [if_neg h]; exact .inr ⟨h, _, rfl⟩

theorem tmod100 (y : Int) : 0 ≤ y.tmod 100 ∧ y.tmod 100 ≤ 99 ↔ 0 ≤ y ∨ y % 100 = 0 := by
  rcases Int.lt_or_le y 0 with h | h
  · obtain ⟨n, rfl⟩ : ∃ n : Nat, y = -(n:Int) := ⟨y.natAbs, by omega⟩
    rw [Int.neg_tmod, Int.tmod_eq_emod_of_nonneg (by omega)]; omega
  · rw [Int.tmod_eq_emod_of_nonneg h]; omega

theorem tdiv900 (y : Int) : -79 ≤ y.tdiv (15*60) ∧ y.tdiv (15*60) ≤ 79 ↔ -(20 * 3600) < y ∧ y < 20 * 3600 := by
  rcases Int.lt_or_le y 0 with h | h
  · obtain ⟨n, rfl⟩ : ∃ n : Nat, y = -(n:Int) := ⟨y.natAbs, by omega⟩
    rw [Int.neg_tdiv, Int.tdiv_eq_ediv_of_nonneg (by omega)]; omega
  · rw [Int.tdiv_eq_ediv_of_nonneg h]; omega

theorem total_time (t : GoTime) : Iff' (Timestamp.MarshalBinary t) (TimeEnc t) := by
  unfold Timestamp.MarshalBinary
  refine Iff'.congr (.bind (total_bcd _) fun _ => .bind (total_bcd _) fun _ => .bind (total_bcd _) fun _ =>
    .bind (total_bcd _) fun _ => .bind (total_bcd _) fun _ => .bind (total_bcd _) fun _ =>
    .bind (total_bcdS _) fun _ => Iff'.ok _) ?_
  obtain ⟨h1, h2, h3, h4, h5, h6, _⟩ := clock_fields t
  have hd := civil_valid t.localDay
  have hm : 0 ≤ t.Month ∧ t.Month ≤ 99 := by unfold GoTime.Month; unfold ValidDate at hd; omega
  have hday : 0 ≤ t.Day ∧ t.Day ≤ 99 := by
    unfold GoTime.Day; unfold ValidDate at hd
    unfold daysIn at hd
    split at hd
    · split at hd <;> omega
    · split at hd <;> omega
  rw [tmod100, tdiv900]
  unfold TimeEnc
  constructor
  · rintro ⟨a, _, _, _, _, _, b, _⟩; exact ⟨a, b⟩
  · rintro ⟨a, b⟩; exact ⟨a, hm, hday, ⟨h1, by omega⟩, ⟨h3, by omega⟩, ⟨h5, by omega⟩, b, trivial⟩

theorem total_addr (a : Address) : Iff' a.MarshalBinary (AddrEnc a) := by
  unfold Address.MarshalBinary AddrEnc
  by_cases h : a.TypeOfNumber = 5
  · rw [if_pos h, if_pos (show a.TypeOfNumber = Address.TonAlphanumeric from h)]
    refine Iff'.congr (.bind (Iff'.wrapE (P := ∀ r ∈ Unicode.decodeRunes a.Addr, ∃ g, (g, r) ∈ Charset.NewDecoder 0) ?_ _)
      fun _ => Iff'.ok _) (by simp)
    rw [encoder_encode_eq]
    have e : (Gsm7.NewEncoder []).WithoutExt = ⟨Charset.NewEncoder 0, []⟩ := rfl
    rw [e]
    by_cases hc : ∀ r ∈ Unicode.decodeRunes a.Addr, ∃ g, (g, r) ∈ Charset.NewDecoder 0
    · refine .inl ⟨hc, ?_⟩
      apply encoder_loop_complete
      intro r hr
      obtain ⟨c, hc⟩ := hc r hr
      obtain ⟨c', hc', _⟩ := (locking_ok 0).total _ _ ((locking_ok 0).mem _ _ hc)
      left; simp [hc']
    · refine .inr ⟨hc, ?_⟩
      cases hl : Gsm7.Encoder.loop ⟨Charset.NewEncoder 0, []⟩ (Unicode.decodeRunes a.Addr) with
      | ok g =>
        exfalso; apply hc
        intro r hr
        rcases encoder_loop_ok _ _ g hl r hr with h | h
        · obtain ⟨c, hc⟩ := Option.isSome_iff_exists.mp h
          exact ⟨c, lookup_mem ((locking_ok 0).sect _ _ hc).1⟩
        · simp at h
      | error f =>
        obtain ⟨_, u, _, _, _, _, _, rfl⟩ := encoder_loop_error _ _ f hl
        exact ⟨_, rfl⟩
  · rw [if_neg h, if_neg (show ¬ a.TypeOfNumber = Address.TonAlphanumeric from h)]
    refine Iff'.congr (.bind (Iff'.wrapE (P := Digits a.Addr) ?_ _) fun _ => Iff'.ok _) (by simp)
    by_cases hd : Digits a.Addr
    · obtain ⟨p, h1, _⟩ := encodeLoop_ok a.Addr none (by simp) hd
      exact .inl ⟨hd, p, h1⟩
    · obtain ⟨_, d, _, _, _, _, h1⟩ := encodeLoop_error a.Addr none hd
      exact .inr ⟨hd, _, h1⟩

theorem hms (d : Int) : ((0 ≤ (Float.whole d hour).tmod 100 ∧ (Float.whole d hour).tmod 100 ≤ 99) ∧
    (0 ≤ (Float.whole d minute).tmod 60 ∧ (Float.whole d minute).tmod 60 ≤ 99) ∧
    (0 ≤ (Float.whole d second).tmod 60 ∧ (Float.whole d second).tmod 60 ≤ 99)) ↔
    (0 ≤ d ∨ Float.whole d hour % 100 = 0 ∧ Float.whole d minute % 60 = 0 ∧ Float.whole d second % 60 = 0) := by
  rcases Int.lt_or_le d 0 with h | h
  · obtain ⟨e, rfl⟩ : ∃ e : Int, d = -e := ⟨-d, by omega⟩
    have n1 := Float.whole_nonneg e hour (by omega)
    have n2 := Float.whole_nonneg e minute (by omega)
    have n3 := Float.whole_nonneg e second (by omega)
    simp only [Float.whole_neg]
    generalize Float.whole e hour = x at *
    generalize Float.whole e minute = y at *
    generalize Float.whole e second = z at *
    rw [Int.neg_tmod, Int.neg_tmod, Int.neg_tmod, Int.tmod_eq_emod_of_nonneg n1,
      Int.tmod_eq_emod_of_nonneg n2, Int.tmod_eq_emod_of_nonneg n3]
    omega
  · rw [Int.tmod_eq_emod_of_nonneg (Float.whole_nonneg d hour h), Int.tmod_eq_emod_of_nonneg (Float.whole_nonneg d minute h),
      Int.tmod_eq_emod_of_nonneg (Float.whole_nonneg d second h)]
    omega

theorem total_vp (v : ValidityPeriod) : Iff' v.MarshalBinary (VpEnc v) := by
  unfold ValidityPeriod.MarshalBinary VpEnc
  by_cases h3 : v.Format = VpfAbsolute
  · rw [if_pos h3]
    exact (total_time _).congr (by rw [h3]; simp [VpfAbsolute, VpfNotPresent, VpfRelative, VpfEnhanced])
  rw [if_neg h3]
  by_cases h1 : v.Format = VpfEnhanced
  · rw [if_pos h1]
    have he : ∀ efi : UInt8, (efi &&& 7 > EvpfRelativeHHMMSS ↔ ¬ efi.toNat % 8 ≤ 3) ∧
        (efi &&& 7 = EvpfRelative ↔ efi.toNat % 8 = 1) ∧ (efi &&& 7 = EvpfRelativeSeconds ↔ efi.toNat % 8 = 2) ∧
        (efi &&& 7 = EvpfRelativeHHMMSS ↔ efi.toNat % 8 = 3) := by apply forall_u8; decide +kernel
    obtain ⟨e1, e2, e3, e4⟩ := he v.EFI
    simp only [e1, e2, e3, e4]
    have hc : (v.Format = VpfNotPresent ∨ v.Format = VpfRelative ∨ v.Format = VpfAbsolute ∧ TimeEnc v.Time ∨
        v.Format = VpfEnhanced ∧ (v.EFI.toNat % 8 < 3 ∨ v.EFI.toNat % 8 = 3 ∧ (0 ≤ v.Duration ∨
          Float.whole v.Duration hour % 100 = 0 ∧ Float.whole v.Duration minute % 60 = 0 ∧ Float.whole v.Duration second % 60 = 0))) ↔
        (v.EFI.toNat % 8 < 3 ∨ v.EFI.toNat % 8 = 3 ∧ (0 ≤ v.Duration ∨
          Float.whole v.Duration hour % 100 = 0 ∧ Float.whole v.Duration minute % 60 = 0 ∧ Float.whole v.Duration second % 60 = 0)) := by
      rw [h1]; simp [VpfAbsolute, VpfNotPresent, VpfRelative, VpfEnhanced]
    rw [propext hc]
    by_cases c0 : v.EFI.toNat % 8 ≤ 3
    · rw [if_neg (by omega)]
      by_cases c1 : v.EFI.toNat % 8 = 1
      · rw [if_pos c1]; exact (Iff'.ok _).congr (by simp; omega)
      rw [if_neg c1]
      by_cases c2 : v.EFI.toNat % 8 = 2
      · rw [if_pos c2]; exact (Iff'.ok _).congr (by simp; omega)
      rw [if_neg c2]
      by_cases c3 : v.EFI.toNat % 8 = 3
      · rw [if_pos c3]
        refine Iff'.congr (.bind ((total_bcd _).wrapE _) fun _ => .bind ((total_bcd _).wrapE _) fun _ =>
          .bind ((total_bcd _).wrapE _) fun _ => Iff'.ok _) ?_
        have := hms v.Duration
        simp only [and_true]
        rw [this]; omega
      · rw [if_neg c3]; exact (Iff'.ok _).congr (by simp; omega)
    · rw [if_pos c0]; exact .inr ⟨by omega, _, rfl⟩
  rw [if_neg h1]
  by_cases h2 : v.Format = VpfRelative
  · rw [if_pos h2]; exact (Iff'.ok _).congr (by simp [h2])
  rw [if_neg h2]
  by_cases h0 : v.Format = VpfNotPresent
  · rw [if_pos h0]; exact (Iff'.ok _).congr (by simp [h0])
  rw [if_neg h0]
  exact .inr ⟨by simp [h0, h1, h2, h3], _, rfl⟩

theorem total_ud (t : TPDU) : Iff' t.encodeUserData (UdEnc t) := by
  have h : ∀ d : UInt8, (8 ≤ d.toNat / 16 ∧ d.toNat / 16 ≤ 11) ↔ (DCS.Alphabet d).2 = some .invalid ∧ (DCS.Alphabet d).2 ≠ none := by
    apply forall_u8; decide +kernel
  have h' : ∀ d : UInt8, (DCS.Alphabet d).2 = some .invalid ∨ (DCS.Alphabet d).2 = none := by
    apply forall_u8; decide +kernel
  unfold UdEnc TPDU.encodeUserData
  rw [h, show DCS.Alphabet t.DCS = t.Alphabet from rfl]
  have h' := h' t.DCS
  rw [show DCS.Alphabet t.DCS = t.Alphabet from rfl] at h'
  generalize t.Alphabet = x at h'
  obtain ⟨a, e⟩ := x
  rcases h' with rfl | rfl
  · exact .inr ⟨by simp, _, rfl⟩
  · simp only
    cases a with
    | a7Bit => rw [if_pos rfl]; exact (Iff'.ok _).congr (by simp)
    | ucs2 =>
      rw [if_neg (by decide)]
      by_cases hu : t.UD.length % 2 = 1
      · rw [if_pos ⟨rfl, hu⟩]; exact .inr ⟨by simp; omega, _, rfl⟩
      · rw [if_neg (fun h => hu h.2)]; exact (Iff'.ok _).congr (by simp; omega)
    | a8Bit => rw [if_neg (by decide), if_neg (fun h => by cases h.1)]; exact (Iff'.ok _).congr (by simp)
    | reserved => rw [if_neg (by decide), if_neg (fun h => by cases h.1)]; exact (Iff'.ok _).congr (by simp)

theorem total_opt (t : TPDU) : Iff' t.optUserData (OptEnc t) := by
  have h : ∀ p : UInt8, PI.UDL p = p.toNat.testBit 2 := by apply forall_u8; decide +kernel
  unfold TPDU.optUserData OptEnc
  rw [h]
  by_cases hp : t.PI.toNat.testBit 2 = true
  · rw [if_pos hp]; exact ((total_ud t).wrapE _).congr (by simp [hp])
  · rw [if_neg hp]; exact (Iff'.ok _).congr (by simp [hp])

theorem total_marshal (t : TPDU) : Iff' t.MarshalBinary (Encodable t) := by
  unfold TPDU.MarshalBinary Encodable
  simp only
  by_cases h : t.SmsType = SmsDeliver
  · rw [if_pos h]
    refine (Iff'.wrapE (.bind ((total_addr _).wrapE _) fun _ => .bind ((total_time _).wrapE _) fun _ =>
      .bind ((total_ud _).wrapE _) fun _ => Iff'.ok _) _).congr ?_
    rw [h]; simp [SmsDeliver, SmsDeliverReport, SmsSubmitReport, SmsSubmit, SmsStatusReport, SmsCommand]
  rw [if_neg h]
  by_cases h1 : t.SmsType = SmsDeliverReport
  · rw [if_pos h1]
    refine (Iff'.wrapE (.bind (total_opt _) fun _ => Iff'.ok _) _).congr ?_
    rw [h1]; simp [SmsDeliver, SmsDeliverReport, SmsSubmitReport, SmsSubmit, SmsStatusReport, SmsCommand]
  rw [if_neg h1]
  by_cases h2 : t.SmsType = SmsSubmitReport
  · rw [if_pos h2]
    refine (Iff'.wrapE (.bind ((total_time _).wrapE _) fun _ => .bind (total_opt _) fun _ => Iff'.ok _) _).congr ?_
    rw [h2]; simp [SmsDeliver, SmsDeliverReport, SmsSubmitReport, SmsSubmit, SmsStatusReport, SmsCommand]
  rw [if_neg h2]
  by_cases h3 : t.SmsType = SmsSubmit
  · rw [if_pos h3]
    refine (Iff'.wrapE (P := AddrEnc t.DA ∧ UdEnc t ∧ VpEnc t.VP ∧ True) ?_ _).congr ?_
    · unfold TPDU.marshalSubmit
      by_cases hv : t.VP.Format ≠ VpfNotPresent
      · simp only [if_pos hv]
        exact .bind ((total_addr _).wrapE _) fun _ => .bind ((total_ud _).wrapE _) fun _ =>
          .bind ((total_vp _).wrapE _) fun _ => Iff'.ok _
      · simp only [if_neg hv]
        exact .bind ((total_addr _).wrapE _) fun _ => .bind ((total_ud _).wrapE _) fun _ =>
          .bind ((Iff'.ok _).congr (by unfold VpEnc; simp at hv; simp [hv])) fun _ => Iff'.ok _
    · rw [h3]; simp [SmsDeliver, SmsDeliverReport, SmsSubmitReport, SmsSubmit, SmsStatusReport, SmsCommand]
  rw [if_neg h3]
  by_cases h4 : t.SmsType = SmsStatusReport
  · rw [if_pos h4]
    refine (Iff'.wrapE (.bind ((total_addr _).wrapE _) fun _ => .bind ((total_time _).wrapE _) fun _ =>
      .bind ((total_time _).wrapE _) fun _ => .bind (total_opt _) (Q := True) fun _ => ?_) _).congr ?_
    · simp only; split <;> exact Iff'.ok _
    · rw [h4]; simp [SmsDeliver, SmsDeliverReport, SmsSubmitReport, SmsSubmit, SmsStatusReport, SmsCommand]
  rw [if_neg h4]
  by_cases h5 : t.SmsType = SmsCommand
  · rw [if_pos h5]
    refine (Iff'.wrapE (.bind ((total_addr _).wrapE _) fun _ => Iff'.ok _) _).congr ?_
    rw [h5]; simp [SmsDeliver, SmsDeliverReport, SmsSubmitReport, SmsSubmit, SmsStatusReport, SmsCommand]
  rw [if_neg h5]
  exact .inr ⟨by simp [*], _, rfl⟩

end Verif.Proofs
