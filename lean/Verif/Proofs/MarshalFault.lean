import Verif.Spec.MarshalFault
import Verif.Proofs.MarshalTotal

/-! Which error marshalling returns. -/

namespace Verif.Proofs
open Verif.Model Verif.Spec

/-- `m` returns the error `o`, or a value when there is none. -/
def Reports {α : Type} (m : M α) (o : Option Err) : Prop :=
  (o = none ∧ ∃ a, m = .ok a) ∨ ∃ e, o = some e ∧ m = .error (.err e)

/-- The fault as an error. -/
def encErr (p : String × Err) : Err := .encode p.1 p.2

theorem Reports.ok {α : Type} (a : α) : Reports (.ok a : M α) none := .inl ⟨rfl, a, rfl⟩
theorem Reports.fail {α : Type} (e : Err) : Reports (fail e : M α) (some e) := .inr ⟨e, rfl, rfl⟩

theorem Reports.congr {α : Type} {m : M α} {o o' : Option Err} (h : Reports m o) (e : o = o') : Reports m o' := e ▸ h

theorem Reports.bind {α β : Type} {m : M α} {f : α → M β} {o o' : Option Err} (h : Reports m o)
    (hf : ∀ a, Reports (f a) o') : Reports (m >>= f) (o <|> o') := by
  rcases h with ⟨rfl, a, rfl⟩ | ⟨e, rfl, rfl⟩
  · exact hf a
  · exact .inr ⟨e, rfl, rfl⟩

theorem Reports.wrapE {α : Type} {m : M α} {o : Option Err} (h : Reports m o) (f : String) :
    Reports (wrapE f m) (o.map (encodeError f)) := by
  rcases h with ⟨rfl, a, rfl⟩ | ⟨e, rfl, rfl⟩
  · exact .ok a
  · exact .fail _

theorem report_bcd (u : Int) : Reports (Bcd.Encode u) (if u < 0 ∨ 99 < u then some (.bcdInvalidInteger u) else none) := by
  rw [bcd_encode]
  by_cases h : 0 ≤ u ∧ u ≤ 99
  · rw [if_pos h, if_neg (by omega)]; exact .ok _
  · rw [if_neg h, if_pos (by omega)]; exact .fail _

theorem report_bcdS (u : Int) : Reports (Bcd.EncodeSigned u) (if u < -79 ∨ 79 < u then some (.bcdInvalidInteger u) else none) := by
  rw [bcd_encodeSigned]
  by_cases h : -79 ≤ u ∧ u ≤ 79
  · rw [if_pos h, if_neg (show ¬ (u < -79 ∨ 79 < u) by omega)]; exact .ok _
  · rw [if_neg h, if_pos (show u < -79 ∨ 79 < u by omega)]; exact .fail _

theorem tmod_neg (y : Int) (n : Nat) (h : y < 0) : y.tmod n = -(-y % n) := by
  obtain ⟨k, rfl⟩ : ∃ k : Nat, y = -(k:Int) := ⟨y.natAbs, by omega⟩
  rw [Int.neg_tmod, Int.tmod_eq_emod_of_nonneg (by omega), Int.neg_neg]

theorem tdiv_neg (y n : Int) (h : y < 0) : y.tdiv n = -(-y / n) := by
  obtain ⟨k, rfl⟩ : ∃ k : Nat, y = -(k:Int) := ⟨y.natAbs, by omega⟩
  rw [Int.neg_tdiv, Int.tdiv_eq_ediv_of_nonneg (by omega), Int.neg_neg]

theorem report_time (t : GoTime) : Reports (Timestamp.MarshalBinary t) (timeFault t) := by
  unfold Timestamp.MarshalBinary
  refine Reports.congr (.bind (report_bcd _) fun _ => .bind (report_bcd _) fun _ => .bind (report_bcd _) fun _ =>
    .bind (report_bcd _) fun _ => .bind (report_bcd _) fun _ => .bind (report_bcd _) fun _ =>
    .bind (report_bcdS _) fun _ => Reports.ok _) ?_
  obtain ⟨h1, h2, h3, h4, h5, h6, _⟩ := clock_fields t
  have hd := civil_valid t.localDay
  have hm : 0 ≤ t.Month ∧ t.Month ≤ 99 := by unfold GoTime.Month; unfold ValidDate at hd; omega
  have hday : 0 ≤ t.Day ∧ t.Day ≤ 99 := by
    unfold GoTime.Day; unfold ValidDate at hd
    unfold daysIn at hd
    split at hd
    · split at hd <;> omega
    · split at hd <;> omega
  rw [if_neg (show ¬ (t.Month < 0 ∨ 99 < t.Month) by omega), if_neg (show ¬ (t.Day < 0 ∨ 99 < t.Day) by omega),
    if_neg (show ¬ (t.Hour < 0 ∨ 99 < t.Hour) by omega), if_neg (show ¬ (t.Minute < 0 ∨ 99 < t.Minute) by omega),
    if_neg (show ¬ (t.Second < 0 ∨ 99 < t.Second) by omega)]
  unfold timeFault
  have hy := tmod100 t.Year
  have hz := tdiv900 t.off
  by_cases c : t.Year < 0 ∧ t.Year % 100 ≠ 0
  · rw [if_pos c, if_pos (by omega)]
    rw [show t.Year.tmod 100 = -(-t.Year % 100) from tmod_neg t.Year 100 c.1]; rfl
  · rw [if_neg c, if_neg (by omega)]
    by_cases c1 : 20 * 3600 ≤ t.off
    · rw [if_pos c1, if_pos (by omega), Int.tdiv_eq_ediv_of_nonneg (by omega)]; rfl
    · rw [if_neg c1]
      by_cases c2 : t.off ≤ -(20 * 3600)
      · rw [if_pos c2, if_pos (by omega), tdiv_neg _ _ (by omega)]; rfl
      · rw [if_neg c2, if_neg (by omega)]; rfl

theorem find_split {α : Type} {p : α → Bool} {a b : List α} {x : α} (ha : ∀ y ∈ a, p y = false) (hx : p x = true) :
    (a ++ x :: b).find? p = some x := by
  rw [List.find?_append, List.find?_eq_none.2 (by intro y hy; simp [ha y hy])]
  simp [hx]

theorem report_addr (a : Address) : Reports a.MarshalBinary ((addrFault a).map fun e => encErr ("addr", e)) := by
  unfold Address.MarshalBinary addrFault
  by_cases h : a.TypeOfNumber = 5
  · rw [if_pos h, if_pos (show a.TypeOfNumber = Address.TonAlphanumeric from h)]
    refine Reports.congr (.bind (Reports.wrapE (o := ((Unicode.decodeRunes a.Addr).find? fun r =>
      (Charset.NewDecoder 0).all fun p => p.2 ≠ r).map .gsm7InvalidUTF8) ?_ _) fun _ => Reports.ok _) ?_
    · rw [encoder_encode_eq]
      have e : (Gsm7.NewEncoder []).WithoutExt = ⟨Charset.NewEncoder 0, []⟩ := rfl
      rw [e]
      have hset : ∀ r c, (Charset.NewEncoder 0).lookup r = some c → ¬ ((Charset.NewDecoder 0).all fun p => p.2 ≠ r) = true := by
        intro r c hc hall
        have := List.all_eq_true.1 hall _ (lookup_mem ((locking_ok 0).sect _ _ hc).1)
        simp at this
      have hno : ∀ r, (Charset.NewEncoder 0).lookup r = none → ((Charset.NewDecoder 0).all fun p => p.2 ≠ r) = true := by
        intro r hr
        rw [List.all_eq_true]
        intro p hp
        simp only [decide_eq_true_eq]
        rintro rfl
        obtain ⟨c', hc', _⟩ := (locking_ok 0).total _ _ ((locking_ok 0).mem _ _ hp)
        rw [hc'] at hr; cases hr
      generalize Unicode.decodeRunes a.Addr = rs
      induction rs with
      | nil => exact .ok _
      | cons r rs ih =>
        unfold Gsm7.Encoder.loop
        rcases hr : (Charset.NewEncoder 0).lookup r with _ | c
        · rw [List.find?_cons_of_pos (p := fun r => (Charset.NewDecoder 0).all fun p => decide (p.2 ≠ r)) (hno r hr)]
          exact .fail _
        · rw [List.find?_cons_of_neg (p := fun r => (Charset.NewDecoder 0).all fun p => decide (p.2 ≠ r)) (hset r c hr)]
          exact (Reports.bind ih fun _ => Reports.ok _).congr (by simp)
    · rw [Option.map_map, Option.map_map]
      simp [Function.comp_def, encodeError, encErr]
  · rw [if_neg h, if_neg (show ¬ a.TypeOfNumber = Address.TonAlphanumeric from h)]
    refine Reports.congr (.bind (Reports.wrapE (o := (a.Addr.find? fun d => d ∉ digitChars).map .semiInvalidDigit) ?_ _) fun _ => Reports.ok _) ?_
    · by_cases hd : Digits a.Addr
      · obtain ⟨p, h1, _⟩ := encodeLoop_ok a.Addr none (by simp) hd
        refine .inl ⟨?_, p, h1⟩
        rw [List.find?_eq_none.2 (by intro d h; simpa using hd d h)]; rfl
      · obtain ⟨u, d, v, e1, e2, e3, h1⟩ := encodeLoop_error a.Addr none hd
        refine .inr ⟨_, ?_, h1⟩
        rw [e1, find_split (by intro y hy; simpa using e2 y hy) (by simpa using e3)]; rfl
    · rw [Option.map_map, Option.map_map]
      simp [Function.comp_def, encodeError, encErr]

theorem report_hms (d : Int) : Reports (do
      let h ← wrapE "enhanced" (Bcd.Encode ((Float.whole d hour).tmod 100))
      let m ← wrapE "enhanced" (Bcd.Encode ((Float.whole d minute).tmod 60))
      let s ← wrapE "enhanced" (Bcd.Encode ((Float.whole d second).tmod 60))
      return (h, m, s)) ((hmsFault d).map fun e => encErr ("enhanced", e)) := by
  refine Reports.congr (.bind ((report_bcd _).wrapE _) fun _ => .bind ((report_bcd _).wrapE _) fun _ =>
          .bind ((report_bcd _).wrapE _) fun _ => Reports.ok _) ?_
  unfold hmsFault
  by_cases h : d < 0
  · have key : ∀ u : Int, ∀ n : Nat, 0 < n → (Float.whole d u).tmod n = -(Float.whole (-d) u % n) := by
      intro u n hn
      have h0 := Float.whole_nonneg (-d) u (by omega)
      rw [← Int.tmod_eq_emod_of_nonneg h0, Float.whole_neg, Int.neg_tmod, Int.neg_neg]
    have k1 : (Float.whole d hour).tmod 100 = -(Float.whole (-d) hour % 100) := key hour 100 (by decide)
    have k2 : (Float.whole d minute).tmod 60 = -(Float.whole (-d) minute % 60) := key minute 60 (by decide)
    have k3 : (Float.whole d second).tmod 60 = -(Float.whole (-d) second % 60) := key second 60 (by decide)
    rw [k1, k2, k3, if_pos h]
    generalize hH : Float.whole (-d) hour % 100 = H
    generalize hM : Float.whole (-d) minute % 60 = Mi
    generalize hS : Float.whole (-d) second % 60 = S
    have : 0 ≤ H ∧ H < 100 := by omega
    have : 0 ≤ Mi ∧ Mi < 60 := by omega
    have : 0 ≤ S ∧ S < 60 := by omega
    by_cases c1 : H = 0
    · rw [List.find?_cons_of_neg (by simp [c1]), if_neg (by omega)]
      by_cases c2 : Mi = 0
      · rw [List.find?_cons_of_neg (by simp [c2]), if_neg (by omega)]
        by_cases c3 : S = 0
        · rw [List.find?_cons_of_neg (by simp [c3]), if_neg (by omega)]; rfl
        · rw [List.find?_cons_of_pos (by simp [c3]), if_pos (by omega)]; rfl
      · rw [List.find?_cons_of_pos (by simp [c2]), if_pos (by omega)]; rfl
    · rw [List.find?_cons_of_pos (by simp [c1]), if_pos (by omega)]; rfl
  · have key : ∀ u : Int, ∀ n : Nat, 0 < n → n ≤ 100 → 0 ≤ (Float.whole d u).tmod n ∧ (Float.whole d u).tmod n ≤ 99 := by
      intro u n _ _
      rw [Int.tmod_eq_emod_of_nonneg (Float.whole_nonneg d u (by omega))]
      have := Int.emod_nonneg (Float.whole d u) (show (n : Int) ≠ 0 by omega)
      have := Int.emod_lt_of_pos (Float.whole d u) (show (0 : Int) < n by omega)
      omega
    have k1 : 0 ≤ (Float.whole d hour).tmod 100 ∧ (Float.whole d hour).tmod 100 ≤ 99 := key hour 100 (by decide) (by decide)
    have k2 : 0 ≤ (Float.whole d minute).tmod 60 ∧ (Float.whole d minute).tmod 60 ≤ 99 := key minute 60 (by decide) (by decide)
    have k3 : 0 ≤ (Float.whole d second).tmod 60 ∧ (Float.whole d second).tmod 60 ≤ 99 := key second 60 (by decide) (by decide)
    rw [if_neg h, if_neg (by omega), if_neg (by omega), if_neg (by omega)]; rfl

theorem timeFault_bcd {t : GoTime} {e : Err} (h : timeFault t = some e) : ∃ i, e = .bcdInvalidInteger i := by
  unfold timeFault at h
  split at h
  · cases h; exact ⟨_, rfl⟩
  split at h
  · cases h; exact ⟨_, rfl⟩
  split at h
  · cases h; exact ⟨_, rfl⟩
  · cases h

theorem report_vp (v : ValidityPeriod) : Reports (wrapE "vp" v.MarshalBinary) ((vpFault v).map encErr) := by
  unfold ValidityPeriod.MarshalBinary vpFault
  by_cases h3 : v.Format = VpfAbsolute
  · rw [if_pos h3, if_neg (by rw [h3]; decide), if_pos h3]
    refine ((report_time _).wrapE _).congr ?_
    rcases h : timeFault v.Time with _ | e
    · rfl
    · obtain ⟨i, rfl⟩ := timeFault_bcd h; rfl
  rw [if_neg h3]
  by_cases h1 : v.Format = VpfEnhanced
  · rw [if_pos h1, if_neg (show ¬ (v.Format = VpfNotPresent ∨ v.Format = VpfRelative) by rw [h1]; decide), if_neg h3, if_pos h1]
    have he : ∀ efi : UInt8, (efi &&& 7 > EvpfRelativeHHMMSS ↔ 3 < efi.toNat % 8) ∧
        (efi &&& 7 = EvpfRelative ↔ efi.toNat % 8 = 1) ∧ (efi &&& 7 = EvpfRelativeSeconds ↔ efi.toNat % 8 = 2) ∧
        (efi &&& 7 = EvpfRelativeHHMMSS ↔ efi.toNat % 8 = 3) := by apply forall_u8; decide +kernel
    obtain ⟨e1, e2, e3, e4⟩ := he v.EFI
    simp only [e1, e2, e3, e4]
    by_cases c0 : 3 < v.EFI.toNat % 8
    · rw [if_pos c0, if_pos c0]; exact .fail _
    rw [if_neg c0, if_neg c0]
    by_cases c1 : v.EFI.toNat % 8 = 1
    · rw [if_pos c1, if_neg (show ¬ v.EFI.toNat % 8 = 3 by omega)]; exact .ok _
    rw [if_neg c1]
    by_cases c2 : v.EFI.toNat % 8 = 2
    · rw [if_pos c2, if_neg (show ¬ v.EFI.toNat % 8 = 3 by omega)]; exact .ok _
    rw [if_neg c2]
    by_cases c3 : v.EFI.toNat % 8 = 3
    · rw [if_pos c3, if_pos c3]
      have := Reports.bind (report_hms v.Duration) (f := fun x => (.ok [v.EFI, x.1, x.2.1, x.2.2, 0, 0, 0] : M Bytes)) fun _ => Reports.ok _
      simp only [bind_assoc, pure_bind] at this
      refine (this.wrapE "vp").congr ?_
      rcases hmsFault v.Duration with _ | e <;> rfl
    · rw [if_neg c3, if_neg c3]; exact .ok _
  rw [if_neg h1]
  by_cases h2 : v.Format = VpfRelative
  · rw [if_pos h2, if_pos (.inr h2)]; exact .ok _
  rw [if_neg h2]
  by_cases h0 : v.Format = VpfNotPresent
  · rw [if_pos h0, if_pos (.inl h0)]; exact .ok _
  rw [if_neg h0, if_neg (by simp [h0, h2]), if_neg h3, if_neg h1]
  exact .fail _

theorem report_ud (t : TPDU) : Reports (wrapE "ud" t.encodeUserData) ((udFault t).map encErr) := by
  have h : ∀ d : UInt8, (8 ≤ d.toNat / 16 ∧ d.toNat / 16 ≤ 11) ↔ (DCS.Alphabet d).2 = some .invalid := by
    apply forall_u8; decide +kernel
  have h' : ∀ d : UInt8, (DCS.Alphabet d).2 = some .invalid ∨ (DCS.Alphabet d).2 = none := by
    apply forall_u8; decide +kernel
  unfold udFault TPDU.encodeUserData
  simp only [h]
  have h' := h' t.DCS
  rw [show DCS.Alphabet t.DCS = t.Alphabet from rfl] at h' ⊢
  generalize t.Alphabet = x at h'
  obtain ⟨a, e⟩ := x
  rcases h' with rfl | rfl
  · exact .fail _
  · simp only
    rw [if_neg (show ¬ (none : Option Err) = some .invalid by simp)]
    cases a with
    | a7Bit => rw [if_pos rfl, if_neg (show ¬ (Alphabet.a7Bit = .ucs2 ∧ t.UD.length % 2 = 1) from fun h => by cases h.1)]; exact .ok _
    | ucs2 =>
      rw [if_neg (by decide)]
      by_cases hu : t.UD.length % 2 = 1
      · rw [if_pos ⟨rfl, hu⟩, if_pos ⟨rfl, hu⟩]; exact .fail _
      · rw [if_neg (fun h => hu h.2), if_neg (fun h => hu h.2)]; exact .ok _
    | a8Bit => rw [if_neg (by decide), if_neg (fun h => by cases h.1), if_neg (fun h => by cases h.1)]; exact .ok _
    | reserved => rw [if_neg (by decide), if_neg (fun h => by cases h.1), if_neg (fun h => by cases h.1)]; exact .ok _

theorem report_opt (t : TPDU) : Reports t.optUserData ((optFault t).map encErr) := by
  have h : ∀ p : UInt8, PI.UDL p = p.toNat.testBit 2 := by apply forall_u8; decide +kernel
  unfold TPDU.optUserData optFault
  rw [h]
  split
  · exact report_ud t
  · exact .ok _

theorem report_addrIn (f : String) (a : Address) : Reports (wrapE f a.MarshalBinary) ((addrIn f a).map encErr) := by
  refine ((report_addr a).wrapE f).congr ?_
  unfold addrIn
  rcases addrFault a with _ | e
  · rfl
  · show some (Err.encode (f ++ "." ++ "addr") e) = some (Err.encode (f ++ ".addr") e)
    rw [String.append_assoc]; rfl

theorem report_timeIn (f : String) (t : GoTime) : Reports (wrapE f (Timestamp.MarshalBinary t)) ((timeIn f t).map encErr) := by
  refine ((report_time t).wrapE f).congr ?_
  unfold timeIn
  rcases h : timeFault t with _ | e
  · rfl
  · obtain ⟨i, rfl⟩ := timeFault_bcd h; rfl

theorem or_map {α β : Type} (f : α → β) (a b : Option α) : (a.map f <|> b.map f) = (a <|> b).map f := by
  cases a <;> rfl

theorem report_type {name : String} {m : M Bytes} {o : Option (String × Err)} (h : Reports m (o.map encErr)) :
    Reports (wrapE name m) (o.map fun p => .encode (name ++ "." ++ p.1) p.2) := by
  refine (h.wrapE name).congr ?_
  rcases o with _ | p <;> rfl

end Verif.Proofs
