import Verif.Model.Time
import Verif.Spec.Calendar
import Verif.Proofs.Bcd
import Verif.Proofs.Basic

/-! Helper lemmas for the calendar and timestamps. -/

namespace Verif.Proofs
open Verif.Model Verif.Model.GoTime Verif.Spec

/-- Days before March of year `y`. -/
def dayOf (y : Int) : Int := 365 * y + y / 4 - y / 100 + y / 400

theorem dayOf_succ (y : Int) : dayOf (y + 1) = dayOf y + if Leap (y + 1) then 366 else 365 := by
  unfold dayOf
  by_cases h : Leap (y + 1)
  · rw [if_pos h]; unfold Leap at h; omega
  · rw [if_neg h]; unfold Leap at h; omega

theorem dayOf_mono {a b : Int} (h : a ≤ b) : 365 * (b - a) ≤ dayOf b - dayOf a := by
  unfold dayOf; omega

theorem yoe_spec (doe : Int) (h0 : 0 ≤ doe) (h1 : doe < 146097) :
    let y := (doe - doe / 1460 + doe / 36524 - doe / 146096) / 365
    0 ≤ y ∧ y < 400 ∧ dayOf y ≤ doe ∧ (doe < dayOf (y + 1)) := by
  intro y
  by_cases h4 : doe = 146096
  · subst h4; decide
  obtain ⟨h, r, hh, hh', hr, hr', e⟩ : ∃ h r : Int, 0 ≤ h ∧ h < 4 ∧ 0 ≤ r ∧ r < 36524 ∧ doe = 36524 * h + r :=
    ⟨doe / 36524, doe % 36524, by omega, by omega, by omega, by omega, by omega⟩
  obtain ⟨q, s, hq, hq', hs, hs', e2⟩ : ∃ q s : Int, 0 ≤ q ∧ q < 25 ∧ 0 ≤ s ∧ s < 1461 ∧ r = 1461 * q + s :=
    ⟨r / 1461, r % 1461, by omega, by omega, by omega, by omega, by omega⟩
  have g : doe / 1460 = 25 * h + q + (24 * h + q + s) / 1460 := by omega
  have hc : doe / 36524 = h := by omega
  have hi : doe / 146096 = 0 := by omega
  have hy : y = (36525 * h + 1461 * q + s - (25 * h + q + (24 * h + q + s) / 1460)) / 365 := by
    show (doe - doe / 1460 + doe / 36524 - doe / 146096) / 365 = _
    rw [g, hc, hi]; congr 1; omega
  have hy2 : y = 100 * h + 4 * q + (s - (24 * h + q + s) / 1460) / 365 := by
    rw [hy]; omega
  clear hy g hc hi h4
  generalize y = y at *
  obtain ⟨j, hj, hj', hjs, hy3⟩ : ∃ j : Int, 0 ≤ j ∧ j < 4 ∧ (365 * j ≤ s ∧ (s < 365 * j + 365 ∨ (j = 3))) ∧
      y = 100 * h + 4 * q + j :=
    ⟨(s - (24 * h + q + s) / 1460) / 365, by omega, by omega, by omega, hy2⟩
  clear hy2
  have hq24 : q = 24 → s < 1460 := by omega
  have y4 : y / 4 = 25 * h + q := by omega
  have y100 : y / 100 = h := by omega
  have y400 : y / 400 = 0 := by omega
  have z4 : (y + 1) / 4 = 25 * h + q + (if j = 3 then 1 else 0) := by split <;> omega
  have z100 : (y + 1) / 100 = h + (if j = 3 ∧ q = 24 then 1 else 0) := by split <;> omega
  have z400 : (y + 1) / 400 = (if j = 3 ∧ q = 24 ∧ h = 3 then 1 else 0) := by split <;> omega
  unfold dayOf
  rw [y4, y100, y400, z4, z100, z400]
  refine ⟨by omega, by omega, by omega, ?_⟩
  split <;> split <;> split <;> omega

theorem dayOf_add400 (e y : Int) : dayOf (e * 400 + y) = 146097 * e + dayOf y := by
  unfold dayOf; omega

theorem marchYear_spec (z : Int) : dayOf (marchYear z) ≤ z ∧ z < dayOf (marchYear z + 1) := by
  have := yoe_spec (z % 146097) (by omega) (by omega)
  unfold marchYear
  simp only at this ⊢
  rw [Int.add_assoc, dayOf_add400, dayOf_add400]
  omega

theorem marchYear_unique (z y : Int) (h1 : dayOf y ≤ z) (h2 : z < dayOf (y + 1)) : marchYear z = y := by
  have := marchYear_spec z
  rcases lt_trichotomy' (marchYear z) y with h | h | h
  · have := dayOf_mono (a := marchYear z + 1) (b := y) (by omega); omega
  · exact h
  · have := dayOf_mono (a := y + 1) (b := marchYear z) (by omega); omega
where
  lt_trichotomy' (a b : Int) : a < b ∨ a = b ∨ b < a := by omega

/-- Month and day from the day of the year starting in March. -/
def mdOf (doy : Int) : Int × Int :=
  let mp := (5 * doy + 2) / 153
  (if mp < 10 then mp + 3 else mp - 9, doy - (153 * mp + 2) / 5 + 1)

theorem civil_eq (n y : Int) (h1 : dayOf y ≤ n + 719468) (h2 : n + 719468 < dayOf (y + 1)) :
    civilFromDays n = (if (mdOf (n + 719468 - dayOf y)).1 ≤ 2 then y + 1 else y, mdOf (n + 719468 - dayOf y)) := by
  unfold civilFromDays
  simp only [marchYear_unique _ y h1 h2]
  rfl

theorem exists_year (n : Int) : ∃ y, dayOf y ≤ n + 719468 ∧ n + 719468 < dayOf (y + 1) :=
  ⟨_, (marchYear_spec _).1, (marchYear_spec _).2⟩

theorem civil_valid (n : Int) : ValidDate (civilFromDays n).1 (civilFromDays n).2.1 (civilFromDays n).2.2 := by
  obtain ⟨y, h1, h2⟩ := exists_year n
  rw [civil_eq n y h1 h2]
  rw [dayOf_succ] at h2
  generalize hd : n + 719468 - dayOf y = doy at *
  have hd0 : 0 ≤ doy := by omega
  have hd1 : doy < if Leap (y + 1) then 366 else 365 := by omega
  clear h1 h2 hd
  unfold mdOf ValidDate daysIn
  simp only
  obtain ⟨mp, hmp⟩ : ∃ mp, mp = (5 * doy + 2) / 153 := ⟨_, rfl⟩
  rw [← hmp]
  by_cases hl : Leap (y + 1)
  · rw [if_pos hl] at hd1
    by_cases h10 : mp < 10
    · simp only [if_pos h10, if_neg (show ¬ mp + 3 ≤ 2 by omega), if_neg (show ¬ mp + 3 = 2 by omega)]
      split <;> omega
    · simp only [if_neg h10, if_pos (show mp - 9 ≤ 2 by omega), if_pos hl]
      split
      · omega
      · split <;> omega
  · rw [if_neg hl] at hd1
    by_cases h10 : mp < 10
    · simp only [if_pos h10, if_neg (show ¬ mp + 3 ≤ 2 by omega), if_neg (show ¬ mp + 3 = 2 by omega)]
      split <;> omega
    · simp only [if_neg h10, if_pos (show mp - 9 ≤ 2 by omega), if_neg hl]
      split
      · omega
      · split <;> omega

theorem days_civil (n : Int) :
    daysFromCivil (civilFromDays n).1 (civilFromDays n).2.1 (civilFromDays n).2.2 = n := by
  obtain ⟨y, h1, h2⟩ := exists_year n
  rw [civil_eq n y h1 h2]
  rw [dayOf_succ] at h2
  generalize hd : n + 719468 - dayOf y = doy at *
  have hd0 : 0 ≤ doy := by omega
  have hd1 : doy < 366 := by split at h2 <;> omega
  have hn : n = doy + dayOf y - 719468 := by omega
  clear h1 h2 hd
  unfold mdOf daysFromCivil
  simp only
  obtain ⟨mp, hmp⟩ : ∃ mp, mp = (5 * doy + 2) / 153 := ⟨_, rfl⟩
  rw [← hmp, hn]
  unfold dayOf
  by_cases h10 : mp < 10
  · simp only [if_pos h10, if_neg (show ¬ mp + 3 ≤ 2 by omega)]; omega
  · simp only [if_neg h10, if_pos (show mp - 9 ≤ 2 by omega)]; omega

theorem civil_epoch : civilFromDays 0 = (1970, 1, 1) := by decide

theorem md_succ : ∀ k : Fin 365,
    (1 ≤ (mdOf (k.val : Int)).1 ∧ (mdOf (k.val : Int)).1 ≤ 12) ∧
    (if (mdOf (k.val : Int)).1 = 2 then
      (mdOf ((k.val : Int) + 1)).1 = 2 ∧ (mdOf ((k.val : Int) + 1)).2 = (mdOf (k.val : Int)).2 + 1 ∧
        (mdOf (k.val : Int)).2 = (k.val : Int) - 336
    else if (mdOf (k.val : Int)).2 <
        (if (mdOf (k.val : Int)).1 = 4 ∨ (mdOf (k.val : Int)).1 = 6 ∨ (mdOf (k.val : Int)).1 = 9 ∨
          (mdOf (k.val : Int)).1 = 11 then 30 else 31) then
      (mdOf ((k.val : Int) + 1)).1 = (mdOf (k.val : Int)).1 ∧
        (mdOf ((k.val : Int) + 1)).2 = (mdOf (k.val : Int)).2 + 1
    else (mdOf ((k.val : Int) + 1)).1 = (if (mdOf (k.val : Int)).1 = 12 then 1 else (mdOf (k.val : Int)).1 + 1) ∧
      (mdOf ((k.val : Int) + 1)).2 = 1) := by decide +kernel

theorem civil_succ (n : Int) : civilFromDays (n + 1) = nextDay (civilFromDays n) := by
  obtain ⟨y, h1, h2⟩ := exists_year n
  have hs := dayOf_succ y
  by_cases hlast : n + 1 + 719468 < dayOf (y + 1)
  · rw [civil_eq n y h1 h2, civil_eq (n + 1) y (by omega) hlast]
    have : n + 1 + 719468 - dayOf y = (n + 719468 - dayOf y) + 1 := by omega
    rw [this]
    generalize hd : n + 719468 - dayOf y = doy at *
    have hd0 : 0 ≤ doy := by omega
    have hd1 : doy + 1 < if Leap (y + 1) then 366 else 365 := by omega
    clear h1 h2 hd hlast this hs
    have hlt : doy.toNat < 365 := by split at hd1 <;> omega
    have h := md_succ ⟨doy.toNat, hlt⟩
    simp only [Int.toNat_of_nonneg hd0] at h
    generalize mdOf doy = md at *
    generalize mdOf (doy + 1) = md' at *
    obtain ⟨m, d⟩ := md
    obtain ⟨m', d'⟩ := md'
    obtain ⟨hm, h⟩ := h
    simp only at hm h
    unfold nextDay daysIn
    simp only
    by_cases h2 : m = 2
    · rw [if_pos h2] at h
      obtain ⟨rfl, rfl, hd⟩ := h
      subst h2
      simp only [if_pos (show (2 : Int) ≤ 2 by omega), if_true]
      rw [if_pos (by split at hd1 <;> simp_all <;> omega)]
    · rw [if_neg h2] at h
      rw [if_neg h2]
      by_cases hd : d < if m = 4 ∨ m = 6 ∨ m = 9 ∨ m = 11 then 30 else 31
      · rw [if_pos hd] at h ⊢
        rw [h.1, h.2]
      · rw [if_neg hd] at h ⊢
        rw [h.2]
        by_cases h12 : m = 12
        · subst h12
          have h1 := h.1
          rw [if_pos rfl] at h1
          subst h1
          simp
        · have h1 := h.1
          rw [if_neg h12] at h1
          subst h1
          rw [if_pos (show m < 12 by omega)]
          by_cases hm1 : m = 1
          · subst hm1; simp
          · rw [if_neg (show ¬ m + 1 ≤ 2 by omega), if_neg (show ¬ m ≤ 2 by omega)]
  · have e : n + 1 + 719468 = dayOf (y + 1) := by omega
    have := dayOf_succ (y + 1)
    have hx : n + 1 + 719468 < dayOf (y + 1 + 1) := by rw [this]; split <;> omega
    rw [civil_eq n y h1 h2, civil_eq (n + 1) (y + 1) (by omega) hx, e]
    have e2 : n + 719468 - dayOf y = if Leap (y + 1) then 365 else 364 := by
      by_cases hl : Leap (y + 1)
      · rw [if_pos hl] at hs ⊢; omega
      · rw [if_neg hl] at hs ⊢; omega
    rw [e2]
    by_cases hl : Leap (y + 1)
    · simp [hl, mdOf, nextDay, daysIn]
    · simp [hl, mdOf, nextDay, daysIn]

end Verif.Proofs

namespace Verif.Proofs
open Verif.Model Verif.Model.GoTime Verif.Spec

/-- What fixes a date, in the independent calendar: the clock fields of a time. -/
theorem clock_fields (t : GoTime) : 0 ≤ t.Hour ∧ t.Hour ≤ 23 ∧ 0 ≤ t.Minute ∧ t.Minute ≤ 59 ∧ 0 ≤ t.Second ∧ t.Second ≤ 59 ∧
    t.localDay * 86400 + t.Hour * 3600 + t.Minute * 60 + t.Second = t.sec + t.off := by
  unfold Hour Minute Second secOfDay localDay
  omega

theorem daysFromCivil_day (y m d : Int) : daysFromCivil y m 1 + (d - 1) = daysFromCivil y m d := by
  unfold daysFromCivil; simp only; omega

theorem date_fields (t : GoTime) (hn : t.nsec = 0) :
    GoTime.date t.Year t.Month t.Day t.Hour t.Minute t.Second t.off = t := by
  have hv := civil_valid t.localDay
  have hd := days_civil t.localDay
  have hc := clock_fields t
  unfold GoTime.date
  obtain ⟨hm1, hm2, _, _⟩ := hv
  have e1 : t.Year + (t.Month - 1) / 12 = t.Year := by
    have : (t.Month - 1) / 12 = 0 := by unfold Month; omega
    omega
  have e2 : (t.Month - 1) % 12 + 1 = t.Month := by unfold Month; omega
  simp only [e1, e2, daysFromCivil_day]
  unfold Year Month Day
  rw [hd]
  cases t
  simp only at hn hc ⊢
  congr 1
  · omega
  · exact hn.symm

theorem timestamp_roundtrip (t : GoTime) (q : Int) (rest : Bytes) (hn : t.nsec = 0) (hy1 : 1970 ≤ t.Year) (hy2 : t.Year ≤ 2069)
    (hq : t.off = 900 * q) (hq1 : -79 ≤ q) (hq2 : q ≤ 79) :
    ∃ p, Timestamp.MarshalBinary t = .ok p ∧ p.length = 7 ∧ Timestamp.UnmarshalBinary (p ++ rest) = .ok t := by
  have hv := civil_valid t.localDay
  have hc := clock_fields t
  obtain ⟨hm1, hm2, hd1, hd2⟩ := hv
  have hd3 : t.Day ≤ 31 := by
    have : daysIn t.Year t.Month ≤ 31 := by 
      unfold daysIn
      split
      · split <;> omega
      · split <;> omega
    exact Int.le_trans hd2 this
  have hy : t.Year.tmod 100 = t.Year % 100 := Int.tmod_eq_emod_of_nonneg (by omega)
  have htz : t.off.tdiv (15 * 60) = q := by
    rw [hq]; exact Int.mul_tdiv_cancel_left q (by decide)
  obtain ⟨b0, h0, g0⟩ := bcd_roundtrip (t.Year % 100) (by omega) (by omega)
  obtain ⟨b1, h1, g1⟩ := bcd_roundtrip t.Month (by unfold Month; omega) (by unfold Month; omega)
  obtain ⟨b2, h2, g2⟩ := bcd_roundtrip t.Day (by unfold Day; omega) (by omega)
  obtain ⟨b3, h3, g3⟩ := bcd_roundtrip t.Hour (by omega) (by omega)
  obtain ⟨b4, h4, g4⟩ := bcd_roundtrip t.Minute (by omega) (by omega)
  obtain ⟨b5, h5, g5⟩ := bcd_roundtrip t.Second (by omega) (by omega)
  obtain ⟨b6, h6, g6⟩ := bcd_roundtripSigned q hq1 hq2
  refine ⟨[b0, b1, b2, b3, b4, b5, b6], ?_, rfl, ?_⟩
  · unfold Timestamp.MarshalBinary
    simp only [hy, htz, h0, h1, h2, h3, h4, h5, h6, ok_bind, pure_ok]
  · have i0 : idx ([b0, b1, b2, b3, b4, b5, b6] ++ rest) 0 = .ok b0 := rfl
    have i1 : idx ([b0, b1, b2, b3, b4, b5, b6] ++ rest) 1 = .ok b1 := rfl
    have i2 : idx ([b0, b1, b2, b3, b4, b5, b6] ++ rest) 2 = .ok b2 := rfl
    have i3 : idx ([b0, b1, b2, b3, b4, b5, b6] ++ rest) 3 = .ok b3 := rfl
    have i4 : idx ([b0, b1, b2, b3, b4, b5, b6] ++ rest) 4 = .ok b4 := rfl
    have i5 : idx ([b0, b1, b2, b3, b4, b5, b6] ++ rest) 5 = .ok b5 := rfl
    have i6 : idx ([b0, b1, b2, b3, b4, b5, b6] ++ rest) 6 = .ok b6 := rfl
    unfold Timestamp.UnmarshalBinary
    rw [if_neg (by simp)]
    simp only [i0, i1, i2, i3, i4, i5, i6, g0, g1, g2, g3, g4, g5, g6, ok_bind, pure_ok]
    have hyear : (if t.Year % 100 < 70 then t.Year % 100 + 2000 else t.Year % 100 + 1900) = t.Year := by
      split <;> omega
    have htz' : q * 15 * 60 = t.off := by omega
    rw [hyear, htz', date_fields t hn]

/-- Octet of two decimal digits. -/
def Dec2 (o : UInt8) : Prop := o.toNat % 16 ≤ 9 ∧ o.toNat / 16 ≤ 9

theorem decode_isOk (o : UInt8) : (∃ v, Bcd.Decode o = .ok v) ↔ Dec2 o := by
  rw [bcd_decode]; unfold Dec2
  by_cases h : o.toNat % 16 ≤ 9 ∧ o.toNat / 16 ≤ 9
  · simp [h]
  · rw [if_neg h]; simp [h]

theorem decodeSigned_isOk (o : UInt8) : (∃ v, Bcd.DecodeSigned o = .ok v) ↔ o.toNat / 16 ≤ 9 := by
  rw [bcd_decodeSigned]
  by_cases h : o.toNat / 16 ≤ 9
  · simp [h]
  · rw [if_neg h]; simp [h]

theorem timestamp_ok_iff (src : Bytes) : (∃ t, Timestamp.UnmarshalBinary src = .ok t) ↔
    ∃ b0 b1 b2 b3 b4 b5 b6 rest, src = b0 :: b1 :: b2 :: b3 :: b4 :: b5 :: b6 :: rest ∧
      Dec2 b0 ∧ Dec2 b1 ∧ Dec2 b2 ∧ Dec2 b3 ∧ Dec2 b4 ∧ Dec2 b5 ∧ b6.toNat / 16 ≤ 9 := by
  match src with
  | [] => simp [Timestamp.UnmarshalBinary, fail]
  | [_] => simp [Timestamp.UnmarshalBinary, fail]
  | [_, _] => simp [Timestamp.UnmarshalBinary, fail]
  | [_, _, _] => simp [Timestamp.UnmarshalBinary, fail]
  | [_, _, _, _] => simp [Timestamp.UnmarshalBinary, fail]
  | [_, _, _, _, _] => simp [Timestamp.UnmarshalBinary, fail]
  | [_, _, _, _, _, _] => simp [Timestamp.UnmarshalBinary, fail]
  | b0 :: b1 :: b2 :: b3 :: b4 :: b5 :: b6 :: rest =>
    unfold Timestamp.UnmarshalBinary
    rw [if_neg (by simp)]
    simp only [show ∀ l : Bytes, idx (b0 :: l) 0 = .ok b0 from fun _ => rfl,
      show idx (b0 :: b1 :: b2 :: b3 :: b4 :: b5 :: b6 :: rest) 1 = .ok b1 from rfl,
      show idx (b0 :: b1 :: b2 :: b3 :: b4 :: b5 :: b6 :: rest) 2 = .ok b2 from rfl,
      show idx (b0 :: b1 :: b2 :: b3 :: b4 :: b5 :: b6 :: rest) 3 = .ok b3 from rfl,
      show idx (b0 :: b1 :: b2 :: b3 :: b4 :: b5 :: b6 :: rest) 4 = .ok b4 from rfl,
      show idx (b0 :: b1 :: b2 :: b3 :: b4 :: b5 :: b6 :: rest) 5 = .ok b5 from rfl,
      show idx (b0 :: b1 :: b2 :: b3 :: b4 :: b5 :: b6 :: rest) 6 = .ok b6 from rfl, ok_bind]
    constructor
    · rintro ⟨t, h⟩
      obtain ⟨v0, e0, h⟩ := bind_eq_ok.mp h
      obtain ⟨v1, e1, h⟩ := bind_eq_ok.mp h
      obtain ⟨v2, e2, h⟩ := bind_eq_ok.mp h
      obtain ⟨v3, e3, h⟩ := bind_eq_ok.mp h
      obtain ⟨v4, e4, h⟩ := bind_eq_ok.mp h
      obtain ⟨v5, e5, h⟩ := bind_eq_ok.mp h
      obtain ⟨v6, e6, h⟩ := bind_eq_ok.mp h
      exact ⟨b0, b1, b2, b3, b4, b5, b6, rest, rfl, (decode_isOk _).mp ⟨_, e0⟩, (decode_isOk _).mp ⟨_, e1⟩,
        (decode_isOk _).mp ⟨_, e2⟩, (decode_isOk _).mp ⟨_, e3⟩, (decode_isOk _).mp ⟨_, e4⟩,
        (decode_isOk _).mp ⟨_, e5⟩, (decodeSigned_isOk _).mp ⟨_, e6⟩⟩
    · rintro ⟨c0, c1, c2, c3, c4, c5, c6, r, he, h0, h1, h2, h3, h4, h5, h6⟩
      simp only [List.cons.injEq] at he
      obtain ⟨rfl, rfl, rfl, rfl, rfl, rfl, rfl, rfl⟩ := he
      obtain ⟨v0, e0⟩ := (decode_isOk _).mpr h0
      obtain ⟨v1, e1⟩ := (decode_isOk _).mpr h1
      obtain ⟨v2, e2⟩ := (decode_isOk _).mpr h2
      obtain ⟨v3, e3⟩ := (decode_isOk _).mpr h3
      obtain ⟨v4, e4⟩ := (decode_isOk _).mpr h4
      obtain ⟨v5, e5⟩ := (decode_isOk _).mpr h5
      obtain ⟨v6, e6⟩ := (decodeSigned_isOk _).mpr h6
      exact ⟨_, by simp only [e0, e1, e2, e3, e4, e5, e6, ok_bind, pure_ok]; rfl⟩

end Verif.Proofs
