import Verif.Proofs.Time

/-! C17: timestamps. -/

namespace Verif.Props
open Verif.Model Verif.Spec Verif.Proofs

/-- C17: timestamps of whole seconds, in the (local) years 1970..2069, with an offset of `q` quarters of an
hour, |q| ≤ 79, round-trip, whatever follows. -/
theorem C17_roundtrip (t : GoTime) (q : Int) (rest : List UInt8) (hn : t.nsec = 0)
    (hy1 : 1970 ≤ t.Year) (hy2 : t.Year ≤ 2069) (hq : t.off = q * 15 * 60) (hq1 : -79 ≤ q) (hq2 : q ≤ 79) :
    ∃ p, Timestamp.MarshalBinary t = .ok p ∧ p.length = 7 ∧ Timestamp.UnmarshalBinary (p ++ rest) = .ok t :=
  timestamp_roundtrip t q rest hn hy1 hy2 (by omega) hq1 hq2

/-- C17: the input is accepted exactly when it has at least seven octets, the first six being two decimal
nibbles, and the high nibble of the seventh being decimal. -/
theorem C17_accepts (src : List UInt8) : (∃ t, Timestamp.UnmarshalBinary src = .ok t) ↔
    ∃ b0 b1 b2 b3 b4 b5 b6 rest, src = b0 :: b1 :: b2 :: b3 :: b4 :: b5 :: b6 :: rest ∧
      (∀ b ∈ [b0, b1, b2, b3, b4, b5], b.toNat % 16 ≤ 9 ∧ b.toNat / 16 ≤ 9) ∧ b6.toNat / 16 ≤ 9 := by
  rw [timestamp_ok_iff]
  simp only [List.mem_cons, List.not_mem_nil, or_false, forall_eq_or_imp, forall_eq, Dec2, and_assoc]

/-- C17: the calendar functions used to split a time into fields are the Gregorian calendar: day 0 is
1970-01-01, every date produced exists, and each day is followed by the next day of the calendar. -/
theorem C17_calendar (n : Int) :
    GoTime.civilFromDays 0 = (1970, 1, 1) ∧
    ValidDate (GoTime.civilFromDays n).1 (GoTime.civilFromDays n).2.1 (GoTime.civilFromDays n).2.2 ∧
    GoTime.civilFromDays (n + 1) = nextDay (GoTime.civilFromDays n) :=
  ⟨civil_epoch, civil_valid n, civil_succ n⟩

/-- C17: the fields of a time add up to its instant. -/
theorem C17_clock (t : GoTime) : 0 ≤ t.Hour ∧ t.Hour ≤ 23 ∧ 0 ≤ t.Minute ∧ t.Minute ≤ 59 ∧ 0 ≤ t.Second ∧ t.Second ≤ 59 ∧
    ∃ n, (t.Year, t.Month, t.Day) = GoTime.civilFromDays n ∧
      n * 86400 + t.Hour * 3600 + t.Minute * 60 + t.Second = t.sec + t.off := by
  obtain ⟨h1, h2, h3, h4, h5, h6, h7⟩ := clock_fields t
  exact ⟨h1, h2, h3, h4, h5, h6, t.localDay, rfl, h7⟩

/-- The window of years is needed: 2070 comes back as 1970. -/
theorem C17_window : ∃ t t' p, t.Year = 2070 ∧ Timestamp.MarshalBinary t = .ok p ∧
    Timestamp.UnmarshalBinary p = .ok t' ∧ t'.Year = 1970 :=
  ⟨⟨3155760000, 0, 0⟩, ⟨0, 0, 0⟩, [0x07, 0x10, 0x10, 0, 0, 0, 0], by decide +kernel⟩

-- 2017-08-31 11:21:54 UTC+8 (the time stamp of the tests of the package)
example : (⟨1504149714, 0, 28800⟩ : GoTime).Year = 2017 ∧ (28800 : Int) = 32 * 15 * 60 ∧
    Timestamp.MarshalBinary ⟨1504149714, 0, 28800⟩ = .ok [0x71, 0x80, 0x13, 0x11, 0x12, 0x45, 0x23] := by
  decide +kernel

end Verif.Props
