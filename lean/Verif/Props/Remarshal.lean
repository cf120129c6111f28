import Verif.Proofs.RelayExact

/-! C72: passing on what was received. -/

namespace Verif.Props
open Verif.Model Verif.Spec Verif.Proofs

/-- C72 as stated would have no `Kept t`: a TPDU that was read can be written, and what is written reads as the
same TPDU, whatever octets it was read from.  What is missing are the cases of `Kept`, each of which loses
something, as the counterexamples show. -/
theorem C72_stable_partial (d : Int) (hd : d = MO ∨ d = MT) (src : Bytes) (t : TPDU)
    (h : ({ Direction := d } : TPDU).UnmarshalBinary src = .ok t) (hk : Kept t) :
    ∃ p, t.MarshalBinary = .ok p ∧ ({ Direction := d } : TPDU).UnmarshalBinary p = .ok t :=
  remarshal d hd src t h hk

/-- C72: hence reading and writing settle after one step: what was written is a fixed point of the two. -/
theorem C72_settles_partial (d : Int) (hd : d = MO ∨ d = MT) (src p p' : Bytes) (t t' : TPDU)
    (h : ({ Direction := d } : TPDU).UnmarshalBinary src = .ok t) (hk : Kept t) (hp : t.MarshalBinary = .ok p)
    (h' : ({ Direction := d } : TPDU).UnmarshalBinary p = .ok t') (hp' : t'.MarshalBinary = .ok p') : t' = t ∧ p' = p := by
  obtain ⟨q, hq, hq'⟩ := remarshal d hd src t h hk
  rw [hp] at hq; cases hq
  rw [h'] at hq'; cases hq'
  rw [hp] at hp'; cases hp'
  exact ⟨rfl, rfl⟩

/-- C72: exactly what survives being passed on: of all TPDUs that can be read, those of `Kept`, and no others. -/
theorem C72_exact (d : Int) (hd : d = MO ∨ d = MT) (src : Bytes) (t : TPDU)
    (h : ({ Direction := d } : TPDU).UnmarshalBinary src = .ok t) :
    (∃ p, t.MarshalBinary = .ok p ∧ ({ Direction := d } : TPDU).UnmarshalBinary p = .ok t) ↔ Kept t :=
  remarshal_exact d hd src t h

/-- Reading, writing and reading again. -/
def relay (d : Int) (src : Bytes) : M (TPDU × Bytes × M TPDU) := do
  let t ← ({ Direction := d } : TPDU).UnmarshalBinary src
  let p ← t.MarshalBinary
  return (t, p, ({ Direction := d } : TPDU).UnmarshalBinary p)

/-- A submit whose header element runs past the header, with a relative validity period of 10 minutes: it is
written with the header length corrected, three octets longer, and reads as the same TPDU. -/
example : (relay MO [0x51, 0, 3, 0x91, 0x21, 0xf3, 0, 4, 1, 6, 2, 1, 3, 2, 3, 4]).map (fun r => (r.2.1, decide (r.2.2 = .ok r.1))) =
    .ok ([0x51, 0, 3, 0x91, 0x21, 0xf3, 0, 4, 1, 9, 5, 1, 3, 2, 3, 4, 2, 3, 4], true) := by decide +kernel

/-- C72 fails for a reserved coding group without user data: it is read and cannot be written. -/
theorem C72_counterexample_dcs :
    (∃ t, ({ Direction := MO } : TPDU).UnmarshalBinary [0x01, 0, 3, 0x91, 0x21, 0xf3, 0, 0x80, 0] = .ok t) ∧
    relay MO [0x01, 0, 3, 0x91, 0x21, 0xf3, 0, 0x80, 0] = fail (.encode "SmsSubmit.ud.alphabet" .invalid) :=
  ⟨⟨{ Direction := MO, FirstOctet := 1, DA := ⟨0x91, [0x31, 0x32, 0x33]⟩, DCS := 0x80 }, by decide +kernel⟩, by decide +kernel⟩

/-- C72 fails for an empty header before user data: the header is not written, though it is announced. -/
theorem C72_counterexample_header :
    (relay MO [0x41, 0, 3, 0x91, 0x21, 0xf3, 0, 4, 2, 0, 0x41]).map (fun r => (r.2.1, r.2.2)) =
      .ok ([0x41, 0, 3, 0x91, 0x21, 0xf3, 0, 4, 1, 0x41], fail (.decode "SmsSubmit.ud.udh.ie" 10 .underflow)) := by
  decide +kernel

/-- C72 fails for a header whose element reaches to the end of the longest user data. -/
theorem C72_counterexample_overrun :
    (relay MO ([0x41, 0, 3, 0x91, 0x21, 0xf3, 0, 4, 255, 2, 1, 252] ++ List.replicate 252 0)).map (fun r => r.2.2) =
      .ok (fail (.decode "SmsSubmit.ud.ud" 9 .overlength)) := by decide +kernel

/-- C72 fails for five minutes, which is written as ten, and for 99 hours, 99 minutes and 99 seconds. -/
theorem C72_counterexample_period :
    (relay MO [0x11, 0, 3, 0x91, 0x21, 0xf3, 0, 4, 0, 0]).map (fun r => r.2.1) =
      .ok [0x11, 0, 3, 0x91, 0x21, 0xf3, 0, 4, 1, 0] ∧
    (relay MO [0x11, 0, 3, 0x91, 0x21, 0xf3, 0, 4, 0, 0]).map (fun r => (r.1.VP.Duration, r.2.2.map (·.VP.Duration))) =
      .ok (5 * minute, .ok (10 * minute)) ∧
    (relay MO [0x09, 0, 3, 0x91, 0x21, 0xf3, 0, 4, 3, 0x99, 0x99, 0x99, 0, 0, 0, 0]).map (fun r => r.2.1) =
      .ok [0x09, 0, 3, 0x91, 0x21, 0xf3, 0, 4, 3, 0x00, 0x04, 0x93, 0, 0, 0, 0] := by decide +kernel

/-- C72 fails for a time stamp of 1969, which is written as 2069: month 0 of 1970. -/
theorem C72_counterexample_time :
    (relay MT [0, 3, 0x91, 0x21, 0xf3, 0, 4, 0x07, 0x00, 0x10, 0, 0, 0, 0, 0]).map
        (fun r => (r.1.SCTS.Year, r.2.2.map (·.SCTS.Year))) = .ok (1969, .ok 2069) := by decide +kernel

/-- C72 fails for a report with failure cause 0, and for a command with a header. -/
theorem C72_counterexample_reports :
    (relay MO [0, 0, 1, 7]).map (fun r => (r.2.1, r.2.2)) =
      .ok ([0, 1, 7], fail (.decode "SmsDeliverReport.pid" 3 .underflow)) ∧
    (relay MO [0x42, 0, 0, 0, 0, 3, 0x91, 0x21, 0xf3, 3, 2, 1, 0]).map (fun r => (r.1.UDH, r.2.1, r.2.2.map (·.UDH))) =
      .ok ([⟨1, []⟩], [0x42, 0, 0, 0, 0, 3, 0x91, 0x21, 0xf3, 0], .ok []) := by decide +kernel

/-- Received TPDUs that are kept: a deliver, a submit with a header and an enhanced validity period, a status
report with a protocol identifier, a command. -/
example : (({ Direction := MT } : TPDU).UnmarshalBinary
      [0, 3, 0x91, 0x21, 0xf3, 0, 4, 0x12, 0x10, 0x10, 0, 0, 0, 0, 1, 0x41]).map (fun t => decide (Kept t)) = .ok true ∧
    (({ Direction := MO } : TPDU).UnmarshalBinary
      [0x49, 0, 3, 0x91, 0x21, 0xf3, 0, 4, 2, 30, 0, 0, 0, 0, 0, 4, 2, 1, 0, 0x41]).map (fun t => decide (Kept t)) = .ok true ∧
    (({ Direction := MT } : TPDU).UnmarshalBinary
      [2, 5, 3, 0x91, 0x21, 0xf3, 0x12, 0x10, 0x10, 0, 0, 0, 0, 0x12, 0x10, 0x10, 0, 0, 0, 0, 0, 1, 7]).map
        (fun t => decide (Kept t)) = .ok true ∧
    (({ Direction := MO } : TPDU).UnmarshalBinary [2, 5, 0, 2, 4, 3, 0x91, 0x21, 0xf3, 0]).map
        (fun t => decide (Kept t)) = .ok true := by decide +kernel

end Verif.Props
