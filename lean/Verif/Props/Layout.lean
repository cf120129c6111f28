import Verif.Props.Tpdu
import Verif.Props.MarshalSafe
import Verif.Proofs.LayoutUnique

/-! C73, C74: the octets on the wire are those that 3GPP TS 23.040 prescribes.

`Spec.Wire t p` says, without reference to the code, that the octets `p` are laid out as clause 9.2.2 lays out the
TPDU with the fields of `t`; `Spec.Fits t` that the fields fit the octets there are for them. -/

namespace Verif.Props
open Verif.Model Verif.Spec Verif.Proofs

/-- C73, partial: what `MarshalBinary` writes is laid out as prescribed, whatever the type.  Missing: fields that do
not fit, for which it is false (`C73_counterexample_…`). -/
theorem C73_layout_partial (t : TPDU) (p : Bytes) (hd : t.Direction = MO ∨ t.Direction = MT) (hf : Fits t)
    (h : t.MarshalBinary = .ok p) : Wire t p := wire t hd hf p h

/-- C73, partial: and it is the only string of octets that is.  So `MarshalBinary` succeeds with `p` just when the
fields are encodable (C71) and `p` is laid out as prescribed. -/
theorem C73_exact_partial (t : TPDU) (p : Bytes) (hd : t.Direction = MO ∨ t.Direction = MT) (hf : Fits t) :
    t.MarshalBinary = .ok p ↔ Encodable t ∧ Wire t p := by
  constructor
  · intro h
    exact ⟨(C71_exact t).1 ⟨p, h⟩, wire t hd hf p h⟩
  · rintro ⟨he, hw⟩
    obtain ⟨q, hq⟩ := (C71_exact t).2 he
    rw [wire_unique t p q hw (wire t hd hf q hq)]
    exact hq

/-- C73: no TPDU has two layouts. -/
theorem C73_unique (t : TPDU) (p q : Bytes) (hp : Wire t p) (hq : Wire t q) : p = q := wire_unique t p q hp hq

/-- A submit with header, relative period and 7-bit text. -/
example : exSubmit.Direction = MO ∧ Fits exSubmit ∧ exSubmit.MarshalBinary =
    .ok [0x51, 7, 3, 0x91, 0x21, 0xf3, 1, 0, 5, 9, 5, 0, 3, 3, 2, 1, 0x90, 0x69] := by
  refine ⟨rfl, ⟨fun h => absurd h (by decide), fun h => absurd h (by decide), fun h => absurd h (by decide), fun _ => ?_,
    fun h => absurd h (by decide), fun h => absurd h (by decide)⟩, by decide +kernel⟩
  exact ⟨by unfold AddrFits; decide, ⟨by decide, by decide, by decide, by decide⟩, by unfold UdFits; decide⟩

/-- C74, partial: a message that is laid out as prescribed is read as the fields it was laid out from.  Here for
SMS-SUBMIT, the type a mobile sends.  Missing: as in C73, and what the fields can not hold (`AddrOk`, `VpOk`, `UdOk`). -/
theorem C74_submit_partial (t : TPDU) (p : Bytes) (hdir : t.Direction = MO) (hmti : FirstOctet.MTI t.FirstOctet = 1)
    (hda : AddrOk t.DA) (hvp : VpOk t.VP) (hvpf : FirstOctet.VPF t.FirstOctet = t.VP.Format) (hud : UdOk t) (hf : Fits t)
    (hw : Wire t p) : ({ Direction := MO } : TPDU).UnmarshalBinary p = .ok
      { Direction := MO, FirstOctet := t.FirstOctet, MR := t.MR, DA := t.DA, PID := t.PID, DCS := t.DCS,
        VP := t.VP, UDH := t.UDH, UD := t.UD } := by
  obtain ⟨q, hq, h⟩ := C23_submit_roundtrip t hdir hmti hda hvp hvpf hud
  rwa [wire_unique t p q hw (wire t (.inl hdir) hf q hq)]

/-- C74, partial: SMS-DELIVER, the type a mobile receives. -/
theorem C74_deliver_partial (t : TPDU) (p : Bytes) (hdir : t.Direction = MT) (hmti : FirstOctet.MTI t.FirstOctet = 0)
    (hoa : AddrOk t.OA) (hts : TimeOk t.SCTS) (hud : UdOk t) (hf : Fits t)
    (hw : Wire t p) : ({ Direction := MT } : TPDU).UnmarshalBinary p = .ok
      { Direction := MT, FirstOctet := t.FirstOctet, OA := t.OA, PID := t.PID, DCS := t.DCS,
        SCTS := t.SCTS, UDH := t.UDH, UD := t.UD } := by
  obtain ⟨q, hq, h⟩ := C24_deliver_roundtrip t hdir hmti hoa hts hud
  rwa [wire_unique t p q hw (wire t (.inr hdir) hf q hq)]

/-- C74, partial: SMS-STATUS-REPORT. -/
theorem C74_status_report_partial (t : TPDU) (p : Bytes) (hdir : t.Direction = MT) (hmti : FirstOctet.MTI t.FirstOctet = 2)
    (hra : AddrOk t.RA) (hts : TimeOk t.SCTS) (hdt : TimeOk t.DT) (hopt : OptOk t) (hf : Fits t)
    (hw : Wire t p) : ({ Direction := MT } : TPDU).UnmarshalBinary p = .ok
      { Direction := MT, FirstOctet := t.FirstOctet, MR := t.MR, RA := t.RA, SCTS := t.SCTS, DT := t.DT, ST := t.ST,
        PI := t.PI, PID := if PI.PID t.PI then t.PID else 0, DCS := if PI.DCS t.PI then t.DCS else 0,
        UDH := if PI.UDL t.PI then t.UDH else [], UD := if PI.UDL t.PI then t.UD else [] } := by
  obtain ⟨q, hq, h⟩ := C25_status_report_roundtrip t hdir hmti hra hts hdt hopt
  rwa [wire_unique t p q hw (wire t (.inr hdir) hf q hq)]

/-- C74, partial: SMS-COMMAND. -/
theorem C74_command_partial (t : TPDU) (p : Bytes) (hdir : t.Direction = MO) (hmti : FirstOctet.MTI t.FirstOctet = 2)
    (hda : AddrOk t.DA) (hudhi : t.UDHI = false) (hudh : t.UDH = []) (hud : t.UD.length ≤ 255) (hf : Fits t)
    (hw : Wire t p) : ({ Direction := MO } : TPDU).UnmarshalBinary p = .ok
      { Direction := MO, FirstOctet := t.FirstOctet, MR := t.MR, PID := t.PID, CT := t.CT, MN := t.MN, DA := t.DA,
        DCS := DCS.Dcs8BitData, UDH := t.UDH, UD := t.UD } := by
  obtain ⟨q, hq, h⟩ := C26_command_roundtrip_partial t hdir hmti hda hudhi hudh hud
  rwa [wire_unique t p q hw (wire t (.inl hdir) hf q hq)]

/-- C74, partial: SMS-DELIVER-REPORT with a failure cause; C27 shows that without one it is not read so. -/
theorem C74_deliver_report_partial (t : TPDU) (p : Bytes) (hdir : t.Direction = MO) (hmti : FirstOctet.MTI t.FirstOctet = 0)
    (hfcs : t.FCS ≠ 0) (hopt : OptOk t) (hf : Fits t)
    (hw : Wire t p) : ({ Direction := MO } : TPDU).UnmarshalBinary p = .ok
      { Direction := MO, FirstOctet := t.FirstOctet, FCS := t.FCS,
        PI := t.PI, PID := if PI.PID t.PI then t.PID else 0, DCS := if PI.DCS t.PI then t.DCS else 0,
        UDH := if PI.UDL t.PI then t.UDH else [], UD := if PI.UDL t.PI then t.UD else [] } := by
  obtain ⟨q, hq, h⟩ := C27_deliver_report_roundtrip_partial t hdir hmti hfcs hopt
  rwa [wire_unique t p q hw (wire t (.inl hdir) hf q hq)]

/-- C74, partial: SMS-SUBMIT-REPORT with a failure cause. -/
theorem C74_submit_report_partial (t : TPDU) (p : Bytes) (hdir : t.Direction = MT) (hmti : FirstOctet.MTI t.FirstOctet = 1)
    (hfcs : t.FCS ≠ 0) (hts : TimeOk t.SCTS) (hopt : OptOk t) (hf : Fits t)
    (hw : Wire t p) : ({ Direction := MT } : TPDU).UnmarshalBinary p = .ok
      { Direction := MT, FirstOctet := t.FirstOctet, FCS := t.FCS, SCTS := t.SCTS,
        PI := t.PI, PID := if PI.PID t.PI then t.PID else 0, DCS := if PI.DCS t.PI then t.DCS else 0,
        UDH := if PI.UDL t.PI then t.UDH else [], UD := if PI.UDL t.PI then t.UD else [] } := by
  obtain ⟨q, hq, h⟩ := C27_submit_report_roundtrip_partial t hdir hmti hfcs hts hopt
  rwa [wire_unique t p q hw (wire t (.inr hdir) hf q hq)]

/-- C74 fails for a report without a failure cause: the octets of this one (C27) are read as another report. -/
theorem C74_counterexample :
    let t : TPDU := { Direction := MO, PI := 1, PID := 0 }
    Wire t [0, 1, 0] ∧ ({ Direction := MO } : TPDU).UnmarshalBinary [0, 1, 0] = .ok { Direction := MO, FCS := 1, PI := 0 } := by
  refine ⟨.inr (.inl ⟨rfl, by decide, [0], ⟨[], ?_, by decide⟩, by decide⟩), by decide +kernel⟩
  rw [if_neg (by decide)]

/-- A conforming submit to which C74 applies (the example after C23 shows its other hypotheses). -/
example : Wire exSubmit [0x51, 7, 3, 0x91, 0x21, 0xf3, 1, 0, 5, 9, 5, 0, 3, 3, 2, 1, 0x90, 0x69] :=
  C73_layout_partial _ _ (.inl rfl)
    ⟨fun h => absurd h (by decide), fun h => absurd h (by decide), fun h => absurd h (by decide),
      fun _ => ⟨by unfold AddrFits; decide, ⟨by decide, by decide, by decide, by decide⟩, by unfold UdFits; decide⟩,
      fun h => absurd h (by decide), fun h => absurd h (by decide)⟩ (by decide +kernel)

/-- C73 fails for a header alone in the 7-bit alphabet: the length counts 3 septets for its 3 octets, the
standard's 4. -/
theorem C73_counterexample_header :
    let t : TPDU := { Direction := MO, FirstOctet := 0x41, UDH := [⟨1, []⟩] }
    t.MarshalBinary = .ok [0x41, 0, 0, 0, 0, 0, 3, 2, 1, 0] ∧ ∀ ud, UdWire t ud → ud.head? = some 4 := by
  refine ⟨by decide +kernel, ?_⟩
  rintro ud ⟨n, o, rfl, h⟩
  rw [if_pos (by decide)] at h
  obtain ⟨f, hf, k, hk, hm, hn, -⟩ := h
  have hl : (hdrWire [⟨1, []⟩]).length = 3 := by decide
  simp only [hl, List.length_nil] at hm hn
  have : n = 4 := UInt8.toNat_inj.mp (by show n.toNat = 4; omega)
  rw [this]; rfl

/-- C73 fails for a number of 256 digits: no layout has it, and it is written with length 0. -/
theorem C73_counterexample_address :
    let t : TPDU := { Direction := MO, FirstOctet := 1, DA := ⟨0x91, List.replicate 256 0x31⟩ }
    t.MarshalBinary = .ok ([1, 0, 0, 0x91] ++ List.replicate 128 0x11 ++ [0, 0, 0]) ∧ ∀ p, ¬ AddrWire t.DA p := by
  refine ⟨by decide +kernel, ?_⟩
  rintro p ⟨n, body, rfl, h⟩
  rw [if_neg (by decide)] at h
  have := n.toNat_lt
  have h1 := h.1
  rw [List.length_replicate] at h1
  omega

/-- C73 fails for a period of less than ten minutes: one that is negative is written as 62
weeks, and five minutes as ten. -/
theorem C73_counterexample_period :
    (let t : TPDU := { Direction := MO, FirstOctet := 0x11, DCS := 4, VP := { Format := 2, Duration := -5 * minute } };
      t.MarshalBinary = .ok [0x11, 0, 0, 0, 0, 4, 254, 0] ∧ relativeMinutes 254 = 62 * 7 * 24 * 60 ∧ ∀ p, ¬ VpWire t.VP p) ∧
    (let t : TPDU := { Direction := MO, FirstOctet := 0x11, DCS := 4, VP := { Format := 2, Duration := 5 * minute } };
      ∃ c, t.MarshalBinary = .ok [0x11, 0, 0, 0, 0, 4, c, 0] ∧ ¬ RelativeWire t.VP.Duration c ∧ RelativeWire t.VP.Duration 0) := by
  refine ⟨⟨by decide +kernel, by decide, ?_⟩, 1, by decide +kernel, ?_, by decide, by decide +kernel⟩
  · rintro p (⟨h, -⟩ | ⟨-, c, ⟨h, -⟩, -⟩ | ⟨h, -⟩ | ⟨h, -⟩ | ⟨h, -⟩ | ⟨h, -⟩ | ⟨h, -⟩) <;> first | exact absurd h (by decide) | skip
    have : 0 < relativeMinutes c.toNat := by
      unfold relativeMinutes; split <;> (try split) <;> (try split) <;> omega
    simp only [minute, second] at h
    omega
  · intro h
    exact absurd h.1 (by decide)

/-- C73 fails for a command with a header: it is left out. -/
theorem C73_counterexample_command :
    let t : TPDU := { Direction := MO, FirstOctet := 0x42, UDH := [⟨1, []⟩] }
    t.MarshalBinary = .ok [0x42, 0, 0, 0, 0, 0, 0, 0] ∧ ∀ p, Wire t p → p = [0x42, 0, 0, 0, 0, 0, 0, 3, 2, 1, 0] := by
  refine ⟨by decide +kernel, ?_⟩
  intro p h
  refine wire_unique _ p _ h (.inr (.inr (.inr (.inr (.inr ⟨rfl, by decide, [0, 0], 3, ?_, by decide, by decide⟩)))))
  exact ⟨0, [], rfl, by rw [if_neg (by decide)]; decide⟩

/-- C73 fails for user data of the 7-bit alphabet that are not septets: the octet 0x80 is added to what follows. -/
theorem C73_counterexample_septets :
    let t : TPDU := { Direction := MO, FirstOctet := 1, UD := [0x80, 0] }
    let t' : TPDU := { Direction := MO, FirstOctet := 1, UD := [0, 1] }
    t.MarshalBinary = t'.MarshalBinary ∧ t.MarshalBinary = .ok [1, 0, 0, 0, 0, 0, 2, 0x80, 0] := by decide +kernel

end Verif.Props
