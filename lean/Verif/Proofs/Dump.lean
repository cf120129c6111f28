import Verif.Proofs.PrintLines
import Verif.Proofs.Remarshal
import Verif.Spec.Dump

/-! What smsdecode prints of a TPDU that was read. -/

namespace Verif.Proofs.Print
open Verif.Model Verif.Spec Verif.Proofs Verif.Proofs.Key Verif.Model.SmsDecode

/-! What is known of a TPDU that was read. -/

theorem time_clean (src : Bytes) : Post (Timestamp.UnmarshalBinary src) Clean := by
  unfold Timestamp.UnmarshalBinary
  split
  · exact .fail
  iterate 14 (refine Post.bind ?_; intro _)
  refine .ok ⟨rfl, ?_⟩
  show (_ * 15 * 60 : Int) % 60 = 0
  omega

theorem relative_whole (b : UInt8) : Whole (relativeToDuration b) := by
  unfold Whole
  revert b
  apply forall_u8
  decide +kernel

/-- A validity period as it is unmarshalled. -/
def VpSeen (v : ValidityPeriod) : Prop := Clean v.Time ∧ Whole v.Duration ∧ v.EFI &&& 7 ≤ 3

theorem bcd_nonneg {b : UInt8} {i : Int} (h : Bcd.Decode b = .ok i) : 0 ≤ i := by
  rw [bcd_decode] at h
  split at h
  · cases h; omega
  · cases h

theorem vp_seen (src : Bytes) (vpf : UInt8) : Post (ValidityPeriod.UnmarshalBinary {} src vpf)
    (fun r => r.1.Format = vpf ∧ VpSeen r.1) := by
  have z : Clean {} := by decide
  have w : Whole 0 := by decide
  have e : (0 : UInt8) &&& 7 ≤ 3 := by decide
  unfold ValidityPeriod.UnmarshalBinary
  simp only
  split
  · refine Post.bind' (time_clean src) ?_
    intro t ht
    exact .ok ⟨rfl, ht, w, e⟩
  split
  · refine Post.bind' (Q := fun r => VpSeen r.1) ?_ ?_
    · unfold ValidityPeriod.unmarshalVPEnhanced
      split
      · exact .fail
      refine Post.bind ?_; intro efi
      simp only
      refine Post.bind' (Q := fun r => Whole r.1 ∧ efi &&& 7 ≤ 3) ?_ ?_
      · split
        · rename_i h; exact .ok ⟨w, by rw [h]; decide⟩
        split
        · rename_i h
          refine Post.bind ?_; intro b
          exact .ok ⟨relative_whole b, by rw [h]; decide⟩
        split
        · rename_i h
          refine Post.bind ?_; intro b
          refine .ok ⟨?_, by rw [h]; decide⟩
          unfold Whole second
          have := b.toNat_lt
          omega
        split
        · rename_i h
          refine Post.bind ?_; intro _
          refine Post.bind' (Post.wrapD fun i hi => bcd_nonneg hi) ?_; intro hh h1
          refine Post.bind ?_; intro _
          refine Post.bind' (Post.wrapD fun i hi => bcd_nonneg hi) ?_; intro mm h2
          refine Post.bind ?_; intro _
          refine Post.bind' (Post.wrapD fun i hi => bcd_nonneg hi) ?_; intro ss h3
          refine .ok ⟨?_, by rw [h]; decide⟩
          unfold Whole hour minute second
          simp only at *
          omega
        · exact .fail
      rintro ⟨d, used⟩ ⟨h1, h2⟩
      refine Post.bind ?_; intro _
      exact .ok ⟨z, h1, h2⟩
    rintro ⟨v, n⟩ hv
    exact .ok ⟨rfl, hv⟩
  split
  · split
    · exact .fail
    refine Post.bind ?_; intro b
    exact .ok ⟨rfl, z, relative_whole b, e⟩
  split
  · rename_i h; exact .ok ⟨h.symm, z, w, e⟩
  · exact .fail

/-- What is known of a TPDU that was read. -/
structure Seen (t : TPDU) : Prop where
  scts : Clean t.SCTS
  dt : Clean t.DT
  vp : t.SmsType = SmsSubmit → t.VP.Format = FirstOctet.VPF t.FirstOctet ∧ VpSeen t.VP
  command : t.SmsType = SmsCommand → t.SCTS = {}

theorem only_ud {t t' : TPDU} {src : Bytes} (h1 : t.UDH = []) (h2 : t.UD = []) (h : t.decodeUserData src = .ok t') :
    ∃ g u, t' = { t with UDH := g, UD := u } := (ud_inv t src h1 h2 t' h).1.elim

theorem seen (d : Int) (src : Bytes) (t : TPDU) (h : ({ Direction := d } : TPDU).UnmarshalBinary src = .ok t) :
    Seen t := by
  have z : Clean {} := by decide
  have hkind := unmarshal_kind _ _ _ h
  cases src with
  | nil => cases h
  | cons fo body =>
    have hfo : fo = t.FirstOctet := by simpa using hkind.1
    have hdir : t.Direction = d := hkind.2.1
    have hst : ({ Direction := d, FirstOctet := fo } : TPDU).SmsType = t.SmsType := by
      unfold TPDU.SmsType; rw [hfo, hdir]
    unfold TPDU.UnmarshalBinary at h
    rw [if_neg (by simp)] at h
    simp only [idx_zero_cons, ok_bind, hst] at h
    obtain ⟨b, _, h⟩ := bind_eq_ok.1 h
    have ne : ∀ {x y : UInt8}, t.SmsType = x → x ≠ y → ∀ {p : Prop}, t.SmsType = y → p :=
      fun h1 h2 _ h3 => absurd (h1.symm.trans h3) h2
    split at h
    · rename_i hs
      suffices Post (TPDU.unmarshalDeliver { Direction := d, FirstOctet := fo } b) (fun r => Clean r.SCTS ∧ r.DT = {}) by
        obtain ⟨h1, h2⟩ := this t (wrapD_eq_ok.1 h)
        exact ⟨h1, by rw [h2]; exact z, ne hs (by decide), ne hs (by decide)⟩
      unfold TPDU.unmarshalDeliver
      iterate 4 (refine Post.bind ?_; intro _)
      refine Post.bind' (Post.wrapD (time_clean _)) ?_; intro ts hts
      refine Post.wrapD fun r hr => ?_
      obtain ⟨_, _, rfl⟩ := only_ud (by rfl) (by rfl) hr
      exact ⟨hts, rfl⟩
    split at h
    · rename_i hs
      obtain ⟨e, _⟩ := deliverReport_inv _ _ _ _ (wrapD_eq_ok.1 h)
      have e1 : t.SCTS = {} := congrArg TPDU.SCTS e
      have e2 : t.DT = {} := congrArg TPDU.DT e
      exact ⟨by rw [e1]; exact z, by rw [e2]; exact z, ne hs (by decide), ne hs (by decide)⟩
    split at h
    · rename_i hs
      obtain ⟨e, _⟩ := submitReport_inv _ _ _ _ (wrapD_eq_ok.1 h)
      have e2 : t.DT = {} := congrArg TPDU.DT e
      suffices Post (TPDU.unmarshalSubmitReport { Direction := d, FirstOctet := fo } b) (fun r => Clean r.SCTS) from
        ⟨this t (wrapD_eq_ok.1 h), by rw [e2]; exact z, ne hs (by decide), ne hs (by decide)⟩
      unfold TPDU.unmarshalSubmitReport
      iterate 2 (refine Post.bind ?_; intro _)
      simp only
      split
      · exact .fail
      refine Post.bind ?_; intro _
      refine Post.bind' (Post.wrapD (time_clean _)) ?_; intro ts hts
      intro r hr
      obtain ⟨_, _, _, _, rfl⟩ := (opt_inv _ _ _ (by rfl) (by rfl) (by rfl) (by rfl) r hr).1.elim
      exact hts
    split at h
    · rename_i hs
      obtain ⟨e, _⟩ := submit_inv _ _ _ _ (wrapD_eq_ok.1 h)
      have e1 : t.SCTS = {} := congrArg TPDU.SCTS e
      have e2 : t.DT = {} := congrArg TPDU.DT e
      suffices Post (TPDU.unmarshalSubmit { Direction := d, FirstOctet := fo } b) (fun r => r.VP.Format = FirstOctet.VPF fo ∧ VpSeen r.VP) from
        ⟨by rw [e1]; exact z, by rw [e2]; exact z, fun _ => hfo ▸ this t (wrapD_eq_ok.1 h), ne hs (by decide)⟩
      unfold TPDU.unmarshalSubmit
      iterate 6 (refine Post.bind ?_; intro _)
      refine Post.bind' (Post.wrapD (vp_seen _ _)) ?_; rintro ⟨vp, n⟩ hvp
      refine Post.bind ?_; intro _
      refine Post.wrapD fun r hr => ?_
      obtain ⟨_, _, rfl⟩ := only_ud (by rfl) (by rfl) hr
      exact hvp
    split at h
    · rename_i hs
      suffices Post (TPDU.unmarshalStatusReport { Direction := d, FirstOctet := fo } b) (fun r => Clean r.SCTS ∧ Clean r.DT) from
        ⟨(this t (wrapD_eq_ok.1 h)).1, (this t (wrapD_eq_ok.1 h)).2, ne hs (by decide), ne hs (by decide)⟩
      unfold TPDU.unmarshalStatusReport
      iterate 3 (refine Post.bind ?_; intro _)
      simp only
      split
      · exact .fail
      refine Post.bind ?_; intro _
      refine Post.bind' (Post.wrapD (time_clean _)) ?_; intro ts hts
      split
      · exact .fail
      refine Post.bind ?_; intro _
      refine Post.bind' (Post.wrapD (time_clean _)) ?_; intro dt hdt
      refine Post.bind ?_; intro _
      split
      · refine Post.bind ?_; intro _
        intro r hr
        obtain ⟨_, _, _, _, rfl⟩ := (opt_inv _ _ _ (by rfl) (by rfl) (by rfl) (by rfl) r hr).1.elim
        exact ⟨hts, hdt⟩
      · exact .ok ⟨hts, hdt⟩
    split at h
    · rename_i hs
      obtain ⟨e, _⟩ := command_inv _ _ _ _ (wrapD_eq_ok.1 h)
      have e1 : t.SCTS = {} := congrArg TPDU.SCTS e
      have e2 : t.DT = {} := congrArg TPDU.DT e
      exact ⟨by rw [e1]; exact z, by rw [e2]; exact z, ne hs (by decide), fun _ => e1⟩
    · cases h

/-! What the flags say. -/

theorem deliver_bits (o : UInt8) : o &&& 0xef = FirstOctet.MTI o ||| (if FirstOctet.MMS o then (4 : UInt8) else 0) ||| (if FirstOctet.LP o then (8 : UInt8) else 0) |||
    (if FirstOctet.SRI o then (0x20 : UInt8) else 0) ||| (if FirstOctet.UDHI o then (0x40 : UInt8) else 0) ||| (if FirstOctet.RP o then (0x80 : UInt8) else 0) := by
  revert o; apply forall_u8; decide +kernel

theorem submit_bits (o : UInt8) : o = FirstOctet.MTI o ||| (if FirstOctet.RD o then (4 : UInt8) else 0) ||| (FirstOctet.VPF o <<< 3) |||
    (if FirstOctet.SRR o then (0x20 : UInt8) else 0) ||| (if FirstOctet.UDHI o then (0x40 : UInt8) else 0) ||| (if FirstOctet.RP o then (0x80 : UInt8) else 0) := by
  revert o; apply forall_u8; decide +kernel

theorem command_bits (o : UInt8) : o &&& 0x63 = FirstOctet.MTI o ||| (if FirstOctet.SRR o then (0x20 : UInt8) else 0) |||
    (if FirstOctet.UDHI o then (0x40 : UInt8) else 0) := by
  revert o; apply forall_u8; decide +kernel

theorem report_bits (o : UInt8) : o &&& 0x43 = FirstOctet.MTI o ||| (if FirstOctet.UDHI o then (0x40 : UInt8) else 0) := by
  revert o; apply forall_u8; decide +kernel

theorem status_bits (o : UInt8) : o &&& 0x6f = FirstOctet.MTI o ||| (if FirstOctet.MMS o then (4 : UInt8) else 0) ||| (if FirstOctet.LP o then (8 : UInt8) else 0) |||
    (if FirstOctet.SRQ o then (0x20 : UInt8) else 0) ||| (if FirstOctet.UDHI o then (0x40 : UInt8) else 0) := by
  revert o; apply forall_u8; decide +kernel

theorem deliver_flags (o : UInt8) : FirstOctet.MMS o = FirstOctet.MMS (o &&& 0xef) ∧ FirstOctet.LP o = FirstOctet.LP (o &&& 0xef) ∧
    FirstOctet.SRI o = FirstOctet.SRI (o &&& 0xef) ∧ FirstOctet.UDHI o = FirstOctet.UDHI (o &&& 0xef) ∧
    FirstOctet.RP o = FirstOctet.RP (o &&& 0xef) := by
  revert o; apply forall_u8; decide +kernel

theorem command_flags (o : UInt8) : FirstOctet.SRR o = FirstOctet.SRR (o &&& 0x63) ∧ FirstOctet.UDHI o = FirstOctet.UDHI (o &&& 0x63) := by
  revert o; apply forall_u8; decide +kernel

theorem report_flags (o : UInt8) : FirstOctet.UDHI o = FirstOctet.UDHI (o &&& 0x43) := by
  revert o; apply forall_u8; decide +kernel

theorem status_flags (o : UInt8) : FirstOctet.MMS o = FirstOctet.MMS (o &&& 0x6f) ∧ FirstOctet.LP o = FirstOctet.LP (o &&& 0x6f) ∧
    FirstOctet.SRQ o = FirstOctet.SRQ (o &&& 0x6f) ∧ FirstOctet.UDHI o = FirstOctet.UDHI (o &&& 0x6f) := by
  revert o; apply forall_u8; decide +kernel

/-! The lines of each type. -/

theorem line_prefix {p a : Bytes} (hp : OneLine p) (ha : OneLine a) : OneLine (p ++ a) := hp.append ha

theorem mti_one (t : TPDU) : OneLine (mtiLine t) :=
  .append (.append (.append (by decide) (hex02_line _)) (by decide)) (mt_line _)

theorem dec_line (n : Nat) : OneLine (decimal n) := digits_line (decimal_digits n)

/-- The number of an address and the lines before and after it. -/
theorem flat_number (a b : List Bytes) (n : Bytes) (ha : ∀ l ∈ a, OneLine l) (hb : ∀ l ∈ b, OneLine l) :
    (a ++ [n] ++ b).flatMap splitLF = a ++ splitLF n ++ b := by
  rw [List.flatMap_append, List.flatMap_append, flat_lines ha, flat_lines hb]
  simp

theorem forall_append {P : Bytes → Prop} {a b : List Bytes} (ha : ∀ l ∈ a, P l) (hb : ∀ l ∈ b, P l) : ∀ l ∈ a ++ b, P l := by
  intro l hl
  rcases List.mem_append.1 hl with h | h
  · exact ha l h
  · exact hb l h

theorem deliver_same (t t' : TPDU) (h : Seen t) (h' : Seen t') (hs : t.SmsType = t'.SmsType)
    (hm : FirstOctet.MTI t.FirstOctet = FirstOctet.MTI t'.FirstOctet) :
    (dumpDeliver t).flatMap splitLF = (dumpDeliver t').flatMap splitLF ↔
      t.FirstOctet &&& 0xef = t'.FirstOctet &&& 0xef ∧ t.OA.Number = t'.OA.Number ∧ t.PID = t'.PID ∧
      t.DCS = t'.DCS ∧ t.SCTS = t'.SCTS ∧ t.UDH = t'.UDH ∧ t.UD = t'.UD := by
  constructor
  · have key : ∀ t : TPDU, (dumpDeliver t).flatMap splitLF = [mtiLine t,
        b!"TP-MMS: " ++ showBool (FirstOctet.MMS t.FirstOctet),
        b!"TP-LP: " ++ showBool (FirstOctet.LP t.FirstOctet),
        b!"TP-RP: " ++ showBool (FirstOctet.RP t.FirstOctet),
        b!"TP-UDHI: " ++ showBool (FirstOctet.UDHI t.FirstOctet),
        b!"TP-SRI: " ++ showBool (FirstOctet.SRI t.FirstOctet)] ++ splitLF (b!"TP-OA: " ++ t.OA.Number) ++
        [b!"TP-PID: 0x" ++ hex02 t.PID, b!"TP-DCS: " ++ DCS.String t.DCS] ++ [b!"TP-SCTS: " ++ Timestamp.String t.SCTS] ++
        dumpUDH t.UDH ++ dumpUD t.UD := by
      intro t
      have e : dumpDeliver t = [mtiLine t,
        b!"TP-MMS: " ++ showBool (FirstOctet.MMS t.FirstOctet),
        b!"TP-LP: " ++ showBool (FirstOctet.LP t.FirstOctet),
        b!"TP-RP: " ++ showBool (FirstOctet.RP t.FirstOctet),
        b!"TP-UDHI: " ++ showBool (FirstOctet.UDHI t.FirstOctet),
        b!"TP-SRI: " ++ showBool (FirstOctet.SRI t.FirstOctet)] ++ [b!"TP-OA: " ++ t.OA.Number] ++
        ([b!"TP-PID: 0x" ++ hex02 t.PID, b!"TP-DCS: " ++ DCS.String t.DCS, b!"TP-SCTS: " ++ Timestamp.String t.SCTS] ++
        dumpUDH t.UDH ++ dumpUD t.UD) := rfl
      rw [e, flat_number]
      · simp
      · simp only [List.mem_cons, List.not_mem_nil, or_false, forall_eq_or_imp, forall_eq]
        exact ⟨mti_one t, line_prefix (by decide) (showBool_line _), line_prefix (by decide) (showBool_line _),
          line_prefix (by decide) (showBool_line _), line_prefix (by decide) (showBool_line _), line_prefix (by decide) (showBool_line _)⟩
      · refine forall_append (forall_append ?_ (udh_line _)) (ud_line _)
        simp only [List.mem_cons, List.not_mem_nil, or_false, forall_eq_or_imp, forall_eq]
        exact ⟨line_prefix (by decide) (hex02_line _), line_prefix (by decide) (dcs_line _), line_prefix (by decide) (timestamp_line _)⟩
    intro e
    rw [key, key] at e
    obtain ⟨e, e1, e2, e3⟩ := tail_end (by simp [Header, Inner]) (by simp [Header, Inner]) e
    obtain ⟨e, e4⟩ := List.append_inj' e (by simp)
    obtain ⟨e5, e6⟩ := List.append_inj e (by simp)
    simp only [List.cons.injEq, and_true] at e4 e5
    obtain ⟨p1, p2⟩ := e4
    obtain ⟨_, f1, f2, f3, f4, f5⟩ := e5
    have f1 := showBool_inj (List.append_cancel_left f1)
    have f2 := showBool_inj (List.append_cancel_left f2)
    have f3 := showBool_inj (List.append_cancel_left f3)
    have f4 := showBool_inj (List.append_cancel_left f4)
    have f5 := showBool_inj (List.append_cancel_left f5)
    refine ⟨?_, List.append_cancel_left (splitLF_inj e6), hex02_inj _ _ (List.append_cancel_left p1), dcs_inj (List.append_cancel_left p2),
      timestamp_inj h.scts h'.scts (List.append_cancel_left e1), e2, e3⟩
    rw [deliver_bits, deliver_bits t'.FirstOctet, hm, f1, f2, f3, f4, f5]
  · rintro ⟨f, e1, e2, e3, e4, e5, e6⟩
    obtain ⟨a1, a2, a3, a4, a5⟩ := deliver_flags t.FirstOctet
    obtain ⟨b1, b2, b3, b4, b5⟩ := deliver_flags t'.FirstOctet
    rw [f] at a1 a2 a3 a4 a5
    have : dumpDeliver t = dumpDeliver t' := by
      unfold dumpDeliver mtiLine
      rw [hs, e1, e2, e3, e4, e5, e6, a1, a2, a3, a4, a5, ← b1, ← b2, ← b3, ← b4, ← b5]
    rw [this]

/-! Submits. -/

theorem evpf_inj {a b : UInt8} {x y : Int} (ha : a &&& 7 ≤ 3) (hb : b &&& 7 ≤ 3) (hx : Whole x) (hy : Whole y)
    (h : EnhancedValidityPeriodFormat.String (EnhancedFormat a) ++ b!" - " ++ Duration.String x =
      EnhancedValidityPeriodFormat.String (EnhancedFormat b) ++ b!" - " ++ Duration.String y) : a &&& 7 = b &&& 7 ∧ x = y := by
  unfold EnhancedFormat at h
  have four : ∀ c : UInt8, c &&& 7 ≤ 3 → c &&& 7 = 0 ∨ c &&& 7 = 1 ∨ c &&& 7 = 2 ∨ c &&& 7 = 3 := by
    apply forall_u8; decide +kernel
  have s0 : EnhancedValidityPeriodFormat.String 0 = b!"Not Present" := by decide
  have s1 : EnhancedValidityPeriodFormat.String 1 = b!"Relative" := by decide
  have s2 : EnhancedValidityPeriodFormat.String 2 = b!"Relative Seconds" := by decide
  have s3 : EnhancedValidityPeriodFormat.String 3 = b!"Relative HHMMSS" := by decide
  rcases four a ha with e | e | e | e <;> rcases four b hb with f | f | f | f <;> rw [e, f] at h ⊢ <;>
    simp only [s0, s1, s2, s3, List.cons_append, List.nil_append, List.cons.injEq, true_and] at h <;>
    first | exact ⟨rfl, duration_inj hx hy h⟩ | (exfalso; revert h; decide) | (exfalso; simp at h)

theorem vpf_cases (o : UInt8) : FirstOctet.VPF o = VpfNotPresent ∨ FirstOctet.VPF o = VpfAbsolute ∨ FirstOctet.VPF o = VpfEnhanced ∨
    FirstOctet.VPF o = VpfRelative := by
  revert o; apply forall_u8; decide +kernel

/-- The line of a validity period. -/
def vpLine (v : ValidityPeriod) : Bytes :=
  if v.Format = VpfNotPresent then b!"TP-VP: Not Present"
  else if v.Format = VpfAbsolute then b!"TP-VP: Absolute - " ++ Timestamp.String v.Time
  else if v.Format = VpfEnhanced then
    b!"TP-VP: Enhanced " ++ EnhancedValidityPeriodFormat.String (EnhancedFormat v.EFI) ++ b!" - " ++ Duration.String v.Duration
  else b!"TP-VP: Relative - " ++ Duration.String v.Duration

theorem vp_one (v : ValidityPeriod) (o : UInt8) (h : v.Format = FirstOctet.VPF o) : dumpVP v = [vpLine v] := by
  unfold dumpVP vpLine
  rcases vpf_cases o with e | e | e | e <;> rw [h, e] <;> rfl

theorem vp_line (v : ValidityPeriod) : OneLine (vpLine v) := by
  unfold vpLine
  split
  · decide
  split
  · exact .append (by decide) (timestamp_line _)
  split
  · exact .append (.append (.append (by decide) (evpf_line _)) (by decide)) (duration_line _)
  · exact .append (by decide) (duration_line _)

theorem vp_header (v : ValidityPeriod) : ¬ Header (vpLine v) := by
  unfold vpLine
  split
  · decide
  split
  · simp [Header, Inner]
  split <;> simp [Header, Inner]

theorem vp_inj {v v' : ValidityPeriod} {o : UInt8} (h : v.Format = FirstOctet.VPF o) (h' : v'.Format = FirstOctet.VPF o) (hs : VpSeen v)
    (hs' : VpSeen v') : vpLine v = vpLine v' ↔ SamePeriod v v' := by
  unfold vpLine SamePeriod
  rcases vpf_cases o with e | e | e | e <;> rw [e] at h h' <;> rw [h, h']
  · simp only [if_true, true_and, true_iff]
    exact ⟨nofun, nofun, nofun⟩
  · rw [if_neg (by decide), if_pos rfl, if_neg (by decide), if_pos rfl]
    constructor
    · intro e
      exact ⟨rfl, fun _ => timestamp_inj hs.1 hs'.1 (List.append_cancel_left e), nofun, nofun⟩
    · intro e
      rw [e.2.1 rfl]
  · rw [if_neg (by decide), if_neg (by decide), if_pos rfl, if_neg (by decide), if_neg (by decide), if_pos rfl]
    constructor
    · intro e
      rw [List.append_assoc, List.append_assoc, List.append_assoc, List.append_assoc] at e
      have e := List.append_cancel_left e
      rw [← List.append_assoc, ← List.append_assoc] at e
      obtain ⟨e1, e2⟩ := evpf_inj hs.2.2 hs'.2.2 hs.2.1 hs'.2.1 e
      exact ⟨rfl, nofun, fun _ => e2, fun _ => e1⟩
    · intro e
      unfold EnhancedFormat
      rw [e.2.2.1 (.inr rfl), e.2.2.2 rfl]
  · rw [if_neg (by decide), if_neg (by decide), if_neg (by decide), if_neg (by decide), if_neg (by decide), if_neg (by decide)]
    constructor
    · intro e
      exact ⟨rfl, nofun, fun _ => duration_inj hs.2.1 hs'.2.1 (List.append_cancel_left e), nofun⟩
    · intro e
      rw [e.2.2.1 (.inl rfl)]

theorem submit_same (t t' : TPDU) (h : Seen t) (h' : Seen t') (ht : t.SmsType = SmsSubmit) (ht' : t'.SmsType = SmsSubmit)
    (hm : FirstOctet.MTI t.FirstOctet = FirstOctet.MTI t'.FirstOctet) :
    (dumpSubmit t).flatMap splitLF = (dumpSubmit t').flatMap splitLF ↔
      t.FirstOctet = t'.FirstOctet ∧ t.MR = t'.MR ∧ t.DA.Number = t'.DA.Number ∧ t.PID = t'.PID ∧
      t.DCS = t'.DCS ∧ SamePeriod t.VP t'.VP ∧ t.UDH = t'.UDH ∧ t.UD = t'.UD := by
  obtain ⟨v1, v2⟩ := h.vp ht
  obtain ⟨w1, w2⟩ := h'.vp ht'
  constructor
  · have key : ∀ t : TPDU, t.VP.Format = FirstOctet.VPF t.FirstOctet → (dumpSubmit t).flatMap splitLF = [mtiLine t,
        b!"TP-RD: " ++ showBool (FirstOctet.RD t.FirstOctet),
        b!"TP-VPF: 0x" ++ hex02 (FirstOctet.VPF t.FirstOctet) ++ b!" " ++ ValidityPeriodFormat.String (FirstOctet.VPF t.FirstOctet),
        b!"TP-RP: " ++ showBool (FirstOctet.RP t.FirstOctet),
        b!"TP-UDHI: " ++ showBool (FirstOctet.UDHI t.FirstOctet),
        b!"TP-SRR: " ++ showBool (FirstOctet.SRR t.FirstOctet),
        b!"TP-MR: " ++ decimal t.MR.toNat] ++ splitLF (b!"TP-DA: " ++ t.DA.Number) ++
        [b!"TP-PID: 0x" ++ hex02 t.PID, b!"TP-DCS: " ++ DCS.String t.DCS] ++ [vpLine t.VP] ++
        dumpUDH t.UDH ++ dumpUD t.UD := by
      intro t hv
      have e : dumpSubmit t = [mtiLine t,
        b!"TP-RD: " ++ showBool (FirstOctet.RD t.FirstOctet),
        b!"TP-VPF: 0x" ++ hex02 (FirstOctet.VPF t.FirstOctet) ++ b!" " ++ ValidityPeriodFormat.String (FirstOctet.VPF t.FirstOctet),
        b!"TP-RP: " ++ showBool (FirstOctet.RP t.FirstOctet),
        b!"TP-UDHI: " ++ showBool (FirstOctet.UDHI t.FirstOctet),
        b!"TP-SRR: " ++ showBool (FirstOctet.SRR t.FirstOctet),
        b!"TP-MR: " ++ decimal t.MR.toNat] ++ [b!"TP-DA: " ++ t.DA.Number] ++
        ([b!"TP-PID: 0x" ++ hex02 t.PID, b!"TP-DCS: " ++ DCS.String t.DCS, vpLine t.VP] ++
        dumpUDH t.UDH ++ dumpUD t.UD) := by
        unfold dumpSubmit
        rw [vp_one _ _ hv]
        simp only [List.append_assoc, List.cons_append, List.nil_append]
      rw [e, flat_number]
      · simp
      · simp only [List.mem_cons, List.not_mem_nil, or_false, forall_eq_or_imp, forall_eq]
        exact ⟨mti_one t, line_prefix (by decide) (showBool_line _),
          .append (.append (.append (by decide) (hex02_line _)) (by decide)) (vpf_line _), line_prefix (by decide) (showBool_line _),
          line_prefix (by decide) (showBool_line _), line_prefix (by decide) (showBool_line _), line_prefix (by decide) (dec_line _)⟩
      · refine forall_append (forall_append ?_ (udh_line _)) (ud_line _)
        simp only [List.mem_cons, List.not_mem_nil, or_false, forall_eq_or_imp, forall_eq]
        exact ⟨line_prefix (by decide) (hex02_line _), line_prefix (by decide) (dcs_line _), vp_line _⟩
    intro e
    rw [key t v1, key t' w1] at e
    obtain ⟨e, e1, e2, e3⟩ := tail_end (vp_header _) (vp_header _) e
    obtain ⟨e, e4⟩ := List.append_inj' e (by simp)
    obtain ⟨e5, e6⟩ := List.append_inj e (by simp)
    simp only [List.cons.injEq, and_true] at e4 e5
    obtain ⟨p1, p2⟩ := e4
    obtain ⟨_, f1, f2, f3, f4, f5, f6⟩ := e5
    have f1 := showBool_inj (List.append_cancel_left f1)
    have f3 := showBool_inj (List.append_cancel_left f3)
    have f4 := showBool_inj (List.append_cancel_left f4)
    have f5 := showBool_inj (List.append_cancel_left f5)
    have f6 := decimal_inj _ _ (List.append_cancel_left f6)
    have f2 : FirstOctet.VPF t.FirstOctet = FirstOctet.VPF t'.FirstOctet := by
      simp only [List.append_assoc] at f2
      exact hex02_inj _ _ (List.append_inj (List.append_cancel_left f2) (by simp [hex02])).1
    have fo : t.FirstOctet = t'.FirstOctet := by
      rw [submit_bits t.FirstOctet, hm, f1, f2, f3, f4, f5, ← submit_bits]
    exact ⟨fo, UInt8.toNat_inj.mp f6, List.append_cancel_left (splitLF_inj e6), hex02_inj _ _ (List.append_cancel_left p1),
      dcs_inj (List.append_cancel_left p2), (vp_inj v1 (by rw [fo]; exact w1) v2 w2).1 e1, e2, e3⟩
  · rintro ⟨f, e1, e2, e3, e4, e5, e6, e7⟩
    have e5 := (vp_inj v1 (by rw [f]; exact w1) v2 w2).2 e5
    have : dumpSubmit t = dumpSubmit t' := by
      unfold dumpSubmit mtiLine
      rw [vp_one _ _ v1, vp_one _ _ w1, ht, ht', e1, e2, e3, e4, e5, e6, e7, f]
    rw [this]

/-! Commands. -/

theorem command_same (t t' : TPDU) (h : Seen t) (h' : Seen t') (ht : t.SmsType = SmsCommand) (ht' : t'.SmsType = SmsCommand)
    (hm : FirstOctet.MTI t.FirstOctet = FirstOctet.MTI t'.FirstOctet) :
    (dumpCommand t).flatMap splitLF = (dumpCommand t').flatMap splitLF ↔
      t.FirstOctet &&& 0x63 = t'.FirstOctet &&& 0x63 ∧ t.MR = t'.MR ∧ t.PID = t'.PID ∧ t.CT = t'.CT ∧
      t.MN = t'.MN ∧ t.DA.Number = t'.DA.Number ∧ t.UD = t'.UD := by
  constructor
  · have key : ∀ t : TPDU, (dumpCommand t).flatMap splitLF = [mtiLine t,
        b!"TP-UDHI: " ++ showBool (FirstOctet.UDHI t.FirstOctet),
        b!"TP-SRR: " ++ showBool (FirstOctet.SRR t.FirstOctet),
        b!"TP-MR: " ++ decimal t.MR.toNat,
        b!"TP-PID: 0x" ++ hex02 t.PID,
        b!"TP-CT: 0x" ++ hex02 t.CT,
        b!"TP-MN: " ++ decimal t.MN.toNat] ++ splitLF (b!"TP-DA: " ++ t.DA.Number) ++
        [b!"TP-SCTS: " ++ Timestamp.String t.SCTS, b!"TP-CDL: " ++ decimal t.UD.length] ++ dumpCD t.UD := by
      intro t
      have e : dumpCommand t = [mtiLine t,
        b!"TP-UDHI: " ++ showBool (FirstOctet.UDHI t.FirstOctet),
        b!"TP-SRR: " ++ showBool (FirstOctet.SRR t.FirstOctet),
        b!"TP-MR: " ++ decimal t.MR.toNat,
        b!"TP-PID: 0x" ++ hex02 t.PID,
        b!"TP-CT: 0x" ++ hex02 t.CT,
        b!"TP-MN: " ++ decimal t.MN.toNat] ++ [b!"TP-DA: " ++ t.DA.Number] ++
        ([b!"TP-SCTS: " ++ Timestamp.String t.SCTS, b!"TP-CDL: " ++ decimal t.UD.length] ++ dumpCD t.UD) := rfl
      rw [e, flat_number]
      · simp
      · simp only [List.mem_cons, List.not_mem_nil, or_false, forall_eq_or_imp, forall_eq]
        exact ⟨mti_one t, line_prefix (by decide) (showBool_line _), line_prefix (by decide) (showBool_line _),
          line_prefix (by decide) (dec_line _), line_prefix (by decide) (hex02_line _), line_prefix (by decide) (hex02_line _),
          line_prefix (by decide) (dec_line _)⟩
      · refine forall_append ?_ (cd_line _)
        simp only [List.mem_cons, List.not_mem_nil, or_false, forall_eq_or_imp, forall_eq]
        exact ⟨line_prefix (by decide) (timestamp_line _), line_prefix (by decide) (dec_line _)⟩
    intro e
    rw [key, key] at e
    obtain ⟨e, e1⟩ := cd_end e
    obtain ⟨e, _⟩ := List.append_inj' e (by simp)
    obtain ⟨e5, e6⟩ := List.append_inj e (by simp)
    simp only [List.cons.injEq, and_true] at e5
    obtain ⟨_, f1, f2, f3, f4, f5, f6⟩ := e5
    have f1 := showBool_inj (List.append_cancel_left f1)
    have f2 := showBool_inj (List.append_cancel_left f2)
    have f3 := decimal_inj _ _ (List.append_cancel_left f3)
    have f4 := hex02_inj _ _ (List.append_cancel_left f4)
    have f5 := hex02_inj _ _ (List.append_cancel_left f5)
    have f6 := decimal_inj _ _ (List.append_cancel_left f6)
    refine ⟨?_, UInt8.toNat_inj.mp f3, f4, f5, UInt8.toNat_inj.mp f6, List.append_cancel_left (splitLF_inj e6), e1⟩
    rw [command_bits, command_bits t'.FirstOctet, hm, f1, f2]
  · rintro ⟨f, e1, e2, e3, e4, e5, e6⟩
    obtain ⟨a1, a2⟩ := command_flags t.FirstOctet
    obtain ⟨b1, b2⟩ := command_flags t'.FirstOctet
    rw [f] at a1 a2
    have : dumpCommand t = dumpCommand t' := by
      unfold dumpCommand mtiLine
      rw [ht, ht', h.command ht, h'.command ht', e1, e2, e3, e4, e5, e6, a1, a2, ← b1, ← b2]
    rw [this]

/-! Reports. -/

/-- The lines of the protocol and the coding of a report. -/
def optLines (t : TPDU) : List Bytes :=
  (if PI.PID t.PI then [b!"TP-PID: 0x" ++ hex02 t.PID] else []) ++ (if PI.DCS t.PI then [b!"TP-DCS: " ++ DCS.String t.DCS] else [])

/-- A line of a header, or of the protocol or the coding. -/
def Optional (l : Bytes) : Prop := Header l ∨ l.take 6 = b!"TP-PID" ∨ l.take 6 = b!"TP-DCS"

instance (l : Bytes) : Decidable (Optional l) := by unfold Optional; infer_instance

theorem opt_optional (t : TPDU) : ∀ l ∈ optLines t, Optional l := by
  unfold optLines
  refine forall_append ?_ ?_
  · split
    · intro l hl; rw [List.mem_singleton] at hl; subst hl; exact .inr (.inl rfl)
    · nofun
  · split
    · intro l hl; rw [List.mem_singleton] at hl; subst hl; exact .inr (.inr rfl)
    · nofun

theorem opt_lines (t : TPDU) : ∀ l ∈ optLines t, OneLine l := by
  unfold optLines
  refine forall_append ?_ ?_
  · split
    · intro l hl; rw [List.mem_singleton] at hl; subst hl; exact .append (by decide) (hex02_line _)
    · nofun
  · split
    · intro l hl; rw [List.mem_singleton] at hl; subst hl; exact .append (by decide) (dcs_line _)
    · nofun

theorem pi_bits (p : UInt8) : PI.PID p = PI.PID (p &&& 7) ∧ PI.DCS p = PI.DCS (p &&& 7) ∧ (PI.PID p = true ↔ p &&& 1 ≠ 0) ∧
    (PI.DCS p = true ↔ p &&& 2 ≠ 0) := by
  revert p; apply forall_u8; decide +kernel

/-- The optional fields at the end of what is printed can be read back, up to the line of the parameter indicator. -/
theorem opt_end {a b : List Bytes} {x y : Bytes} {t t' : TPDU} (hx : ¬ Optional x) (hy : ¬ Optional y)
    (e : a ++ [x] ++ optLines t ++ dumpUDH t.UDH ++ dumpUD t.UD = b ++ [y] ++ optLines t' ++ dumpUDH t'.UDH ++ dumpUD t'.UD) :
    a = b ∧ x = y ∧ (PI.String t.PI = PI.String t'.PI → SameOptions t t') := by
  obtain ⟨e, e1⟩ := ud_end e
  have ho : ∀ t : TPDU, ∀ l ∈ optLines t ++ dumpUDH t.UDH, Optional l := fun t =>
    forall_append (opt_optional t) fun l hl => .inl (udh_header _ l hl)
  obtain ⟨h1, h2, h3⟩ := split_last Optional (ho t) (ho t') hx hy (by simpa using e)
  refine ⟨h1, h2, fun hp => ?_⟩
  obtain ⟨p1, p2⟩ := pi_inj hp
  obtain ⟨a1, a2, a3, a4⟩ := pi_bits t.PI
  obtain ⟨b1, b2, b3, b4⟩ := pi_bits t'.PI
  rw [p1, ← b1] at a1
  rw [p1, ← b2] at a2
  have hlen : (optLines t).length = (optLines t').length := by
    unfold optLines
    rw [a1, a2]
    simp only [List.length_append]
    congr 1 <;> split <;> rfl
  obtain ⟨h4, h5⟩ := List.append_inj h3 hlen
  have hlen' : (if PI.PID t.PI then [b!"TP-PID: 0x" ++ hex02 t.PID] else []).length =
      (if PI.PID t'.PI then [b!"TP-PID: 0x" ++ hex02 t'.PID] else []).length := by
    rw [a1]; split <;> rfl
  obtain ⟨h6, h7⟩ := List.append_inj h4 hlen'
  refine ⟨p1, p2, fun hb => ?_, fun hb => ?_, udh_inj h5, e1⟩
  · have hb := a3.2 hb
    rw [← a1, hb] at h6
    simp only [if_true, List.cons.injEq, and_true] at h6
    exact hex02_inj _ _ (List.append_cancel_left h6)
  · have hb := a4.2 hb
    rw [← a2, hb] at h7
    simp only [if_true, List.cons.injEq, and_true] at h7
    exact dcs_inj (List.append_cancel_left h7)

theorem opt_congr {t t' : TPDU} (h : SameOptions t t') : PI.String t.PI = PI.String t'.PI ∧ optLines t = optLines t' ∧
    dumpUDH t.UDH = dumpUDH t'.UDH ∧ dumpUD t.UD = dumpUD t'.UD := by
  obtain ⟨p1, p2, p3, p4, p5, p6⟩ := h
  obtain ⟨a1, a2, a3, a4⟩ := pi_bits t.PI
  obtain ⟨b1, b2, b3, b4⟩ := pi_bits t'.PI
  rw [p1, ← b1] at a1
  rw [p1, ← b2] at a2
  refine ⟨?_, ?_, by rw [p5], by rw [p6]⟩
  · rw [pi_string, pi_string t'.PI, p1]
    by_cases hz : t.PI = 0
    · rw [if_pos hz, if_pos (p2.1 hz)]
    · rw [if_neg hz, if_neg fun hz' => hz (p2.2 hz')]
  · have e1 : (if PI.PID t.PI then [b!"TP-PID: 0x" ++ hex02 t.PID] else []) = (if PI.PID t'.PI then [b!"TP-PID: 0x" ++ hex02 t'.PID] else []) := by
      by_cases hb : PI.PID t.PI = true
      · rw [← a1, if_pos hb, if_pos hb, p3 (a3.1 hb)]
      · rw [← a1, if_neg hb, if_neg hb]
    have e2 : (if PI.DCS t.PI then [b!"TP-DCS: " ++ DCS.String t.DCS] else []) = (if PI.DCS t'.PI then [b!"TP-DCS: " ++ DCS.String t'.DCS] else []) := by
      by_cases hb : PI.DCS t.PI = true
      · rw [← a2, if_pos hb, if_pos hb, p4 (a4.1 hb)]
      · rw [← a2, if_neg hb, if_neg hb]
    unfold optLines
    rw [e1, e2]

theorem pi_optional (p : UInt8) : ¬ Optional (b!"TP-PI: " ++ PI.String p) := by simp [Optional, Header, Inner]

theorem deliverReport_same (t t' : TPDU) (hs : t.SmsType = t'.SmsType)
    (hm : FirstOctet.MTI t.FirstOctet = FirstOctet.MTI t'.FirstOctet) :
    (dumpDeliverReport t).flatMap splitLF = (dumpDeliverReport t').flatMap splitLF ↔
      t.FirstOctet &&& 0x43 = t'.FirstOctet &&& 0x43 ∧ t.FCS = t'.FCS ∧ SameOptions t t' := by
  have shape : ∀ t : TPDU, dumpDeliverReport t = [mtiLine t,
      b!"TP-UDHI: " ++ showBool (FirstOctet.UDHI t.FirstOctet),
      b!"TP-FCS: 0x" ++ hex02 t.FCS] ++ [b!"TP-PI: " ++ PI.String t.PI] ++ optLines t ++ dumpUDH t.UDH ++ dumpUD t.UD := by
    intro t
    simp [dumpDeliverReport, optLines]
  constructor
  · have key : ∀ t : TPDU, (dumpDeliverReport t).flatMap splitLF = [mtiLine t,
        b!"TP-UDHI: " ++ showBool (FirstOctet.UDHI t.FirstOctet),
        b!"TP-FCS: 0x" ++ hex02 t.FCS] ++ [b!"TP-PI: " ++ PI.String t.PI] ++ optLines t ++ dumpUDH t.UDH ++ dumpUD t.UD := by
      intro t
      rw [shape]
      refine flat_lines (forall_append (forall_append (forall_append (forall_append ?_ ?_) (opt_lines t)) (udh_line _)) (ud_line _)) <;>
        simp only [List.mem_cons, List.not_mem_nil, or_false, forall_eq_or_imp, forall_eq]
      · exact ⟨mti_one t, line_prefix (by decide) (showBool_line _), line_prefix (by decide) (hex02_line _)⟩
      · exact line_prefix (by decide) (pi_line _)
    intro e
    rw [key, key] at e
    obtain ⟨e, e1, e2⟩ := opt_end (pi_optional _) (pi_optional _) e
    simp only [List.cons.injEq, and_true] at e
    obtain ⟨_, f1, f2⟩ := e
    have f1 := showBool_inj (List.append_cancel_left f1)
    refine ⟨?_, hex02_inj _ _ (List.append_cancel_left f2), e2 (List.append_cancel_left e1)⟩
    rw [report_bits, report_bits t'.FirstOctet, hm, f1]
  · rintro ⟨f, e1, e2⟩
    have a1 := report_flags t.FirstOctet
    rw [f, ← report_flags] at a1
    obtain ⟨o1, o2, o3, o4⟩ := opt_congr e2
    rw [shape, shape, o1, o2, o3, o4, e1, a1]
    unfold mtiLine
    rw [hs]

theorem submitReport_same (t t' : TPDU) (h : Seen t) (h' : Seen t') (hs : t.SmsType = t'.SmsType)
    (hm : FirstOctet.MTI t.FirstOctet = FirstOctet.MTI t'.FirstOctet) :
    (dumpSubmitReport t).flatMap splitLF = (dumpSubmitReport t').flatMap splitLF ↔
      t.FirstOctet &&& 0x43 = t'.FirstOctet &&& 0x43 ∧ t.FCS = t'.FCS ∧ t.SCTS = t'.SCTS ∧ SameOptions t t' := by
  have shape : ∀ t : TPDU, dumpSubmitReport t = [mtiLine t,
      b!"TP-UDHI: " ++ showBool (FirstOctet.UDHI t.FirstOctet),
      b!"TP-FCS: 0x" ++ hex02 t.FCS, b!"TP-PI: " ++ PI.String t.PI] ++ [b!"TP-SCTS: " ++ Timestamp.String t.SCTS] ++ optLines t ++
      dumpUDH t.UDH ++ dumpUD t.UD := by
    intro t
    simp [dumpSubmitReport, optLines]
  constructor
  · have key : ∀ t : TPDU, (dumpSubmitReport t).flatMap splitLF = [mtiLine t,
        b!"TP-UDHI: " ++ showBool (FirstOctet.UDHI t.FirstOctet),
        b!"TP-FCS: 0x" ++ hex02 t.FCS, b!"TP-PI: " ++ PI.String t.PI] ++ [b!"TP-SCTS: " ++ Timestamp.String t.SCTS] ++ optLines t ++
        dumpUDH t.UDH ++ dumpUD t.UD := by
      intro t
      rw [shape]
      refine flat_lines (forall_append (forall_append (forall_append (forall_append ?_ ?_) (opt_lines t)) (udh_line _)) (ud_line _)) <;>
        simp only [List.mem_cons, List.not_mem_nil, or_false, forall_eq_or_imp, forall_eq]
      · exact ⟨mti_one t, line_prefix (by decide) (showBool_line _), line_prefix (by decide) (hex02_line _), line_prefix (by decide) (pi_line _)⟩
      · exact line_prefix (by decide) (timestamp_line _)
    intro e
    rw [key, key] at e
    obtain ⟨e, e1, e2⟩ := opt_end (by simp [Optional, Header, Inner]) (by simp [Optional, Header, Inner]) e
    simp only [List.cons.injEq, and_true] at e
    obtain ⟨_, f1, f2, f3⟩ := e
    have f1 := showBool_inj (List.append_cancel_left f1)
    refine ⟨?_, hex02_inj _ _ (List.append_cancel_left f2), timestamp_inj h.scts h'.scts (List.append_cancel_left e1),
      e2 (List.append_cancel_left f3)⟩
    rw [report_bits, report_bits t'.FirstOctet, hm, f1]
  · rintro ⟨f, e1, e2, e3⟩
    have a1 := report_flags t.FirstOctet
    rw [f, ← report_flags] at a1
    obtain ⟨o1, o2, o3, o4⟩ := opt_congr e3
    rw [shape, shape, o1, o2, o3, o4, e1, e2, a1]
    unfold mtiLine
    rw [hs]

theorem statusReport_same (t t' : TPDU) (h : Seen t) (h' : Seen t') (hs : t.SmsType = t'.SmsType)
    (hm : FirstOctet.MTI t.FirstOctet = FirstOctet.MTI t'.FirstOctet) :
    (dumpStatusReport t).flatMap splitLF = (dumpStatusReport t').flatMap splitLF ↔
      t.FirstOctet &&& 0x6f = t'.FirstOctet &&& 0x6f ∧ t.MR = t'.MR ∧ t.RA.Number = t'.RA.Number ∧
      t.SCTS = t'.SCTS ∧ t.DT = t'.DT ∧ t.ST = t'.ST ∧ SameOptions t t' := by
  have shape : ∀ t : TPDU, dumpStatusReport t = [mtiLine t,
      b!"TP-UDHI: " ++ showBool (FirstOctet.UDHI t.FirstOctet),
      b!"TP-MMS: " ++ showBool (FirstOctet.MMS t.FirstOctet),
      b!"TP-LP: " ++ showBool (FirstOctet.LP t.FirstOctet),
      b!"TP-SRQ: " ++ showBool (FirstOctet.SRQ t.FirstOctet),
      b!"TP-MR: " ++ decimal t.MR.toNat] ++ [b!"TP-RA: " ++ t.RA.Number] ++
      ([b!"TP-SCTS: " ++ Timestamp.String t.SCTS, b!"TP-DT: " ++ Timestamp.String t.DT, b!"TP-ST: 0x" ++ hex02 t.ST,
        b!"TP-PI: " ++ PI.String t.PI] ++ optLines t ++ dumpUDH t.UDH ++ dumpUD t.UD) := by
    intro t
    simp [dumpStatusReport, optLines]
  constructor
  · have key : ∀ t : TPDU, (dumpStatusReport t).flatMap splitLF = [mtiLine t,
        b!"TP-UDHI: " ++ showBool (FirstOctet.UDHI t.FirstOctet),
        b!"TP-MMS: " ++ showBool (FirstOctet.MMS t.FirstOctet),
        b!"TP-LP: " ++ showBool (FirstOctet.LP t.FirstOctet),
        b!"TP-SRQ: " ++ showBool (FirstOctet.SRQ t.FirstOctet),
        b!"TP-MR: " ++ decimal t.MR.toNat] ++ splitLF (b!"TP-RA: " ++ t.RA.Number) ++
        [b!"TP-SCTS: " ++ Timestamp.String t.SCTS, b!"TP-DT: " ++ Timestamp.String t.DT, b!"TP-ST: 0x" ++ hex02 t.ST] ++
        [b!"TP-PI: " ++ PI.String t.PI] ++ optLines t ++ dumpUDH t.UDH ++ dumpUD t.UD := by
      intro t
      rw [shape, flat_number]
      · simp
      · simp only [List.mem_cons, List.not_mem_nil, or_false, forall_eq_or_imp, forall_eq]
        exact ⟨mti_one t, line_prefix (by decide) (showBool_line _), line_prefix (by decide) (showBool_line _),
          line_prefix (by decide) (showBool_line _), line_prefix (by decide) (showBool_line _), line_prefix (by decide) (dec_line _)⟩
      · refine forall_append (forall_append (forall_append ?_ (opt_lines t)) (udh_line _)) (ud_line _)
        simp only [List.mem_cons, List.not_mem_nil, or_false, forall_eq_or_imp, forall_eq]
        exact ⟨line_prefix (by decide) (timestamp_line _), line_prefix (by decide) (timestamp_line _), line_prefix (by decide) (hex02_line _),
          line_prefix (by decide) (pi_line _)⟩
    intro e
    rw [key, key] at e
    obtain ⟨e, e1, e2⟩ := opt_end (pi_optional _) (pi_optional _) e
    obtain ⟨e, e4⟩ := List.append_inj' e (by simp)
    obtain ⟨e5, e6⟩ := List.append_inj e (by simp)
    simp only [List.cons.injEq, and_true] at e4 e5
    obtain ⟨p1, p2, p3⟩ := e4
    obtain ⟨_, f1, f2, f3, f4, f5⟩ := e5
    have f1 := showBool_inj (List.append_cancel_left f1)
    have f2 := showBool_inj (List.append_cancel_left f2)
    have f3 := showBool_inj (List.append_cancel_left f3)
    have f4 := showBool_inj (List.append_cancel_left f4)
    have f5 := decimal_inj _ _ (List.append_cancel_left f5)
    refine ⟨?_, UInt8.toNat_inj.mp f5, List.append_cancel_left (splitLF_inj e6), timestamp_inj h.scts h'.scts (List.append_cancel_left p1),
      timestamp_inj h.dt h'.dt (List.append_cancel_left p2), hex02_inj _ _ (List.append_cancel_left p3), e2 (List.append_cancel_left e1)⟩
    rw [status_bits, status_bits t'.FirstOctet, hm, f1, f2, f3, f4]
  · rintro ⟨f, e1, e2, e3, e4, e5, e6⟩
    obtain ⟨a1, a2, a3, a4⟩ := status_flags t.FirstOctet
    obtain ⟨b1, b2, b3, b4⟩ := status_flags t'.FirstOctet
    rw [f] at a1 a2 a3 a4
    obtain ⟨o1, o2, o3, o4⟩ := opt_congr e6
    rw [shape, shape, o1, o2, o3, o4, e1, e2, e3, e4, e5, a1, a2, a3, a4, ← b1, ← b2, ← b3, ← b4]
    unfold mtiLine
    rw [hs]

end Verif.Proofs.Print
