import Verif.Spec.Relay
import Verif.Proofs.Keeps
import Verif.Proofs.Tpdu

/-! What a successful `UnmarshalBinary` says about the fields. -/

namespace Verif.Proofs
open Verif.Model Verif.Spec

/-- Strict decoding without an extension table yields characters of the table, at most one per septet. -/
theorem strict_loop (src : Bytes) : ∀ (b : Bool) (text : Bytes),
    Gsm7.Decoder.loop ⟨Charset.NewDecoder 0, [], true⟩ src b = .ok text →
    ∃ rs, text = Unicode.encodeRunes rs ∧ rs.length ≤ src.length + b.toNat ∧
      ∀ r ∈ rs, r ≠ 0x1b ∧ ∃ g, (Charset.NewDecoder 0).lookup g = some r := by
  have hsp : (Charset.NewDecoder 0).lookup 0x20 = some 0x20 := by decide +kernel
  have hspe : Unicode.encodeRune 0x20 = [Gsm7.sp] := by decide
  induction src with
  | nil =>
    intro b text h
    cases b
    · cases h; exact ⟨[], rfl, by simp, by simp⟩
    · cases h; exact ⟨[0x20], by simp [Unicode.encodeRunes, hspe], by simp, by simp; exact ⟨_, hsp⟩⟩
  | cons g src ih =>
    intro b text h
    cases b
    · rw [Gsm7.Decoder.loop] at h
      by_cases he : g = Gsm7.esc
      · rw [if_pos he] at h
        obtain ⟨rs, e1, e2, e3⟩ := ih _ _ h
        exact ⟨rs, e1, by simp at e2 ⊢; omega, e3⟩
      · rw [if_neg he] at h
        cases hl : (Charset.NewDecoder 0).lookup g with
        | none => rw [hl] at h; cases h
        | some m =>
          rw [hl] at h
          obtain ⟨rest, h1, h2⟩ := bind_eq_ok.1 h
          cases h2
          obtain ⟨rs, e1, e2, e3⟩ := ih _ _ h1
          refine ⟨m :: rs, by simp [Unicode.encodeRunes, e1], by simp at e2 ⊢; omega, ?_⟩
          intro r hr
          rcases List.mem_cons.mp hr with rfl | hr
          · exact ⟨fun h => he (((locking_ok 0).esc _ _ hl).mpr h), _, hl⟩
          · exact e3 r hr
    · rw [Gsm7.Decoder.loop] at h
      by_cases he : g = Gsm7.esc
      · rw [if_pos he] at h
        obtain ⟨rest, h1, h2⟩ := bind_eq_ok.1 h
        cases h2
        obtain ⟨rs, e1, e2, e3⟩ := ih _ _ h1
        refine ⟨0x20 :: rs, by simp [Unicode.encodeRunes, e1, hspe], by simp at e2 ⊢; omega, ?_⟩
        intro r hr
        rcases List.mem_cons.mp hr with rfl | hr
        · exact ⟨by decide, _, hsp⟩
        · exact e3 r hr
      · rw [if_neg he] at h; cases h

/-- Text of characters of the default table encodes, one septet per character. -/
theorem encode_plain (rs : List Nat) (h : ∀ r ∈ rs, ∃ g, (Charset.NewDecoder 0).lookup g = some r) :
    ∃ g, Gsm7.Encoder.loop ⟨Charset.NewEncoder 0, []⟩ rs = .ok g ∧ g.length = rs.length := by
  induction rs with
  | nil => exact ⟨[], rfl, rfl⟩
  | cons r rs ih =>
    obtain ⟨g, hg, hl⟩ := ih (fun r hr => h r (by simp [hr]))
    obtain ⟨c, hc⟩ := h r (by simp)
    obtain ⟨c', hc', _⟩ := (locking_ok 0).total _ _ hc
    refine ⟨c' :: g, ?_, by simp [hl]⟩
    rw [Gsm7.Encoder.loop]
    simp only [hc', hg]
    rfl

theorem alpha_inv (u text : Bytes) (h : (Gsm7.NewDecoder []).WithoutExt.Strict.Decode u = .ok text) :
    0x1b ∉ text ∧ ∃ g, (Gsm7.NewEncoder []).WithoutExt.Encode text = .ok g ∧ g.length ≤ u.length := by
  have e1 : (Gsm7.NewEncoder []).WithoutExt = ⟨Charset.NewEncoder 0, []⟩ := rfl
  have e2 : (Gsm7.NewDecoder []).WithoutExt.Strict = ⟨Charset.NewDecoder 0, [], true⟩ := rfl
  rw [decoder_decode_eq, e2] at h
  obtain ⟨rs, h1, h2, h3⟩ := strict_loop u false text h
  obtain ⟨g, hg, hl⟩ := encode_plain rs (fun r hr => (h3 r hr).2)
  subst h1
  refine ⟨fun h => (h3 _ ((encodeRunes_mem_esc rs).mp h)).1 rfl, g, ?_, by simp at h2; omega⟩
  rw [encoder_encode_eq, e1, decodeRunes_encodeRunes rs, hg]
  intro r hr
  obtain ⟨_, g, hg⟩ := h3 r hr
  exact ((locking_ok 0).scalar _ _ hg).1

theorem addr_inv (src : Bytes) : Post (Address.UnmarshalBinary src) (fun r => AddrOk r.1) := by
  unfold Address.UnmarshalBinary
  split
  · exact .fail
  refine Post.bind ?_; intro l
  refine Post.bind ?_; intro toa
  simp only
  have hl255 : l.toNat < 256 := l.toNat_lt
  split
  · exact .fail
  split
  · rename_i hlen hton
    refine Post.bind' (Q := fun s => s.length = (l.toNat + 1) / 2) ?_ ?_
    · intro s hs
      obtain ⟨_, _, rfl⟩ := slice_eq_ok hs
      simp; omega
    intro s hs
    have hul : (Gsm7.Unpack7Bit s 0).length = s.length * 8 / 7 := by
      obtain ⟨_, rest, hr, e⟩ := unpack7Bit_bits s 0 (by omega)
      have := congrArg List.length e
      simp only [List.length_append, septetBits_length, List.length_drop, octetBits_length] at this
      omega
    have key : ∀ u : Bytes, u.length ≤ 145 → Post (wrapD "addr" 2 ((Gsm7.NewDecoder []).WithoutExt.Strict.Decode u) >>=
        fun baddr => pure ((⟨toa, baddr⟩ : Address), 2 + (l.toNat + 1) / 2)) (fun r => AddrOk r.1) := by
      intro u hu
      refine Post.bind' (Post.wrapD (P := fun text => 0x1b ∉ text ∧ ∃ g, (Gsm7.NewEncoder []).WithoutExt.Encode text = .ok g ∧
        g.length ≤ u.length) (alpha_inv u)) ?_
      rintro text ⟨h1, g, h2, h3⟩
      exact .ok (.inr ⟨hton, h1, g, h2, by omega⟩)
    split
    · refine Post.bind' (Q := fun u => u.length ≤ 145) ?_ key
      intro u hu
      have e : (((Gsm7.Unpack7Bit s 0).length : Int) - 1) = (((Gsm7.Unpack7Bit s 0).length - 1 : Nat) : Int) := by omega
      rw [e] at hu
      obtain ⟨_, _, rfl⟩ := slice_eq_ok (a := 0) hu
      simp; omega
    · exact key _ (by omega)
  · rename_i hlen hton
    refine Post.bind ?_; intro s
    refine Post.bind' (Q := fun d => ∀ ds, d.digits = .ok ds → ds.length ≤ l.toNat ∧ Digits ds) ?_ ?_
    · intro d hd
      obtain ⟨r, k, h1, _, _, h2, _⟩ := decodeLoop_spec l.toNat s [] 0 (by simp) (by simp [Digits])
      have : Semioctet.Decode l.toNat s = .ok r := h1
      rw [this] at hd; cases hd
      intro ds hds
      exact ⟨(h2 ds hds).1, (h2 ds hds).2.1⟩
    intro d hd
    split
    · exact .fail
    · rename_i baddr hb
      split
      · exact .fail
      · obtain ⟨h1, h2⟩ := hd _ hb
        exact .ok (.inl ⟨hton, h2, by simp only; omega⟩)

theorem time_inv (src : Bytes) : Post (Timestamp.UnmarshalBinary src)
    (fun t => 1970 ≤ t.Year → t.Year ≤ 2069 → TimeOk t) := by
  unfold Timestamp.UnmarshalBinary
  split
  · exact .fail
  iterate 13 (refine Post.bind ?_; intro _)
  refine Post.bind' (Q := fun q => -79 ≤ q ∧ q ≤ 79) ?_ ?_
  · intro q hq
    rw [bcd_decodeSigned] at hq
    split at hq
    · cases hq; split <;> omega
    · cases hq
  intro q hq
  exact .ok fun h1 h2 => ⟨rfl, h1, h2, q, rfl, hq.1, hq.2⟩

theorem rel_ne (c : UInt8) (h : relativeToDuration c ≠ 5 * minute) : c ≠ 0 := by
  rintro rfl; exact h (by decide)

theorem bcd_inv (o : UInt8) : Post (Bcd.Decode o) (fun v => ∃ n : Nat, v = n ∧ n ≤ 99) := by
  intro v hv
  rw [bcd_decode] at hv
  split at hv
  · cases hv; exact ⟨_, rfl, by omega⟩
  · cases hv

theorem vp_inv (src : Bytes) (vpf : UInt8) : Post (ValidityPeriod.UnmarshalBinary {} src vpf)
    (fun r => r.1.Format = vpf ∧ (VpKept r.1 → VpOk r.1)) := by
  unfold ValidityPeriod.UnmarshalBinary
  simp only
  split
  · rename_i h; subst h
    refine Post.bind' (time_inv src) ?_
    intro t ht
    exact .ok ⟨rfl, fun hk => .absolute t (ht (hk.2.1 rfl).1 (hk.2.1 rfl).2)⟩
  split
  · rename_i h; subst h
    refine Post.bind' (Q := fun r => VpKept { r.1 with Format := VpfEnhanced } → VpOk { r.1 with Format := VpfEnhanced }) ?_ ?_
    · unfold ValidityPeriod.unmarshalVPEnhanced
      split
      · exact .fail
      refine Post.bind ?_; intro efi
      simp only
      refine Post.bind' (Q := fun r => VpKept { Format := VpfEnhanced, EFI := efi, Duration := r.1 } →
        VpOk { Format := VpfEnhanced, EFI := efi, Duration := r.1 }) ?_ ?_
      · split
        · exact .ok fun _ => .enhancedNone efi ‹_›
        split
        · refine Post.bind ?_; intro c
          exact .ok fun hk => .enhancedRelative efi c ‹_› (rel_ne c ((hk.2.2 rfl).1 ‹_›))
        split
        · refine Post.bind ?_; intro c
          exact .ok fun hk => .enhancedSeconds efi c.toNat ‹_› (by have := c.toNat_lt; omega)
        split
        · refine Post.bind ?_; intro c1
          refine Post.bind' (Post.wrapD (bcd_inv c1)) ?_
          rintro _ ⟨h, rfl, hh⟩
          refine Post.bind ?_; intro c2
          refine Post.bind' (Post.wrapD (bcd_inv c2)) ?_
          rintro _ ⟨m, rfl, hm⟩
          refine Post.bind ?_; intro c3
          refine Post.bind' (Post.wrapD (bcd_inv c3)) ?_
          rintro _ ⟨s, rfl, hs⟩
          refine .ok fun hk => ?_
          have h100 := (hk.2.2 rfl).2 ‹_›
          have e : (h : Int) * hour + m * minute + s * second = second * ((3600 * h + 60 * m + s : Nat) : Int) := by
            have hsec : second = 1000000000 := rfl
            simp only [hour, minute, hsec]; omega
          simp only [e] at h100 ⊢
          refine .enhancedHHMMSS efi _ ‹_› ?_
          have hsec : second = 1000000000 := rfl
          simp only [hour, minute, hsec] at h100
          omega
        · exact .fail
      · rintro ⟨d, used⟩ hd
        refine Post.bind ?_; intro _
        exact .ok hd
    · rintro ⟨v, used⟩ hv
      exact .ok ⟨rfl, hv⟩
  split
  · rename_i h; subst h
    split
    · exact .fail
    · refine Post.bind ?_; intro c
      exact .ok ⟨rfl, fun hk => .relative c (rel_ne c (hk.1 rfl))⟩
  split
  · rename_i h; subst h
    exact .ok ⟨rfl, fun _ => .absent⟩
  · exact .fail

theorem decode7Bit_inv (sml udhl : Nat) (src : Bytes) : Post (decode7Bit sml udhl src)
    (fun r => Septets r ∧ (udhl = 0 → r.length ≤ sml)) := by
  unfold decode7Bit
  simp only
  have hs : ∀ fill, fill ≤ 7 → Septets (Gsm7.Unpack7Bit src fill) := fun fill h => (unpack7Bit_bits src fill h).1
  have hf : (if udhl > 0 then (if udhl % 7 ≠ 0 then 7 - udhl % 7 else 0) else 0) ≤ 7 := by
    split
    · split <;> omega
    · omega
  have hs := hs _ hf
  generalize Gsm7.Unpack7Bit src _ = sm at hs ⊢
  have hn : udhl = 0 → (if udhl > 0 then (sml : Int) - ((udhl * 8 + (if udhl > 0 then (if udhl % 7 ≠ 0 then 7 - udhl % 7 else 0) else 0)) / 7 : Nat)
      else (sml : Int)) = sml := by rintro rfl; rfl
  generalize (if udhl > 0 then _ else (sml : Int)) = n at hn ⊢
  split
  · exact .fail
  split
  · split
    · exact .fail
    · refine Post.bind ?_; intro b
      split
      · exact .fail
      · intro r hr
        unfold slice at hr
        split at hr
        · cases hr
          refine ⟨fun x hx => hs x (List.mem_of_mem_take (List.mem_of_mem_drop hx)), fun h0 => ?_⟩
          have := hn h0
          simp only [List.length_drop, List.length_take]; omega
        · cases hr
  · exact .ok ⟨hs, fun h0 => by have := hn h0; omega⟩

/-- Only the header and the user data are set. -/
def OnlyUd (t t' : TPDU) : Prop := t' = { t with UDH := t'.UDH, UD := t'.UD }

theorem ud_inv (t : TPDU) (src : Bytes) (h1 : t.UDH = []) (h2 : t.UD = []) : Post (t.decodeUserData src)
    (fun t' => OnlyUd t t' ∧ (UdKept t' → UdOk t')) := by
  -- the cases differ only in what is known of the user data
  have mk : ∀ udh ud, (t.UDHI = false → udh = [] ∧ ud.length ≤ 255) → (t.Alphabet.1 = .a7Bit → Septets ud) →
      (t.Alphabet.1 = .ucs2 → ud.length % 2 = 0) →
      OnlyUd t { t with UDH := udh, UD := ud } ∧ (UdKept { t with UDH := udh, UD := ud } → UdOk { t with UDH := udh, UD := ud }) := by
    intro udh ud hb hs he
    refine ⟨rfl, ?_⟩
    rintro ⟨a, b⟩
    refine ⟨a, ⟨fun h => ?_, fun h => (b h).1⟩, hs, he, ?_⟩
    · cases hu : t.UDHI
      · exact absurd (hb hu).1 h
      · exact hu
    · cases hu : t.UDHI
      · obtain ⟨rfl, hl⟩ := hb hu
        unfold udLen
        split <;> simp [hdrLen] <;> exact hl
      · exact (b hu).2
  have base : t = { t with UDH := [], UD := [] } := by rw [← h1, ← h2]
  unfold TPDU.decodeUserData
  split
  · exact .fail
  refine Post.bind ?_; intro udl
  simp only
  split
  · refine .ok ?_
    have := mk [] [] (fun _ => ⟨rfl, by simp⟩) (fun _ => by simp [Septets]) (fun _ => rfl)
    rwa [← base] at this
  split
  · exact .fail
  rename_i alphabet hal
  have hlt := udl.toNat_lt
  have h7 : (if alphabet = .a7Bit then udl.toNat else 0) ≤ 255 := by split <;> omega
  have hn : alphabet ≠ .a7Bit → (if alphabet = .a7Bit then ((if alphabet = .a7Bit then udl.toNat else 0) * 7 + 7) / 8 else udl.toNat) ≤ 255 := by
    intro h; rw [if_neg h]; omega
  generalize (if alphabet = .a7Bit then udl.toNat else 0) = sml7 at h7 hn ⊢
  generalize (if alphabet = .a7Bit then _ else udl.toNat) = n at hn ⊢
  split
  · exact .fail
  split
  · exact .fail
  rename_i hl1 hl2
  refine Post.bind' (Q := fun r => t.UDHI = false → r = ([], 0)) ?_ ?_
  · split
    · rename_i hu; intro _ _ hf; rw [hu] at hf; cases hf
    · exact .ok fun _ => rfl
  rintro ⟨udh, udhl⟩ hudh
  simp only at hudh ⊢
  split
  · refine .ok ?_
    have := mk udh [] (fun h => ⟨congrArg Prod.fst (hudh h), by simp⟩) (fun _ => by simp [Septets]) (fun _ => rfl)
    rwa [← h2] at this
  refine Post.bind' (fun s hs => (slice_eq_ok hs).2.2) ?_
  intro s hsl
  split
  · rename_i h7
    refine Post.bind' (Post.wrapD (decode7Bit_inv _ _ _)) ?_
    intro sm hsm
    refine .ok (mk _ _ (fun h => ⟨congrArg Prod.fst (hudh h), ?_⟩) (fun _ => hsm.1) (fun h => ?_))
    · have := hsm.2 (congrArg Prod.snd (hudh h)); omega
    · rw [hal, h7] at h; cases h
  rename_i h7
  split
  · exact .fail
  rename_i ho
  refine .ok (mk _ _ (fun h => ⟨congrArg Prod.fst (hudh h), ?_⟩) (fun h => ?_) (fun h => ?_))
  · have := hn h7
    rw [hsl]; simp only [List.length_drop, List.length_take]; omega
  · rw [hal] at h; exact absurd h h7
  · rw [hal] at h
    simp only at h
    simp only [h, true_and] at ho
    omega

theorem OnlyUd.elim {t t' : TPDU} (h : OnlyUd t t') : ∃ h d, t' = { t with UDH := h, UD := d } := ⟨_, _, h⟩

theorem deliver_inv (d : Int) (fo : UInt8) (src : Bytes) :
    Post (TPDU.unmarshalDeliver { Direction := d, FirstOctet := fo } src) (fun r =>
      r = { Direction := d, FirstOctet := fo, OA := r.OA, PID := r.PID, DCS := r.DCS, SCTS := r.SCTS,
            UDH := r.UDH, UD := r.UD } ∧
      AddrOk r.OA ∧ (YearOk r.SCTS → TimeOk r.SCTS) ∧ (UdKept r → UdOk r)) := by
  unfold TPDU.unmarshalDeliver
  refine Post.bind' (Post.wrapD (addr_inv _)) ?_; rintro ⟨oa, n⟩ hoa
  refine Post.bind ?_; intro _
  refine Post.bind ?_; intro _
  refine Post.bind ?_; intro _
  refine Post.bind' (Post.wrapD (time_inv _)) ?_; intro ts hts
  refine Post.wrapD fun r hr => ?_
  obtain ⟨h1, h2⟩ := ud_inv _ _ (by rfl) (by rfl) r hr
  obtain ⟨h, d, rfl⟩ := h1.elim
  exact ⟨rfl, hoa, fun hy => hts hy.1 hy.2, h2⟩

theorem submit_inv (d : Int) (fo : UInt8) (src : Bytes) :
    Post (TPDU.unmarshalSubmit { Direction := d, FirstOctet := fo } src) (fun r =>
      r = { Direction := d, FirstOctet := fo, MR := r.MR, DA := r.DA, PID := r.PID, DCS := r.DCS, VP := r.VP,
            UDH := r.UDH, UD := r.UD } ∧
      AddrOk r.DA ∧ r.VP.Format = FirstOctet.VPF fo ∧ (VpKept r.VP → VpOk r.VP) ∧ (UdKept r → UdOk r)) := by
  unfold TPDU.unmarshalSubmit
  refine Post.bind ?_; intro _
  refine Post.bind ?_; intro _
  refine Post.bind' (Post.wrapD (addr_inv _)) ?_; rintro ⟨da, n⟩ hda
  refine Post.bind ?_; intro _
  refine Post.bind ?_; intro _
  refine Post.bind ?_; intro _
  refine Post.bind' (Post.wrapD (vp_inv _ _)) ?_; rintro ⟨vp, n⟩ hvp
  refine Post.bind ?_; intro _
  refine Post.wrapD fun r hr => ?_
  obtain ⟨h1, h2⟩ := ud_inv _ _ (by rfl) (by rfl) r hr
  obtain ⟨h, d, rfl⟩ := h1.elim
  exact ⟨rfl, hda, hvp.1, hvp.2, h2⟩

theorem command_inv (d : Int) (fo : UInt8) (src : Bytes) :
    Post (TPDU.unmarshalCommand { Direction := d, FirstOctet := fo } src) (fun r =>
      r = { Direction := d, FirstOctet := fo, MR := r.MR, PID := r.PID, CT := r.CT, MN := r.MN, DA := r.DA,
            DCS := DCS.Dcs8BitData, UDH := r.UDH, UD := r.UD } ∧
      AddrOk r.DA ∧ (UdKept r → UdOk r)) := by
  unfold TPDU.unmarshalCommand
  refine Post.bind ?_; intro _
  refine Post.bind ?_; intro _
  refine Post.bind ?_; intro _
  refine Post.bind ?_; intro _
  refine Post.bind' (Post.wrapD (addr_inv _)) ?_; rintro ⟨da, n⟩ hda
  refine Post.wrapD fun r hr => ?_
  obtain ⟨h1, h2⟩ := ud_inv _ _ (by rfl) (by rfl) r hr
  obtain ⟨h, d, rfl⟩ := h1.elim
  exact ⟨rfl, hda, h2⟩

/-- Only the optional fields that are announced are set. -/
def OnlyOpt (t t' : TPDU) : Prop :=
  t' = { t with PID := if PI.PID t.PI then t'.PID else 0, DCS := if PI.DCS t.PI then t'.DCS else 0,
                UDH := if PI.UDL t.PI then t'.UDH else [], UD := if PI.UDL t.PI then t'.UD else [] }

theorem opt_inv (t : TPDU) (src : Bytes) (ri : Nat) (h1 : t.UDH = []) (h2 : t.UD = []) (h3 : t.PID = 0) (h4 : t.DCS = 0) :
    Post (t.unmarshalOptionals src ri) (fun r => OnlyOpt t r ∧ ((PI.UDL r.PI = true → UdKept r) → OptOk r)) := by
  unfold TPDU.unmarshalOptionals
  refine Post.bind' (Q := fun x => ∃ p, x.1 = { t with PID := p } ∧ (PI.PID t.PI = false → p = 0)) ?_ ?_
  · split
    · refine Post.bind ?_; intro p; exact .ok ⟨p, rfl, fun h => by simp_all⟩
    · exact .ok ⟨0, by simp only [← h3], fun _ => rfl⟩
  rintro ⟨_, r1⟩ ⟨p, rfl, hp⟩
  refine Post.bind' (Q := fun x => ∃ c, x.1 = { t with PID := p, DCS := c } ∧ (PI.DCS t.PI = false → c = 0)) ?_ ?_
  · split
    · refine Post.bind ?_; intro c; exact .ok ⟨c, rfl, fun h => by simp_all⟩
    · exact .ok ⟨0, by simp only [← h4], fun _ => rfl⟩
  rintro ⟨_, r2⟩ ⟨c, rfl, hc⟩
  have e1 : p = if PI.PID t.PI then p else 0 := by split <;> simp_all
  have e2 : c = if PI.DCS t.PI then c else 0 := by split <;> simp_all
  simp only
  split
  · rename_i hu
    refine Post.bind ?_; intro _
    refine Post.wrapD fun r hr => ?_
    obtain ⟨g1, g2⟩ := ud_inv _ _ (by exact h1) (by exact h2) r hr
    obtain ⟨h, d, rfl⟩ := g1.elim
    refine ⟨?_, fun hk => ⟨fun hx => g2 (hk hx), fun _ => hc⟩⟩
    simp only [OnlyOpt, hu, if_true, ← e1, ← e2]
  · rename_i hu
    refine .ok ⟨?_, fun _ => ⟨fun hx => absurd hx hu, fun hx => absurd hx hu⟩⟩
    simp only [OnlyOpt, if_neg hu, ← e1, ← e2]
    simp only [← h1, ← h2]

theorem OnlyOpt.elim {t t' : TPDU} (h : OnlyOpt t t') : ∃ p c h d, t' = { t with
    PID := if PI.PID t.PI then p else 0, DCS := if PI.DCS t.PI then c else 0,
    UDH := if PI.UDL t.PI then h else [], UD := if PI.UDL t.PI then d else [] } := ⟨_, _, _, _, h⟩

theorem ite_ite {α : Type} (c : Bool) (a b : α) : (if c then (if c then a else b) else b) = if c then a else b := by
  cases c <;> rfl

theorem deliverReport_inv (d : Int) (fo : UInt8) (src : Bytes) :
    Post (TPDU.unmarshalDeliverReport { Direction := d, FirstOctet := fo } src) (fun r =>
      r = { Direction := d, FirstOctet := fo, FCS := r.FCS, PI := r.PI,
            PID := if PI.PID r.PI then r.PID else 0, DCS := if PI.DCS r.PI then r.DCS else 0,
            UDH := if PI.UDL r.PI then r.UDH else [], UD := if PI.UDL r.PI then r.UD else [] } ∧
      ((PI.UDL r.PI = true → UdKept r) → OptOk r)) := by
  unfold TPDU.unmarshalDeliverReport
  refine Post.bind ?_; intro _
  refine Post.bind ?_; intro _
  intro r hr
  obtain ⟨h1, h2⟩ := opt_inv _ _ _ (by rfl) (by rfl) (by rfl) (by rfl) r hr
  obtain ⟨p, c, h, d, rfl⟩ := h1.elim
  exact ⟨by simp only [ite_ite], h2⟩

theorem submitReport_inv (d : Int) (fo : UInt8) (src : Bytes) :
    Post (TPDU.unmarshalSubmitReport { Direction := d, FirstOctet := fo } src) (fun r =>
      r = { Direction := d, FirstOctet := fo, FCS := r.FCS, SCTS := r.SCTS, PI := r.PI,
            PID := if PI.PID r.PI then r.PID else 0, DCS := if PI.DCS r.PI then r.DCS else 0,
            UDH := if PI.UDL r.PI then r.UDH else [], UD := if PI.UDL r.PI then r.UD else [] } ∧
      (YearOk r.SCTS → TimeOk r.SCTS) ∧ ((PI.UDL r.PI = true → UdKept r) → OptOk r)) := by
  unfold TPDU.unmarshalSubmitReport
  refine Post.bind ?_; intro _
  refine Post.bind ?_; intro _
  simp only
  split
  · exact .fail
  refine Post.bind ?_; intro _
  refine Post.bind' (Post.wrapD (time_inv _)) ?_; intro ts hts
  intro r hr
  obtain ⟨h1, h2⟩ := opt_inv _ _ _ (by rfl) (by rfl) (by rfl) (by rfl) r hr
  obtain ⟨p, c, h, d, rfl⟩ := h1.elim
  exact ⟨by simp only [ite_ite], fun hy => hts hy.1 hy.2, h2⟩

theorem statusReport_inv (d : Int) (fo : UInt8) (src : Bytes) :
    Post (TPDU.unmarshalStatusReport { Direction := d, FirstOctet := fo } src) (fun r =>
      r = { Direction := d, FirstOctet := fo, MR := r.MR, RA := r.RA, SCTS := r.SCTS, DT := r.DT, ST := r.ST, PI := r.PI,
            PID := if PI.PID r.PI then r.PID else 0, DCS := if PI.DCS r.PI then r.DCS else 0,
            UDH := if PI.UDL r.PI then r.UDH else [], UD := if PI.UDL r.PI then r.UD else [] } ∧
      AddrOk r.RA ∧ (YearOk r.SCTS → TimeOk r.SCTS) ∧ (YearOk r.DT → TimeOk r.DT) ∧
      ((PI.UDL r.PI = true → UdKept r) → OptOk r)) := by
  unfold TPDU.unmarshalStatusReport
  refine Post.bind ?_; intro _
  refine Post.bind ?_; intro _
  refine Post.bind' (Post.wrapD (addr_inv _)) ?_; rintro ⟨ra, n⟩ hra
  simp only
  split
  · exact .fail
  refine Post.bind ?_; intro _
  refine Post.bind' (Post.wrapD (time_inv _)) ?_; intro ts hts
  split
  · exact .fail
  refine Post.bind ?_; intro _
  refine Post.bind' (Post.wrapD (time_inv _)) ?_; intro dt hdt
  refine Post.bind ?_; intro _
  split
  · refine Post.bind ?_; intro _
    intro r hr
    obtain ⟨h1, h2⟩ := opt_inv _ _ _ (by rfl) (by rfl) (by rfl) (by rfl) r hr
    obtain ⟨p, c, h, d, rfl⟩ := h1.elim
    exact ⟨by simp only [ite_ite], hra, fun hy => hts hy.1 hy.2, fun hy => hdt hy.1 hy.2, h2⟩
  · have hn : PI.UDL 0 ≠ true := by decide
    exact .ok ⟨by simp only [ite_self], hra, fun hy => hts hy.1 hy.2, fun hy => hdt hy.1 hy.2,
      fun _ => ⟨fun h => absurd h hn, fun h => absurd h hn⟩⟩

theorem type_mti (t : TPDU) (hd : t.Direction = MO ∨ t.Direction = MT) :
    (t.SmsType = SmsDeliver → t.Direction = MT ∧ FirstOctet.MTI t.FirstOctet = 0) ∧
    (t.SmsType = SmsDeliverReport → t.Direction = MO ∧ FirstOctet.MTI t.FirstOctet = 0) ∧
    (t.SmsType = SmsSubmitReport → t.Direction = MT ∧ FirstOctet.MTI t.FirstOctet = 1) ∧
    (t.SmsType = SmsSubmit → t.Direction = MO ∧ FirstOctet.MTI t.FirstOctet = 1) ∧
    (t.SmsType = SmsStatusReport → t.Direction = MT ∧ FirstOctet.MTI t.FirstOctet = 2) ∧
    (t.SmsType = SmsCommand → t.Direction = MO ∧ FirstOctet.MTI t.FirstOctet = 2) := by
  unfold TPDU.SmsType
  generalize t.FirstOctet = f
  rcases hd with hd | hd <;> rw [hd]
  · revert f; apply forall_u8; decide +kernel
  · revert f; apply forall_u8; decide +kernel

/-- What is read with nothing lost is written, and read back as it was. -/
theorem remarshal (d : Int) (hd : d = MO ∨ d = MT) (src : Bytes) (t : TPDU)
    (h : ({ Direction := d } : TPDU).UnmarshalBinary src = .ok t) (hk : Kept t) :
    ∃ p, t.MarshalBinary = .ok p ∧ ({ Direction := d } : TPDU).UnmarshalBinary p = .ok t := by
  have hkind := unmarshal_kind _ _ _ h
  cases src with
  | nil => cases h
  | cons fo body =>
    have hfo : fo = t.FirstOctet := by simpa using hkind.1
    have hdir : t.Direction = d := hkind.2.1
    have hst : ({ Direction := d, FirstOctet := fo } : TPDU).SmsType = t.SmsType := by
      unfold TPDU.SmsType; rw [hfo, hdir]
    obtain ⟨m1, m2, m3, m4, m5, m6⟩ := type_mti t (by rw [hdir]; exact hd)
    obtain ⟨k1, k2, k3, k4, k5, k6⟩ := hk
    unfold TPDU.UnmarshalBinary at h
    rw [if_neg (by simp)] at h
    simp only [idx_zero_cons, ok_bind, hst] at h
    obtain ⟨b, _, h⟩ := bind_eq_ok.1 h
    split at h
    · rename_i hs
      obtain ⟨e, i1, i2, i3⟩ := deliver_inv _ _ _ _ (wrapD_eq_ok.1 h)
      obtain ⟨a1, a2⟩ := m1 hs
      obtain ⟨p, hp, hp'⟩ := deliver_rt t a1 a2 i1 (i2 (k1 hs).1) (i3 (k1 hs).2)
      rw [hdir] at a1; subst a1
      exact ⟨p, hp, hp'.trans (by rw [← hfo, ← e])⟩
    split at h
    · rename_i hs
      obtain ⟨e, i1⟩ := deliverReport_inv _ _ _ _ (wrapD_eq_ok.1 h)
      obtain ⟨a1, a2⟩ := m2 hs
      obtain ⟨p, hp, hp'⟩ := deliverReport_rt t a1 a2 (k2 hs).1 (i1 (k2 hs).2)
      rw [hdir] at a1; subst a1
      exact ⟨p, hp, hp'.trans (by rw [← hfo, ← e])⟩
    split at h
    · rename_i hs
      obtain ⟨e, i1, i2⟩ := submitReport_inv _ _ _ _ (wrapD_eq_ok.1 h)
      obtain ⟨a1, a2⟩ := m3 hs
      obtain ⟨p, hp, hp'⟩ := submitReport_rt t a1 a2 (k3 hs).1 (i1 (k3 hs).2.1) (i2 (k3 hs).2.2)
      rw [hdir] at a1; subst a1
      exact ⟨p, hp, hp'.trans (by rw [← hfo, ← e])⟩
    split at h
    · rename_i hs
      obtain ⟨e, i1, i2, i3, i4⟩ := submit_inv _ _ _ _ (wrapD_eq_ok.1 h)
      obtain ⟨a1, a2⟩ := m4 hs
      obtain ⟨p, hp, hp'⟩ := submit_rt t a1 a2 i1 (i3 (k4 hs).1) (by rw [i2, hfo]) (i4 (k4 hs).2)
      rw [hdir] at a1; subst a1
      exact ⟨p, hp, hp'.trans (by rw [← hfo, ← e])⟩
    split at h
    · rename_i hs
      obtain ⟨e, i1, i2, i3, i4⟩ := statusReport_inv _ _ _ _ (wrapD_eq_ok.1 h)
      obtain ⟨a1, a2⟩ := m5 hs
      obtain ⟨p, hp, hp'⟩ := status_rt t a1 a2 i1 (i2 (k5 hs).1) (i3 (k5 hs).2.1) (i4 (k5 hs).2.2)
      rw [hdir] at a1; subst a1
      exact ⟨p, hp, hp'.trans (by rw [← hfo, ← e])⟩
    split at h
    · rename_i hs
      obtain ⟨e, i1, i2⟩ := command_inv _ _ _ _ (wrapD_eq_ok.1 h)
      obtain ⟨a1, a2⟩ := m6 hs
      have hal : t.Alphabet = (.a8Bit, none) := by
        have : t.DCS = DCS.Dcs8BitData := congrArg TPDU.DCS e
        unfold TPDU.Alphabet; rw [this]; decide
      have hu := k6 hs
      have hud := i2 ⟨by rw [hal], fun hx => ⟨.inr (hu hx).2, by
        unfold udLen; rw [hal, (hu hx).1, (hu hx).2]; decide⟩⟩
      have h0 : t.UDH = [] := Classical.byContradiction fun hx => hx (hu (hud.udhi.1 hx)).1
      have h1 : t.UDHI = false ∨ t.UD = [] := by
        cases h : t.UDHI
        · exact .inl rfl
        · exact .inr (hu h).2
      have hl := hud.fits
      unfold udLen at hl
      rw [hal, if_neg (by decide), h0] at hl
      obtain ⟨p, hp, hp'⟩ := command_rt t a1 a2 i1 h1 (by simp [hdrLen] at hl; exact hl)
      rw [hdir] at a1; subst a1
      rw [h0] at e
      exact ⟨p, hp, hp'.trans (by rw [← hfo, ← e])⟩
    · cases h

end Verif.Proofs
