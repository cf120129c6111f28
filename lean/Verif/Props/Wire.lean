import Verif.Props.SmsEncode
import Verif.Props.Tpdu
import Verif.Props.Address
import Verif.Props.Gsm7
import Verif.Spec.Collect

/-! C39: messages that are marshalled, unmarshalled, and decoded. -/

namespace Verif.Props

open Verif.Model Verif.Spec Verif.Proofs

/-- A template for submissions or deliveries whose fields, other than the user data, are representable. -/
inductive Sendable (t : TPDU) : Prop
  | submit : t.Direction = MO → FirstOctet.MTI t.FirstOctet = 1 → AddrOk t.DA → VpOk t.VP →
      FirstOctet.VPF t.FirstOctet = t.VP.Format → Sendable t
  | deliver : t.Direction = MT → FirstOctet.MTI t.FirstOctet = 0 → AddrOk t.OA → TimeOk t.SCTS → Sendable t

/-- `Sent ps qs`: each of the TPDUs `ps` can be marshalled, and unmarshalling the octets with the direction of
the TPDU gives the corresponding one of `qs`. -/
def Sent (ps qs : List TPDU) : Prop :=
  ∃ wire : List (List UInt8), ps.map TPDU.MarshalBinary = wire.map .ok ∧
    (ps.zip wire).map (fun pw => Sms.Unmarshal pw.2 pw.1.Direction) = qs.map .ok

/-! Helpers. -/

/-- What a receiver uses of a TPDU. -/
def SameContent (p q : TPDU) : Prop :=
  (q.UDH = p.UDH ∧ q.UD = p.UD ∧ q.DCS = p.DCS) ∧ q.SmsType = p.SmsType ∧ peer q = peer p

theorem sendable_rt (t : TPDU) (h : Sendable t) (hu : UdOk t) :
    ∃ b q, t.MarshalBinary = .ok b ∧ Sms.Unmarshal b t.Direction = .ok q ∧ SameContent t q := by
  cases h with
  | submit h1 h2 h3 h4 h5 =>
    obtain ⟨b, hb, hq⟩ := submit_rt t h1 h2 h3 h4 h5 hu
    have hty : (
        { Direction := MO, FirstOctet := t.FirstOctet, MR := t.MR, DA := t.DA, PID := t.PID, DCS := t.DCS,
          VP := t.VP, UDH := t.UDH, UD := t.UD } : TPDU).SmsType = t.SmsType := by
      unfold TPDU.SmsType; rw [h1]
    have hsub : t.SmsType = SmsSubmit := by unfold TPDU.SmsType; rw [h1, h2]; decide
    have hpeer : peer
        { Direction := MO, FirstOctet := t.FirstOctet, MR := t.MR, DA := t.DA, PID := t.PID, DCS := t.DCS,
          VP := t.VP, UDH := t.UDH, UD := t.UD } = peer t := by
      unfold peer; rw [hty, if_pos hsub, if_pos hsub]
    rw [h1]
    exact ⟨b, _, hb, hq, ⟨rfl, rfl, rfl⟩, hty, hpeer⟩
  | deliver h1 h2 h3 h4 =>
    obtain ⟨b, hb, hq⟩ := deliver_rt t h1 h2 h3 h4 hu
    have hty : (
        { Direction := MT, FirstOctet := t.FirstOctet, OA := t.OA, PID := t.PID, DCS := t.DCS,
          SCTS := t.SCTS, UDH := t.UDH, UD := t.UD } : TPDU).SmsType = t.SmsType := by
      unfold TPDU.SmsType; rw [h1]
    have hsub : t.SmsType ≠ SmsSubmit := by unfold TPDU.SmsType; rw [h1, h2]; decide
    have hpeer : peer
        { Direction := MT, FirstOctet := t.FirstOctet, OA := t.OA, PID := t.PID, DCS := t.DCS,
          SCTS := t.SCTS, UDH := t.UDH, UD := t.UD } = peer t := by
      unfold peer; rw [hty, if_neg hsub, if_neg hsub]
    rw [h1]
    exact ⟨b, _, hb, hq, ⟨rfl, rfl, rfl⟩, hty, hpeer⟩

theorem sendable_all (ps : List TPDU) (h : ∀ p ∈ ps, Sendable p ∧ UdOk p) :
    ∃ qs, Sent ps qs ∧ qs.length = ps.length ∧ ∀ pq ∈ ps.zip qs, SameContent pq.1 pq.2 := by
  induction ps with
  | nil => exact ⟨[], ⟨[], rfl, rfl⟩, rfl, by simp⟩
  | cons p ps ih =>
    obtain ⟨qs, ⟨w, h1, h2⟩, h3, h4⟩ := ih (fun q hq => h q (by simp [hq]))
    obtain ⟨hs, hu⟩ := h p (by simp)
    obtain ⟨b, q, hb, hq, hsame⟩ := sendable_rt p hs hu
    refine ⟨q :: qs, ⟨b :: w, ?_, ?_⟩, by simp [h3], ?_⟩
    · simp only [List.map_cons, h1, hb]
    · simp only [List.zip_cons_cons, List.map_cons, h2, hq]
    · intro pq hpq
      simp only [List.zip_cons_cons, List.mem_cons] at hpq
      rcases hpq with rfl | hpq
      · exact hsame
      · exact h4 pq hpq

theorem decodeLoop_same (opts : List CharsetOpt) (ps : List TPDU) : ∀ qs, qs.length = ps.length →
    (∀ pq ∈ ps.zip qs, SameContent pq.1 pq.2) → ∀ d, Model.Sms.decodeLoop opts qs d = Model.Sms.decodeLoop opts ps d := by
  induction ps with
  | nil => intro qs hl _ d; simp at hl; subst hl; rfl
  | cons p ps ih =>
    intro qs hl h d
    cases qs with
    | nil => simp at hl
    | cons q qs =>
      obtain ⟨⟨h1, h2, h3⟩, _⟩ := h (p, q) (by simp)
      have ih' := ih qs (by simpa using hl) (fun pq hpq => h pq (by simp [hpq]))
      simp only at h1 h2 h3
      have ha : q.Alphabet = p.Alphabet := by show DCS.Alphabet q.DCS = DCS.Alphabet p.DCS; rw [h3]
      rw [Model.Sms.decodeLoop, Model.Sms.decodeLoop]
      simp only [h1, h2, ha, ih']

theorem completeLoop_same (n r : Nat) (ps : List TPDU) : ∀ qs, qs.length = ps.length →
    (∀ pq ∈ ps.zip qs, SameContent pq.1 pq.2) → ∀ i, Model.Sms.completeLoop n r qs i = Model.Sms.completeLoop n r ps i := by
  induction ps with
  | nil => intro qs hl _ i; simp at hl; subst hl; rfl
  | cons p ps ih =>
    intro qs hl h i
    cases qs with
    | nil => simp at hl
    | cons q qs =>
      obtain ⟨⟨h1, h2, h3⟩, _⟩ := h (p, q) (by simp)
      have ih' := ih qs (by simpa using hl) (fun pq hpq => h pq (by simp [hpq]))
      have hc : q.ConcatInfo = p.ConcatInfo := by show UDH.ConcatInfo q.UDH = UDH.ConcatInfo p.UDH; rw [h1]
      rw [Model.Sms.completeLoop, Model.Sms.completeLoop, hc]
      simp only [ih']

theorem complete_same (ps qs : List TPDU) (hl : qs.length = ps.length)
    (h : ∀ pq ∈ ps.zip qs, SameContent pq.1 pq.2) : Model.Sms.IsCompleteMessage qs = Model.Sms.IsCompleteMessage ps := by
  cases ps with
  | nil => simp at hl; subst hl; rfl
  | cons p ps =>
    cases qs with
    | nil => simp at hl
    | cons q qs =>
      obtain ⟨⟨h1, h2, h3⟩, _⟩ := h (p, q) (by simp)
      have hc : q.ConcatInfo = p.ConcatInfo := by show UDH.ConcatInfo q.UDH = UDH.ConcatInfo p.UDH; rw [h1]
      unfold Model.Sms.IsCompleteMessage
      simp only [hc, hl, completeLoop_same _ _ (p :: ps) (q :: qs) hl h]

theorem vpf_udhi (o : UInt8) : FirstOctet.VPF (o ||| 0x40) = FirstOctet.VPF o := by
  revert o; apply forall_u8; decide +kernel

theorem udhi_set (o : UInt8) : FirstOctet.UDHI (o ||| 0x40) = true := by
  revert o; apply forall_u8; decide +kernel

/-- The fields of a template that the segmentation does not touch. -/
theorem sendable_of (t : TPDU) (h : Sendable t) (fo pi mr dcs : UInt8) (udh : UDH) (ud : Bytes)
    (hfo : fo = t.FirstOctet ∨ fo = t.FirstOctet ||| 0x40) :
    Sendable { t with FirstOctet := fo, PI := pi, MR := mr, DCS := dcs, UDH := udh, UD := ud } := by
  have hm : FirstOctet.MTI fo = FirstOctet.MTI t.FirstOctet := by
    rcases hfo with rfl | rfl
    · rfl
    · exact mti_udhi _
  have hv : FirstOctet.VPF fo = FirstOctet.VPF t.FirstOctet := by
    rcases hfo with rfl | rfl
    · rfl
    · exact vpf_udhi _
  cases h with
  | submit h1 h2 h3 h4 h5 => exact .submit h1 (hm.trans h2) h3 h4 (hv.trans h5)
  | deliver h1 h2 h3 h4 => exact .deliver h1 (hm.trans h2) h3 h4

theorem sendable_type (t : TPDU) (h : Sendable t) : t.SmsType = SmsSubmit ∨ t.SmsType = SmsDeliver := by
  cases h with
  | submit h1 h2 _ _ _ => left; unfold TPDU.SmsType; rw [h1, h2]; decide
  | deliver h1 h2 _ _ => right; unfold TPDU.SmsType; rw [h1, h2]; decide

/-- User data that fits its block fits the length octet. -/
theorem fits_octet (p : TPDU) (hst : p.SmsType = SmsSubmit ∨ p.SmsType = SmsDeliver)
    (h : (p.UD.length : Int) ≤ p.UDBlockSize) : udLen p ≤ 255 := by
  have hb : baseSize p = 140 := by unfold baseSize; rw [if_pos hst]
  rw [blockSize_eq, hb] at h
  unfold udLen
  have hr := alphabet_ne_reserved p
  unfold unitsLeft at h
  cases ha : p.Alphabet.1 <;> rw [ha] at h <;> simp at h ⊢ <;> omega

/-- All segments of a message can be marshalled, and come back with the same content. -/
theorem segments_sent (t : TPDU) (d : Bytes) (cfg : SegCfg) (hw : cfg.wide = false) (hroom : Room t cfg) (hs : Sendable t)
    (ha : t.Alphabet.2 = none) (hudhi : t.UDHI = true ↔ t.UDH ≠ [])
    (h7 : t.Alphabet.1 = .a7Bit → Septets d) (h2 : t.Alphabet.1 = .ucs2 → d.length % 2 = 0)
    (res : SegResult) (hr : t.Segment d cfg = .ok res) :
    ∃ qs, Sent res.pdus qs ∧ qs.length = res.pdus.length ∧ ∀ pq ∈ res.pdus.zip qs, SameContent pq.1 pq.2 := by
  apply sendable_all
  obtain ⟨res', hr', hcont, hforms⟩ := segment_forms t d cfg hw hroom
  rw [hr] at hr'; cases hr'
  intro p hp
  have hev : t.Alphabet.1 = .ucs2 → p.UD.length % 2 = 0 := fun h =>
    ucs2_segments_even t d cfg hroom h (h2 h) res hr p hp
  have hsub : ∀ b ∈ p.UD, b ∈ d := by
    intro b hb
    rw [← hcont]
    unfold content
    exact List.mem_flatten.mpr ⟨p.UD, List.mem_map_of_mem hp, hb⟩
  obtain ⟨⟨fo, pi, mr, udh, ud, rfl, hcase⟩, hfit⟩ := hforms p hp
  have hsend : Sendable { t with FirstOctet := fo, PI := pi, MR := mr, UDH := udh, UD := ud } :=
    sendable_of t hs fo pi mr t.DCS udh ud (by
      rcases hcase with ⟨h, _⟩ | ⟨h, _⟩
      · exact .inl h
      · exact .inr h)
  refine ⟨hsend, ⟨ha, ?_, ?_, hev, fits_octet _ (sendable_type _ hsend) hfit⟩⟩
  · rcases hcase with ⟨rfl, rfl⟩ | ⟨rfl, ie, _, _, rfl⟩
    · exact ⟨hudhi.2, fun h => .inl (hudhi.1 h)⟩
    · exact ⟨fun _ => udhi_set _, fun _ => .inl (by simp)⟩
  · intro h b hb
    exact h7 h b (hsub b hb)

/-- The segments of a message form a complete message. -/
theorem segments_complete (t : TPDU) (d : Bytes) (cfg : SegCfg) (hw : cfg.wide = false) (hroom : Room t cfg)
    (hci : t.ConcatInfo = none) (hne : d ≠ [])
    (res : SegResult) (hr : t.Segment d cfg = .ok res) (hn : res.pdus.length ≤ 255) :
    Model.Sms.IsCompleteMessage res.pdus = true := by
  by_cases hbig : (d.length : Int) ≤ t.UDBlockSize
  · obtain ⟨res', g1, g2⟩ := C33_single t d cfg hne hbig
    rw [hr] at g1; cases g1
    rw [g2]
    unfold Model.Sms.IsCompleteMessage
    simp only
    have : ∀ x : UInt8, ({ t with UD := d, MR := x } : TPDU).ConcatInfo = none := fun _ => hci
    rw [this]
    rfl
  · exact (C35_concat_partial t d cfg hroom (by rw [hw]; simp) hbig res hr hn).2.1

theorem header_concat (L : Lang) : UDH.ConcatInfo L.header = none := by
  obtain ⟨l, s⟩ := L
  cases l <;> cases s <;> rfl

/-- The direction in which a type of message travels. -/
def directionOf (type : UInt8) : Int := if type = SmsSubmit then MO else MT

/-- The message arrives: the octets of the TPDUs of `r` are decoded to TPDUs of the given type and address, with
the same headers, that form a complete message with the given content. -/
def Arrives (type : UInt8) (address : Address) (r : List TPDU) (dopts : List CharsetOpt) (text : List UInt8) : Prop :=
  ∃ qs, Sent r qs ∧ Sms.Decode qs dopts = .ok text ∧ (r ≠ [] → r.length ≤ 255 → Sms.IsCompleteMessage qs = true) ∧
    qs.map TPDU.UDH = r.map TPDU.UDH ∧ (∀ q ∈ qs, q.SmsType = type ∧ peer q = address) ∧
    ∀ p ∈ r, p.Direction = directionOf type

theorem same_udh (ps : List TPDU) : ∀ qs, qs.length = ps.length → (∀ pq ∈ ps.zip qs, SameContent pq.1 pq.2) →
    qs.map TPDU.UDH = ps.map TPDU.UDH := by
  induction ps with
  | nil => intro qs hl _; simp at hl; subst hl; rfl
  | cons p ps ih =>
    intro qs hl h
    cases qs with
    | nil => simp at hl
    | cons q qs =>
      rw [List.map_cons, List.map_cons, (h (p, q) (by simp)).1.1, ih qs (by simpa using hl) (fun pq hpq => h pq (by simp [hpq]))]

theorem same_route (ps : List TPDU) (ty : UInt8) (a : Address) : ∀ qs, qs.length = ps.length →
    (∀ pq ∈ ps.zip qs, SameContent pq.1 pq.2) → (∀ p ∈ ps, p.SmsType = ty ∧ peer p = a) →
    ∀ q ∈ qs, q.SmsType = ty ∧ peer q = a := by
  induction ps with
  | nil => intro qs hl _ _; simp at hl; subst hl; simp
  | cons p ps ih =>
    intro qs hl h hp
    cases qs with
    | nil => simp at hl
    | cons q qs =>
      intro x hx
      obtain ⟨_, h1, h2⟩ := h (p, q) (by simp)
      rcases List.mem_cons.1 hx with rfl | hx
      · exact ⟨h1.trans (hp p (by simp)).1, h2.trans (hp p (by simp)).2⟩
      · exact ih qs (by simpa using hl) (fun pq hpq => h pq (by simp [hpq])) (fun p' hp' => hp p' (by simp [hp'])) x hx

/-- The segments have the type and addresses of the template. -/
theorem segments_route (t : TPDU) (d : Bytes) (cfg : SegCfg) (hw : cfg.wide = false) (hroom : Room t cfg)
    (res : SegResult) (hr : t.Segment d cfg = .ok res) : ∀ p ∈ res.pdus, p.SmsType = t.SmsType ∧ peer p = peer t := by
  obtain ⟨res', hr', _, hforms⟩ := segment_forms t d cfg hw hroom
  rw [hr] at hr'; cases hr'
  intro p hp
  obtain ⟨⟨fo, pi, mr, udh, ud, rfl, hcase⟩, _⟩ := hforms p hp
  have hm : FirstOctet.MTI fo = FirstOctet.MTI t.FirstOctet := by
    rcases hcase with ⟨rfl, _⟩ | ⟨rfl, _⟩
    · rfl
    · exact mti_udhi _
  have hty : ({ t with FirstOctet := fo, PI := pi, MR := mr, UDH := udh, UD := ud } : TPDU).SmsType = t.SmsType := by
    unfold TPDU.SmsType; simp only [hm]
  refine ⟨hty, ?_⟩
  unfold peer
  rw [hty]

theorem segments_direction (t : TPDU) (d : Bytes) (cfg : SegCfg) (hw : cfg.wide = false) (hroom : Room t cfg) (hs : Sendable t)
    (res : SegResult) (hr : t.Segment d cfg = .ok res) : ∀ p ∈ res.pdus, p.Direction = directionOf t.SmsType := by
  obtain ⟨res', hr', _, hforms⟩ := segment_forms t d cfg hw hroom
  rw [hr] at hr'; cases hr'
  intro p hp
  obtain ⟨⟨fo, pi, mr, udh, ud, rfl, _⟩, _⟩ := hforms p hp
  show t.Direction = _
  cases hs with
  | submit h1 h2 _ _ _ =>
    have : t.SmsType = SmsSubmit := by unfold TPDU.SmsType; rw [h1, h2]; decide
    rw [this, h1]; rfl
  | deliver h1 h2 _ _ =>
    have : t.SmsType = SmsDeliver := by unfold TPDU.SmsType; rw [h1, h2]; decide
    rw [this, h1]; rfl

theorem arrives (t : TPDU) (d : Bytes) (cfg : SegCfg) (hw : cfg.wide = false) (hroom : Room t cfg) (hs : Sendable t)
    (ha : t.Alphabet.2 = none) (hudhi : t.UDHI = true ↔ t.UDH ≠ []) (hci : t.ConcatInfo = none)
    (h7 : t.Alphabet.1 = .a7Bit → Septets d) (h2 : t.Alphabet.1 = .ucs2 → d.length % 2 = 0)
    (res : SegResult) (hr : t.Segment d cfg = .ok res) (dopts : List CharsetOpt) (text : List UInt8)
    (hdec : Sms.Decode res.pdus dopts = .ok text) : Arrives t.SmsType (peer t) res.pdus dopts text := by
  obtain ⟨qs, hsent, hlen, hsame⟩ := segments_sent t d cfg hw hroom hs ha hudhi h7 h2 res hr
  refine ⟨qs, hsent, ?_, ?_, same_udh _ _ hlen hsame, same_route _ _ _ _ hlen hsame (segments_route t d cfg hw hroom res hr),
    segments_direction t d cfg hw hroom hs res hr⟩
  · rw [← hdec]
    exact decodeLoop_same _ _ _ hlen hsame []
  · intro hne hn
    rw [complete_same _ _ hlen hsame]
    refine segments_complete t d cfg hw hroom hci ?_ res hr hn
    rintro rfl
    cases hr
    exact hne rfl

/-- What is encoded with an automatically chosen alphabet arrives, and is decoded as before. -/
theorem auto_arrives (e : Model.Sms.Encoder) (text : List UInt8) (options : List Model.Sms.EncoderOption)
    (dopts : List CharsetOpt) (out : List UInt8)
    (hs : Sendable (callTemplate e options)) (hu : hdrLen (callTemplate e options).UDH ≤ 121)
    (hudhi : (callTemplate e options).UDHI = true ↔ (callTemplate e options).UDH ≠ [])
    (hci : (callTemplate e options).ConcatInfo = none)
    (halpha : (callTemplate e options).Alphabet.1 = .a7Bit)
    (r : Model.Sms.EncResult) (hr : e.Encode text options = .ok r) (hdec : Sms.Decode r.pdus dopts = .ok out) :
    Arrives (callTemplate e options).SmsType (peer (callTemplate e options)) r.pdus dopts out := by
  have hst : (callTemplate e options).SmsType ∈ smsTypes := by
    rcases sendable_type _ hs with h | h <;> rw [h] <;> decide
  have h2 : (options.foldl Model.Sms.Encoder.apply e).eopts = callCharsets e options := rfl
  have hc : CanCarry (group (callTemplate e options).DCS) (EncodeUserData text (callCharsets e options)).2.2 := by
    by_cases hc : CanCarry (group (callTemplate e options).DCS) (EncodeUserData text (callCharsets e options)).2.2
    · exact hc
    · have := encode_conflict e text options halpha hc
      rw [hr] at this; cases this
  obtain ⟨dcs, hdcs, henc⟩ := encode_auto e text options halpha hc
  rw [h2] at hdcs henc
  rw [hr] at henc
  obtain ⟨res, hres, henc⟩ := bind_eq_ok.mp henc.symm
  cases henc
  have hL : ∃ (L : Lang), (EncodeUserData text (callCharsets e options)).2.1 = L.header ∧
      ((EncodeUserData text (callCharsets e options)).2.2 = .a7Bit → Septets (EncodeUserData text (callCharsets e options)).1) ∧
      ((EncodeUserData text (callCharsets e options)).2.2 = .ucs2 → (EncodeUserData text (callCharsets e options)).1.length % 2 = 0) := by
    rcases auto_cases text (callCharsets e options) with ⟨L, d, hd, hg, _⟩ | ⟨hd, _⟩
    · refine ⟨L, (by rw [hd]), ?_, (by rw [hd]; intro h; cases h)⟩
      intro _
      rw [hd]
      exact (C10_output _ _ _ _ hg).1
    · refine ⟨.default, (by rw [hd]), (by rw [hd]; intro h; cases h), ?_⟩
      intro _
      rw [hd]
      show (Ucs2.Encode _).length % 2 = 0
      unfold Ucs2.Encode; rw [putBE16_length]; omega
  obtain ⟨L, hhdr, h7, h2'⟩ := hL
  rw [hhdr] at hres
  change (autoTemplate (callTemplate e options) dcs L.header).Segment _ _ = _ at hres
  have hal : (autoTemplate (callTemplate e options) dcs L.header).Alphabet =
    ((EncodeUserData text (callCharsets e options)).2.2, none) := by rw [autoTemplate_alphabet, hdcs]
  have hty : (autoTemplate (callTemplate e options) dcs L.header).SmsType = (callTemplate e options).SmsType := by
    unfold autoTemplate TPDU.SmsType
    simp only
    split
    · rw [mti_udhi]
    · rfl
  have hpeer : peer (autoTemplate (callTemplate e options) dcs L.header) = peer (callTemplate e options) := by
    unfold peer
    rw [hty]
    rfl
  rw [← hty, ← hpeer]
  refine arrives _ _ (encCfg e) rfl (autoTemplate_room _ dcs L e hst hu) ?_ (by rw [hal]) ?_ ?_
    (by rw [hal]; exact h7) (by rw [hal]; exact h2') res hres dopts out hdec
  · have := sendable_of _ hs (if L.header ≠ [] then (callTemplate e options).FirstOctet ||| FirstOctet.FoUDHI else (callTemplate e options).FirstOctet)
      (autoTemplate (callTemplate e options) dcs L.header).PI (callTemplate e options).MR dcs
      (if L.header ≠ [] then L.header else (callTemplate e options).UDH) (callTemplate e options).UD
      (by split
          · exact .inr rfl
          · exact .inl rfl)
    exact this
  · unfold autoTemplate TPDU.UDHI
    simp only
    by_cases h : L.header = []
    · simp only [h, ne_eq, not_true_eq_false, if_false]
      exact hudhi
    · simp only [ne_eq, h, not_false_iff, if_true]
      have := udhi_set (callTemplate e options).FirstOctet
      simp [FirstOctet.FoUDHI, this]
  · unfold autoTemplate TPDU.ConcatInfo
    simp only
    split
    · exact header_concat L
    · exact hci

/-- C39, partial: text in an automatically chosen alphabet survives the wire.  The template is a submission or
delivery with representable fields, without concatenation element, in a coding group that can carry the
alphabet.  Missing: as for C38, texts with U+001B sent in septets and templates that announce a national
language. -/
theorem C39_text_partial (e : Model.Sms.Encoder) (text : List UInt8) (options : List Model.Sms.EncoderOption)
    (dopts : List CharsetOpt) (a : Alphabet)
    (hs : Sendable (callTemplate e options)) (hu : hdrLen (callTemplate e options).UDH ≤ 121)
    (hudhi : (callTemplate e options).UDHI = true ↔ (callTemplate e options).UDH ≠ [])
    (hci : (callTemplate e options).ConcatInfo = none)
    (halpha : (callTemplate e options).Alphabet.1 = .a7Bit)
    (ha : Chosen (callTemplate e options).DCS (callCharsets e options) text a)
    (hcarry : CanCarry (group (callTemplate e options).DCS) a)
    (hm : Matching (callCharsets e options) dopts)
    (hnat : Representable .default text → ∀ ie ∈ (callTemplate e options).UDH, ie.ID ≠ 24 ∧ ie.ID ≠ 25)
    (hesc : a = .a7Bit → 0x1b ∉ text)
    (hutf : ∃ rs, (∀ r ∈ rs, Scalar r) ∧ text = Unicode.encodeRunes rs) :
    ∃ r, e.Encode text options = .ok r ∧
      Arrives (callTemplate e options).SmsType (peer (callTemplate e options)) r.pdus dopts text := by
  have hst : (callTemplate e options).SmsType ∈ smsTypes := by
    rcases sendable_type _ hs with h | h <;> rw [h] <;> decide
  obtain ⟨r, hr, hdec⟩ := C38_text_partial e text options dopts a hst hu halpha ha hcarry hm hnat hesc hutf
  exact ⟨r, hr, auto_arrives e text options dopts text hs hu hudhi hci halpha r hr hdec⟩

/-- C39 for octets, with an 8-bit template. -/
theorem C39_octets (e : Model.Sms.Encoder) (msg : List UInt8) (options : List Model.Sms.EncoderOption)
    (dopts : List CharsetOpt) (hs : Sendable (callTemplate e options)) (hroom : Room (callTemplate e options) (encCfg e))
    (hudhi : (callTemplate e options).UDHI = true ↔ (callTemplate e options).UDH ≠ [])
    (hci : (callTemplate e options).ConcatInfo = none)
    (halpha : (callTemplate e options).Alphabet = (.a8Bit, none)) :
    ∃ r, e.Encode msg options = .ok r ∧
      Arrives (callTemplate e options).SmsType (peer (callTemplate e options)) r.pdus dopts msg := by
  obtain ⟨r, hr, hdec⟩ := C38_octets e msg options dopts hroom (by rw [halpha])
  refine ⟨r, hr, ?_⟩
  obtain ⟨res, hres, _⟩ := C33_pieces _ msg (encCfg e) hroom
  rw [encode_explicit_ok e msg options (.inl (by rw [halpha])) res hres] at hr
  cases hr
  exact arrives _ msg (encCfg e) rfl hroom hs (by rw [halpha]) hudhi hci (by rw [halpha]; intro h; cases h)
    (by rw [halpha]; intro h; cases h) res hres dopts msg hdec

/-- C39 for UTF-16, with a UCS-2 template. -/
theorem C39_utf16 (e : Model.Sms.Encoder) (msg : List UInt8) (options : List Model.Sms.EncoderOption)
    (dopts : List CharsetOpt) (hs : Sendable (callTemplate e options)) (hroom : Room (callTemplate e options) (encCfg e))
    (hudhi : (callTemplate e options).UDHI = true ↔ (callTemplate e options).UDH ≠ [])
    (hci : (callTemplate e options).ConcatInfo = none)
    (halpha : (callTemplate e options).Alphabet = (.ucs2, none)) (rs : List Nat) (hev : msg.length % 2 = 0)
    (hg : Groups (units msg) rs) :
    ∃ r, e.Encode msg options = .ok r ∧
      Arrives (callTemplate e options).SmsType (peer (callTemplate e options)) r.pdus dopts (Unicode.encodeRunes rs) := by
  obtain ⟨r, hr, hdec⟩ := C38_utf16 e msg options dopts hroom (by rw [halpha]) rs hev hg
  refine ⟨r, hr, ?_⟩
  obtain ⟨res, hres, _⟩ := C33_pieces _ msg (encCfg e) hroom
  rw [encode_explicit_ok e msg options (.inr (by rw [halpha])) res hres] at hr
  cases hr
  exact arrives _ msg (encCfg e) rfl hroom hs (by rw [halpha]) hudhi hci (by rw [halpha]; intro h; cases h)
    (fun _ => hev) res hres dopts _ hdec

/-- C39, partial: the plain use of the library.  Text submitted to a number of up to 255 digits, with any charset
options, arrives; with at most 255 TPDUs it is recognised as complete. -/
theorem C39_submit_partial (digits text : List UInt8) (cs : List CharsetOpt) (hd : Digits digits) (hl : digits.length ≤ 255)
    (hesc : InSeptets cs text → 0x1b ∉ text)
    (hutf : ∃ rs, (∀ r ∈ rs, Scalar r) ∧ text = Unicode.encodeRunes rs) :
    ∃ pdus, Sms.Encode text (Sms.To digits :: cs.map .charsets) = .ok pdus ∧
      Arrives SmsSubmit ⟨0x91, digits⟩ pdus [] text ∧ Arrives SmsSubmit ⟨0x91, digits⟩ pdus cs text := by
  obtain ⟨a, ha, _⟩ := C41_chosen 0 cs text
  have hca : CanCarry (group 0) a := by
    cases ha <;> decide
  have hplus : digits.head? ≠ some 0x2b := by
    intro h
    have : (0x2b : UInt8) ∈ digits := by
      cases digits with
      | nil => cases h
      | cons x xs => cases h; simp
    exact absurd (hd _ this) (by decide)
  have hnum : Address.NewFromNumber digits = ⟨0x91, digits⟩ := (C57_number digits hplus).2.2.1
  have main : ∀ dopts, Matching cs dopts → ∃ r, (Sms.NewEncoder (Sms.AsSubmit :: Sms.To digits :: cs.map .charsets)).Encode text [] = .ok r ∧
      Arrives SmsSubmit ⟨0x91, digits⟩ r.pdus dopts text := by
    intro dopts hm
    rw [submit_encoder, hnum]
    have hty : ({ Direction := MO, FirstOctet := 1, DA := ⟨0x91, digits⟩ } : TPDU).SmsType = SmsSubmit := by
      show smsType (FirstOctet.MTI 1) MO = SmsSubmit
      decide
    have hp : peer { Direction := MO, FirstOctet := 1, DA := ⟨0x91, digits⟩ } = ⟨0x91, digits⟩ := by
      unfold peer; rw [if_pos hty]
    suffices h : ∃ r, (⟨cs, { Direction := MO, FirstOctet := 1, DA := ⟨0x91, digits⟩ }, Model.Sms.newCounter,
          Model.Sms.newCounter⟩ : Model.Sms.Encoder).Encode text [] = .ok r ∧
        Arrives ({ Direction := MO, FirstOctet := 1, DA := ⟨0x91, digits⟩ } : TPDU).SmsType
          (peer { Direction := MO, FirstOctet := 1, DA := ⟨0x91, digits⟩ }) r.pdus dopts text by
      rw [hty, hp] at h; exact h
    refine C39_text_partial _ text [] dopts a ?_ ?_ ?_ ?_ (by show (DCS.Alphabet 0).1 = .a7Bit; decide) ha hca hm ?_ ?_ hutf
    · exact .submit rfl (by show FirstOctet.MTI 1 = 1; decide) (.inl ⟨by show ((0x91 : UInt8) >>> 4) &&& 0x07 ≠ 5; decide, hd, hl⟩) .absent (by show FirstOctet.VPF 1 = VpfNotPresent; decide)
    · exact Nat.zero_le _
    · show FirstOctet.UDHI 1 = true ↔ ([] : UDH) ≠ []
      decide
    · rfl
    · intro _ ie hie; cases hie
    · rintro rfl
      apply hesc
      cases ha with
      | septets _ h => exact h
  obtain ⟨r, h1, h2⟩ := main [] (C38_matching cs).1
  obtain ⟨r', h1', h2'⟩ := main cs (C38_matching cs).2
  rw [h1] at h1'; cases h1'
  refine ⟨r.pdus, ?_, h2, h2'⟩
  unfold Model.Sms.Encode
  rw [h1]; rfl

/-- Beside C39: a template with a validity period, a port addressing element and an international number. -/
def exTemplate : TPDU :=
  { Direction := MO, FirstOctet := 0x51, DA := ⟨0x91, [0x31, 0x32]⟩,
    VP := { Format := VpfRelative, Duration := relativeToDuration 5 }, UDH := [⟨5, [0x3e, 0x94, 0, 0]⟩] }

example : Sendable exTemplate ∧ hdrLen exTemplate.UDH ≤ 121 ∧ (exTemplate.UDHI = true ↔ exTemplate.UDH ≠ []) ∧
    exTemplate.ConcatInfo = none ∧ exTemplate.Alphabet.1 = .a7Bit :=
  ⟨.submit rfl (by decide) (.inl (by decide)) (.relative 5 (by decide)) (by decide), by decide, by decide, by decide,
    by decide⟩

/-- C39 is false of text with U+001B: "ESC e" arrives as the euro sign. -/
theorem C39_counterexample : (do
    let pdus ← Sms.Encode [0x1b, 0x65] [Sms.To [0x31, 0x32]]
    let wire ← pdus.mapM TPDU.MarshalBinary
    let qs ← wire.mapM (fun b => Sms.Unmarshal b MO)
    Sms.Decode qs [] : M _) = .ok [0xe2, 0x82, 0xac] := by decide +kernel

end Verif.Props
