import Verif.Proofs.Encode
import Verif.Props.Segment2
import Verif.Props.Dcs
import Verif.Props.Alphabet

/-! Helper lemmas about `Encoder.Encode`. -/

namespace Verif.Proofs
open Verif.Model Verif.Spec Verif.Props

/-- The segmentation configuration of an encoder. -/
def encCfg (e : Model.Sms.Encoder) : SegCfg := { cr := some e.ConcatRef, mr := some e.MsgCount }

theorem apply_counters (options : List Model.Sms.EncoderOption) (e : Model.Sms.Encoder) :
    (options.foldl Model.Sms.Encoder.apply e).MsgCount = e.MsgCount ∧
    (options.foldl Model.Sms.Encoder.apply e).ConcatRef = e.ConcatRef := by
  induction options generalizing e with
  | nil => exact ⟨rfl, rfl⟩
  | cons o os ih =>
    rw [List.foldl_cons]
    obtain ⟨h1, h2⟩ := ih (e.apply o)
    rw [h1, h2]
    cases o with
    | template t => exact ⟨rfl, rfl⟩
    | templateOption o =>
      simp only [Model.Sms.Encoder.apply]
      cases o.apply e.pdu <;> exact ⟨rfl, rfl⟩
    | charsets o => exact ⟨rfl, rfl⟩

/-- The template after an alphabet and a header have been chosen automatically. -/
def autoTemplate (t : TPDU) (dcs : UInt8) (udh : UDH) : TPDU :=
  { t with
    DCS := dcs
    PI := (if dcs ≠ t.DCS then t.PI ||| PI.PiDCS else t.PI) ||| (if udh ≠ [] then PI.PiUDL else 0)
    FirstOctet := if udh ≠ [] then t.FirstOctet ||| FirstOctet.FoUDHI else t.FirstOctet
    UDH := if udh ≠ [] then udh else t.UDH }

theorem autoTemplate_eq (t : TPDU) (dcs : UInt8) (udh : UDH) :
    (if udh ≠ [] then (if dcs ≠ t.DCS then t.SetDCS dcs else t).SetUDH (some udh)
      else (if dcs ≠ t.DCS then t.SetDCS dcs else t)) = autoTemplate t dcs udh := by
  have h0 : ∀ x : UInt8, x ||| 0 = x := by apply forall_u8; decide +kernel
  unfold autoTemplate
  by_cases h1 : dcs = t.DCS
  · by_cases h2 : udh = []
    · simp [h1, h2]
    · simp [h1, h2, TPDU.SetUDH]
  · by_cases h2 : udh = []
    · simp [h1, h2, TPDU.SetDCS]
    · simp [h1, h2, TPDU.SetDCS, TPDU.SetUDH]

/-- `Encode` with an explicit alphabet. -/
theorem encode_explicit (e : Model.Sms.Encoder) (msg : Bytes) (options : List Model.Sms.EncoderOption)
    (h : ((options.foldl Model.Sms.Encoder.apply e).pdu).Alphabet.1 = .a8Bit ∨
      ((options.foldl Model.Sms.Encoder.apply e).pdu).Alphabet.1 = .ucs2) :
    e.Encode msg options = (do
      let r ← ((options.foldl Model.Sms.Encoder.apply e).pdu).Segment msg (encCfg e)
      return ⟨r.pdus, r.mr.getD e.MsgCount, r.cr.getD e.ConcatRef⟩) := by
  unfold TPDU.Alphabet at h
  unfold Model.Sms.Encoder.Encode
  simp only
  rw [if_pos h]
  unfold Model.Sms.Encoder.segment
  rw [(apply_counters options e).1, (apply_counters options e).2]
  rfl

/-- `Encode` with an automatic alphabet that the coding group can carry. -/
theorem encode_auto (e : Model.Sms.Encoder) (msg : Bytes) (options : List Model.Sms.EncoderOption)
    (h : ((options.foldl Model.Sms.Encoder.apply e).pdu).Alphabet.1 = .a7Bit)
    (hc : CanCarry (group ((options.foldl Model.Sms.Encoder.apply e).pdu).DCS)
      (EncodeUserData msg (options.foldl Model.Sms.Encoder.apply e).eopts).2.2) :
    ∃ dcs, DCS.Alphabet dcs = ((EncodeUserData msg (options.foldl Model.Sms.Encoder.apply e).eopts).2.2, none) ∧
      e.Encode msg options = (do
        let r ← (autoTemplate (options.foldl Model.Sms.Encoder.apply e).pdu dcs
          (EncodeUserData msg (options.foldl Model.Sms.Encoder.apply e).eopts).2.1).Segment
            (EncodeUserData msg (options.foldl Model.Sms.Encoder.apply e).eopts).1 (encCfg e)
        return ⟨r.pdus, r.mr.getD e.MsgCount, r.cr.getD e.ConcatRef⟩) := by
  have hne : (EncodeUserData msg (options.foldl Model.Sms.Encoder.apply e).eopts).2.2 ≠ .reserved := by
    rcases C40_alphabet msg (options.foldl Model.Sms.Encoder.apply e).eopts with ⟨h, _⟩ | ⟨h, _⟩ <;> rw [h] <;> simp
  have h20 := C20_with_alphabet ((options.foldl Model.Sms.Encoder.apply e).pdu).DCS _ hne
  unfold AlphabetUpdate at h20
  rw [if_pos hc] at h20
  have hn : ¬ ((DCS.Alphabet ((options.foldl Model.Sms.Encoder.apply e).pdu).DCS).1 = .a8Bit ∨
      (DCS.Alphabet ((options.foldl Model.Sms.Encoder.apply e).pdu).DCS).1 = .ucs2) := by
    have h' : (DCS.Alphabet ((options.foldl Model.Sms.Encoder.apply e).pdu).DCS).1 = .a7Bit := h
    rw [h']; simp
  cases hw : DCS.WithAlphabet ((options.foldl Model.Sms.Encoder.apply e).pdu).DCS
      (EncodeUserData msg (options.foldl Model.Sms.Encoder.apply e).eopts).2.2 with
  | error f => rw [hw] at h20; exact absurd h20 (by simp)
  | ok dcs =>
    rw [hw] at h20
    refine ⟨dcs, h20.1, ?_⟩
    unfold Model.Sms.Encoder.Encode
    simp only
    rw [if_neg hn, hw]
    simp only
    rw [autoTemplate_eq]
    unfold Model.Sms.Encoder.segment
    rw [(apply_counters options e).1, (apply_counters options e).2]
    rfl

/-- `Encode` with an automatic alphabet that the coding group cannot carry. -/
theorem encode_conflict (e : Model.Sms.Encoder) (msg : Bytes) (options : List Model.Sms.EncoderOption)
    (h : ((options.foldl Model.Sms.Encoder.apply e).pdu).Alphabet.1 = .a7Bit)
    (hc : ¬ CanCarry (group ((options.foldl Model.Sms.Encoder.apply e).pdu).DCS)
      (EncodeUserData msg (options.foldl Model.Sms.Encoder.apply e).eopts).2.2) :
    e.Encode msg options = fail .dcsConflict := by
  have hne : (EncodeUserData msg (options.foldl Model.Sms.Encoder.apply e).eopts).2.2 ≠ .reserved := by
    rcases C40_alphabet msg (options.foldl Model.Sms.Encoder.apply e).eopts with ⟨h, _⟩ | ⟨h, _⟩ <;> rw [h] <;> simp
  have h20 := C20_with_alphabet ((options.foldl Model.Sms.Encoder.apply e).pdu).DCS _ hne
  unfold AlphabetUpdate at h20
  rw [if_neg hc] at h20
  have hn : ¬ ((DCS.Alphabet ((options.foldl Model.Sms.Encoder.apply e).pdu).DCS).1 = .a8Bit ∨
      (DCS.Alphabet ((options.foldl Model.Sms.Encoder.apply e).pdu).DCS).1 = .ucs2) := by
    have h' : (DCS.Alphabet ((options.foldl Model.Sms.Encoder.apply e).pdu).DCS).1 = .a7Bit := h
    rw [h']; simp
  unfold Model.Sms.Encoder.Encode
  simp only
  rw [if_neg hn, h20]
  rfl

theorem alphabet_cases (t : TPDU) : t.Alphabet.1 = .a7Bit ∨ t.Alphabet.1 = .a8Bit ∨ t.Alphabet.1 = .ucs2 := by
  have := alphabet_ne_reserved t
  cases h : t.Alphabet.1 <;> simp_all

theorem segment_outcome (t : TPDU) (msg : Bytes) (cfg : SegCfg) :
    (∃ res, t.Segment msg cfg = .ok res) ∨ (∃ k, t.Segment msg cfg = .error (.panic k)) := by
  obtain ⟨h1, h2⟩ := C37_exact t msg cfg
  exact Classical.byCases (fun h => .inl (h1 h)) (fun h => .inr (h2 h))

/-- The shape of the TPDUs produced by `Segment`. -/
theorem segment_forms (t : TPDU) (msg : Bytes) (cfg : SegCfg) (hw : cfg.wide = false) (h : Room t cfg) :
    ∃ res, t.Segment msg cfg = .ok res ∧ content res.pdus = msg ∧
      ∀ p ∈ res.pdus, (∃ fo pi mr udh ud, p = { t with FirstOctet := fo, PI := pi, MR := mr, UDH := udh, UD := ud } ∧
        (fo = t.FirstOctet ∧ udh = t.UDH ∨
          fo = t.FirstOctet ||| 0x40 ∧ ∃ ie : IE, ie.ID = 0 ∧ ie.Data.length = 3 ∧ udh = t.UDH ++ [ie])) ∧
        (p.UD.length : Int) ≤ p.UDBlockSize := by
  obtain ⟨res, hr, hc, hf⟩ := C33_pieces t msg cfg h
  refine ⟨res, hr, hc, ?_⟩
  intro p hp
  refine ⟨?_, (hf p hp).2⟩
  by_cases hbig : (msg.length : Int) ≤ t.UDBlockSize
  · obtain ⟨e, _⟩ := C36_single t msg cfg res hr hbig p hp
    exact ⟨t.FirstOctet, t.PI, p.MR, t.UDH, msg, e, .inl ⟨rfl, rfl⟩⟩
  · obtain ⟨res', g1, g2, _⟩ := C36_multi t msg cfg h hbig
    rw [hr] at g1; cases g1
    obtain ⟨k, hk⟩ := List.mem_iff_getElem?.mp hp
    refine ⟨_, _, _, _, _, g2 k p hk, .inr ⟨rfl, concatIE cfg res.pdus.length (k + 1), ?_, ?_, rfl⟩⟩
    · simp [concatIE, hw]
    · simp [concatIE, hw]

/-- Types with a defined user data size, and a header that leaves room for content in every segment. -/
theorem room_of (t : TPDU) (cfg : SegCfg) (hb : 131 ≤ baseSize t) (hw : cfg.wide = false) (hu : hdrLen t.UDH ≤ 121) :
    Room t cfg := by
  unfold Room
  rw [blockSize_eq]
  have hbs : baseSize (segTemplate t cfg) = baseSize t := baseSize_congr _ _ rfl rfl
  have hh : hdrLen (segTemplate t cfg).UDH ≤ 127 := by
    show hdrLen (t.UDH ++ [cfg.ief 0 0 0]) ≤ 127
    have hi : (cfg.ief 0 0 0).Data.length = 3 := by
      unfold SegCfg.ief; rw [hw]; decide
    unfold hdrLen at *
    rw [if_neg (by simp)]
    rw [List.map_append, List.sum_append]
    simp only [List.map_cons, List.map_nil, List.sum_cons, List.sum_nil, hi]
    split at hu
    · rename_i h0; simp [h0]
    · omega
  have ha : (segTemplate t cfg).Alphabet.1 = t.Alphabet.1 := rfl
  rw [hbs, ha]
  generalize hdrLen (segTemplate t cfg).UDH = x at *
  generalize baseSize t = b at *
  have h7 : 149 ≤ b * 8 / 7 := by omega
  rcases alphabet_cases t with h | h | h <;> rw [h] <;> simp only [minBlock, unitsLeft] <;> omega

theorem chunk7Loop_ne (msg : Bytes) (bs : Int) (fuel : Nat) (i : Int) (cs : List Bytes)
    (h : chunk7Loop msg bs fuel i = .ok cs) : 1 ≤ cs.length ∧ (i + bs < msg.length → 2 ≤ cs.length) := by
  induction fuel generalizing i cs with
  | zero => cases h
  | succ fuel ih =>
    unfold chunk7Loop at h
    simp only at h
    split at h
    · obtain ⟨e1, _, h⟩ := bind_eq_ok.mp h
      obtain ⟨bend, _, h⟩ := bind_eq_ok.mp h
      obtain ⟨c, _, h⟩ := bind_eq_ok.mp h
      split at h
      · cases h
      · obtain ⟨cs', h', h⟩ := bind_eq_ok.mp h
        cases h
        have := (ih _ _ h').1
        simp; omega
    · rename_i hn
      obtain ⟨c, _, h⟩ := bind_eq_ok.mp h
      cases h
      exact ⟨by simp, fun hh => absurd hh hn⟩

theorem chunk8Loop_ne (msg : Bytes) (bs : Int) (fuel : Nat) (i : Int) (cs : List Bytes)
    (h : chunk8Loop msg bs fuel i = .ok cs) : 1 ≤ cs.length ∧ (i + bs < msg.length → 2 ≤ cs.length) := by
  induction fuel generalizing i cs with
  | zero => cases h
  | succ fuel ih =>
    unfold chunk8Loop at h
    simp only at h
    split at h
    · obtain ⟨c, _, h⟩ := bind_eq_ok.mp h
      split at h
      · cases h
      · obtain ⟨cs', h', h⟩ := bind_eq_ok.mp h
        cases h
        have := (ih _ _ h').1
        simp; omega
    · rename_i hn
      obtain ⟨c, _, h⟩ := bind_eq_ok.mp h
      cases h
      exact ⟨by simp, fun hh => absurd hh hn⟩

theorem chunkUCS2Loop_ne (msg : Bytes) (bs : Int) (fuel : Nat) (i : Int) (cs : List Bytes)
    (h : chunkUCS2Loop msg bs fuel i = .ok cs) : 1 ≤ cs.length ∧ (i + bs < msg.length → 2 ≤ cs.length) := by
  induction fuel generalizing i cs with
  | zero => cases h
  | succ fuel ih =>
    unfold chunkUCS2Loop at h
    simp only at h
    split at h
    · obtain ⟨c, _, h⟩ := bind_eq_ok.mp h
      obtain ⟨c, _, h⟩ := bind_eq_ok.mp h
      obtain ⟨c, _, h⟩ := bind_eq_ok.mp h
      generalize (if 0xd800 ≤ _ ∧ _ < 0xdc00 then i + bs - 2 else i + bs) = bend at h
      split at h
      · cases h
      · obtain ⟨cs', h', h⟩ := bind_eq_ok.mp h
        cases h
        have := (ih _ _ h').1
        simp; omega
    · rename_i hn
      obtain ⟨c, _, h⟩ := bind_eq_ok.mp h
      cases h
      exact ⟨by simp, fun hh => absurd hh hn⟩

theorem chunk_two (msg : Bytes) (a : Alphabet) (bs : Int) (cs : List Bytes) (hne : msg ≠ [])
    (h : chunk msg a bs = .ok cs) (hb : bs < msg.length) : 2 ≤ cs.length := by
  have hl : ¬ msg.length = 0 := by simpa using hne
  unfold chunk at h
  split at h
  · unfold chunkUCS2 at h
    rw [if_neg hl] at h
    simp only at h
    obtain ⟨_, _, h⟩ := bind_eq_ok.mp h
    exact (chunkUCS2Loop_ne _ _ _ _ _ h).2 (by omega)
  · unfold chunk8Bit at h
    rw [if_neg hl] at h
    obtain ⟨_, _, h⟩ := bind_eq_ok.mp h
    exact (chunk8Loop_ne _ _ _ _ _ h).2 (by omega)
  · unfold chunk7Bit at h
    rw [if_neg hl] at h
    obtain ⟨_, _, h⟩ := bind_eq_ok.mp h
    exact (chunk7Loop_ne _ _ _ _ _ h).2 (by omega)

/-- What a successful `Segment` returns, whatever the template. -/
theorem segment_ok_forms (t : TPDU) (msg : Bytes) (cfg : SegCfg) (res : SegResult) (h : t.Segment msg cfg = .ok res) :
    (res.pdus = [] ∧ res.cr = cfg.cr ∧ res.mr = cfg.mr) ∨
    (res.pdus = [{ t with UD := msg, MR := nthMR t cfg.mr 0 }] ∧ res.cr = cfg.cr ∧ res.mr = cfg.mr.map (advance 1)) ∨
    (∃ cs : List Bytes, 2 ≤ cs.length ∧ res.pdus = cs.mapIdx (fun k c => segPdu t cfg cs.length k c) ∧
      res.cr = cfg.cr.map (advance 1) ∧ res.mr = cfg.mr.map (advance cs.length)) := by
  by_cases hne : msg = []
  · subst hne; cases h; exact .inl ⟨rfl, rfl, rfl⟩
  by_cases hbig : (msg.length : Int) ≤ t.UDBlockSize
  · right; left
    have hl : ¬ msg.length = 0 := by simpa using hne
    unfold TPDU.Segment at h
    rw [if_neg hl] at h
    simp only at h
    rw [if_pos hbig] at h
    cases h
    cases hmr : cfg.mr <;> simp [setMR, Counter.count, nthMR, advance]
  · right; right
    obtain ⟨h1, h2⟩ := segment_chunks t msg cfg hne hbig
    cases hc : chunk msg t.Alphabet.1 (segTemplate t cfg).UDBlockSize with
    | error f => rw [h2 f hc] at h; cases h
    | ok cs =>
      obtain ⟨res', e1, e2, e3, e4⟩ := h1 cs hc
      rw [h] at e1; cases e1
      have := segTemplate_le t cfg
      exact ⟨cs, chunk_two _ _ _ _ hne hc (by omega), e2, e3, e4⟩

end Verif.Proofs
