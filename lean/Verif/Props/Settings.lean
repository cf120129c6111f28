import Verif.Proofs.EncodeSms
import Verif.Spec.Settings

/-! C100: what the options given to an encoder make of its TPDUs. -/

namespace Verif.Props
open Verif.Model Verif.Spec Verif.Proofs
open Verif.Model.Sms (EncoderOption)

theorem lastSaid_snoc {α : Type} (says : EncoderOption → Option α) (os : List EncoderOption) (o : EncoderOption) :
    lastSaid says (os ++ [o]) = (says o).or (lastSaid says os) := by
  unfold lastSaid
  rw [List.reverse_append, List.reverse_singleton, List.singleton_append, List.findSome?_cons]
  cases says o <;> rfl

theorem said_mti_small (os : List EncoderOption) (h : MTIsKnown os) :
    (lastSaid saysMTI os).getD 0 ≤ 3 := by
  have hm : ∀ x : UInt8, x &&& 3 ≤ 3 := by apply forall_u8; decide +kernel
  have : ∀ m, lastSaid saysMTI os = some m → m ≤ 3 := by
    intro m hl
    obtain ⟨o, ho, hs⟩ := List.exists_of_findSome?_eq_some hl
    rw [List.mem_reverse] at ho
    unfold saysMTI at hs
    split at hs
    · cases hs; exact hm _
    · cases hs; exact h _ ho
    · rename_i n
      split at hs
      · rename_i hn
        cases hs
        rw [UInt8.le_iff_toNat_le, UInt8.toNat_ofNat']
        have : (3 : UInt8).toNat = 3 := rfl
        omega
      · cases hs
    · cases hs
  cases hl : lastSaid saysMTI os with
  | none => decide
  | some m => exact this m hl

theorem fo_mti (f m n : UInt8) (hm : m ≤ 3) : FirstOctet.WithMTI ((f &&& 0xfc) ||| m) n = (f &&& 0xfc) ||| n := by
  have key : ∀ f : UInt8, ∀ m : UInt8, m ≤ 3 → andNot ((f &&& 0xfc) ||| m) 3 = f &&& 0xfc := by
    have : ∀ m : Fin 4, ∀ f : UInt8, andNot ((f &&& 0xfc) ||| UInt8.ofNat m.val) 3 = f &&& 0xfc := by
      intro m
      apply forall_u8
      revert m
      decide +kernel
    intro f m hm
    have h3 : m.toNat < 4 := by
      rw [UInt8.le_iff_toNat_le] at hm
      have : (3 : UInt8).toNat = 3 := rfl
      omega
    have := this ⟨m.toNat, h3⟩ f
    simpa using this
  unfold FirstOctet.WithMTI
  exact congrArg (· ||| n) (key f m hm)

theorem fo_split (f : UInt8) : (f &&& 0xfc) ||| (f &&& 3) = f := by
  revert f; apply forall_u8; decide +kernel

/-- C100: the encoder that `NewEncoder` makes of a list of options has the template they ask for, and offers
their tables. -/
theorem C100_encoder (options : List EncoderOption) (h : MTIsKnown options) :
    (Model.Sms.NewEncoder options).pdu = saidTemplate options ∧
    (Model.Sms.NewEncoder options).eopts = saidTables options := by
  have main : ∀ rs : List EncoderOption, MTIsKnown rs.reverse →
      (Model.Sms.NewEncoder rs.reverse).pdu = saidTemplate rs.reverse ∧
      (Model.Sms.NewEncoder rs.reverse).eopts = saidTables rs.reverse := by
    intro rs
    induction rs with
    | nil => intro _; exact ⟨by decide, rfl⟩
    | cons o rs ih =>
      intro hk
      rw [List.reverse_cons] at hk ⊢
      have hk' : MTIsKnown rs.reverse := fun m hm => hk m (List.mem_append_left _ hm)
      obtain ⟨i1, i2⟩ := ih hk'
      have hsm := said_mti_small _ hk'
      have hne : Model.Sms.NewEncoder (rs.reverse ++ [o]) = (Model.Sms.NewEncoder rs.reverse).apply o := by
        unfold Model.Sms.NewEncoder; rw [List.foldl_append]; rfl
      rw [hne]
      generalize Model.Sms.NewEncoder rs.reverse = e at *
      generalize rs.reverse = os at *
      have ht : saidTables (os ++ [o]) = saidTables os ++ saidTables [o] := by
        unfold saidTables; rw [List.filterMap_append]
      rw [ht, ← i2]
      cases o with
      | template t =>
        refine ⟨?_, by simp [Model.Sms.Encoder.apply, saidTables]⟩
        simp [Model.Sms.Encoder.apply, saidTemplate, lastSaid_snoc, saysTemplate, saysDA, saysOA, saysUDH,
          saysDCS, saysMarked, saysDirection, saysMTI, fo_split]
      | charsets c =>
        refine ⟨?_, rfl⟩
        simp only [Model.Sms.Encoder.apply, i1, saidTemplate, lastSaid_snoc, saysTemplate, saysDA, saysOA, saysUDH,
          saysDCS, saysMarked, saysDirection, saysMTI, Option.none_or]
      | templateOption x =>
        cases x with
        | messageType m =>
          refine ⟨?_, by simp [Model.Sms.Encoder.apply, TpduOption.apply, saidTables]⟩
          simp only [Model.Sms.Encoder.apply, TpduOption.apply, i1, saidTemplate, lastSaid_snoc, saysTemplate, saysDA, saysOA,
            saysUDH, saysDCS, saysMarked, saysDirection, saysMTI, Option.none_or, Option.some_or, Option.getD_some,
            fo_mti _ _ _ hsm]
        | direction d =>
          refine ⟨?_, by simp [Model.Sms.Encoder.apply, TpduOption.apply, saidTables]⟩
          simp only [Model.Sms.Encoder.apply, TpduOption.apply, i1, saidTemplate, lastSaid_snoc, saysTemplate, saysDA, saysOA,
            saysUDH, saysDCS, saysMarked, saysDirection, saysMTI, Option.none_or, Option.some_or, Option.getD_some]
        | smsType n =>
          by_cases hn : 0 ≤ n ∧ n ≤ 5
          · have hb : byteOf (n / 2) = UInt8.ofNat (n / 2).toNat := by
              unfold byteOf; congr 1; omega
            refine ⟨?_, ?_⟩
            · simp only [Model.Sms.Encoder.apply, TpduOption.apply, TPDU.SetSmsType, i1, saidTemplate, lastSaid_snoc, saysTemplate,
                saysDA, saysOA, saysUDH, saysDCS, saysMarked, saysDirection, saysMTI, Option.none_or]
              rw [if_neg (by omega)]
              simp only [if_pos hn, Option.some_or, Option.getD_some, fo_mti _ _ _ hsm, hb]
            · simp only [Model.Sms.Encoder.apply, TpduOption.apply, TPDU.SetSmsType]
              rw [if_neg (by omega)]
              simp [saidTables]
          · refine ⟨?_, ?_⟩
            · simp only [Model.Sms.Encoder.apply, TpduOption.apply, TPDU.SetSmsType, i1, saidTemplate, lastSaid_snoc, saysTemplate,
                saysDA, saysOA, saysUDH, saysDCS, saysMarked, saysDirection, saysMTI, Option.none_or, if_neg hn]
              rw [if_pos (by omega)]
              exact i1
            · simp only [Model.Sms.Encoder.apply, TpduOption.apply, TPDU.SetSmsType]
              rw [if_pos (by omega)]
              simp [saidTables, fail]
        | dcs d =>
          refine ⟨?_, by simp [Model.Sms.Encoder.apply, TpduOption.apply, saidTables, TPDU.SetDCS]⟩
          have h2 : ∀ x : UInt8, (x ||| 2) ||| 2 = x ||| 2 ∧ (x ||| 0) ||| 2 = x ||| 2 := by apply forall_u8; decide +kernel
          simp only [Model.Sms.Encoder.apply, TpduOption.apply, TPDU.SetDCS, i1, saidTemplate, lastSaid_snoc, saysTemplate, saysDA,
            saysOA, saysUDH, saysDCS, saysMarked, saysDirection, saysMTI, Option.none_or, Option.some_or, Option.getD_some,
            ↓reduceIte]
          congr 1
          split
          · exact (h2 _).1
          · exact (h2 _).2
        | da a =>
          refine ⟨?_, by simp [Model.Sms.Encoder.apply, TpduOption.apply, saidTables]⟩
          simp only [Model.Sms.Encoder.apply, TpduOption.apply, i1, saidTemplate, lastSaid_snoc, saysTemplate, saysDA, saysOA,
            saysUDH, saysDCS, saysMarked, saysDirection, saysMTI, Option.none_or, Option.some_or, Option.getD_some]
        | oa a =>
          refine ⟨?_, by simp [Model.Sms.Encoder.apply, TpduOption.apply, saidTables]⟩
          simp only [Model.Sms.Encoder.apply, TpduOption.apply, i1, saidTemplate, lastSaid_snoc, saysTemplate, saysDA, saysOA,
            saysUDH, saysDCS, saysMarked, saysDirection, saysMTI, Option.none_or, Option.some_or, Option.getD_some]
        | udh u =>
          refine ⟨?_, by simp [Model.Sms.Encoder.apply, TpduOption.apply, saidTables]⟩
          simp only [Model.Sms.Encoder.apply, TpduOption.apply, i1, saidTemplate, lastSaid_snoc, saysTemplate, saysDA, saysOA,
            saysUDH, saysDCS, saysMarked, saysDirection, saysMTI, Option.none_or, Option.some_or, Option.getD_some]
  have := main options.reverse
  rw [List.reverse_reverse] at this
  exact this h

/-- C100: it does not matter whether options are given to `NewEncoder` or to `Encode`, nor what else was said
before the last word on a matter: options that ask for the same give the same TPDUs. -/
theorem C100_same (as as' bs bs' : List EncoderOption) (msg : List UInt8) (h : SameSaid (as ++ as') (bs ++ bs'))
    (ha : MTIsKnown (as ++ as')) (hb : MTIsKnown (bs ++ bs')) :
    (Model.Sms.NewEncoder as).Encode msg as' = (Model.Sms.NewEncoder bs).Encode msg bs' := by
  have hw : ∀ xs ys : List EncoderOption, (Model.Sms.NewEncoder xs).Encode msg ys = (Model.Sms.NewEncoder (xs ++ ys)).Encode msg [] := by
    intro xs ys
    unfold Model.Sms.Encoder.Encode Model.Sms.NewEncoder
    rw [List.foldl_append]
    rfl
  rw [hw as, hw bs]
  congr 1
  obtain ⟨h1, h2, h3, h4, h5, h6, h7, h8, h9⟩ := h
  obtain ⟨a1, a2⟩ := C100_encoder _ ha
  obtain ⟨b1, b2⟩ := C100_encoder _ hb
  have hc : ∀ os, (Model.Sms.NewEncoder os).MsgCount = Model.Sms.newCounter ∧ (Model.Sms.NewEncoder os).ConcatRef = Model.Sms.newCounter :=
    fun os => apply_counters os _
  have ht : saidTemplate (as ++ as') = saidTemplate (bs ++ bs') := by
    unfold saidTemplate
    rw [h1, h2, h3, h4, h5, h6, h7, h8]
  obtain ⟨c1, c2⟩ := hc (as ++ as')
  obtain ⟨d1, d2⟩ := hc (bs ++ bs')
  generalize Model.Sms.NewEncoder (as ++ as') = x at *
  generalize Model.Sms.NewEncoder (bs ++ bs') = y at *
  cases x; cases y
  simp only at a1 a2 b1 b2 c1 c2 d1 d2
  rw [a1, a2, b1, b2, c1, c2, d1, d2, ht, h9]

theorem with_alphabet_bits (d : UInt8) (a : Alphabet) (ha : a ≠ .reserved) :
    ∀ x, DCS.WithAlphabet d a = .ok x → x &&& 0xf3 = d &&& 0xf3 := by
  have key : ∀ d : UInt8, (DCS.WithAlphabet d a).map (fun x => decide (x &&& 0xf3 = d &&& 0xf3)) ≠ .ok false := by
    cases a with
    | reserved => exact absurd rfl ha
    | a7Bit => apply forall_u8; decide +kernel
    | a8Bit => apply forall_u8; decide +kernel
    | ucs2 => apply forall_u8; decide +kernel
  intro x hx
  have := key d
  rw [hx] at this
  by_cases h : x &&& 0xf3 = d &&& 0xf3
  · exact h
  · exact absurd (by simp [Except.map, h]) this

/-- `Encode` with an automatic alphabet that the coding group can carry, as `encode_auto`. -/
theorem encode_auto_dcs (e : Model.Sms.Encoder) (msg : Bytes) (options : List Model.Sms.EncoderOption)
    (h : ((options.foldl Model.Sms.Encoder.apply e).pdu).Alphabet.1 = .a7Bit)
    (hc : CanCarry (group ((options.foldl Model.Sms.Encoder.apply e).pdu).DCS)
      (EncodeUserData msg (options.foldl Model.Sms.Encoder.apply e).eopts).2.2) :
    ∃ dcs, DCS.WithAlphabet ((options.foldl Model.Sms.Encoder.apply e).pdu).DCS
      (EncodeUserData msg (options.foldl Model.Sms.Encoder.apply e).eopts).2.2 = .ok dcs ∧
      e.Encode msg options = (do
        let r ← (autoTemplate (options.foldl Model.Sms.Encoder.apply e).pdu dcs
          (EncodeUserData msg (options.foldl Model.Sms.Encoder.apply e).eopts).2.1).Segment
            (EncodeUserData msg (options.foldl Model.Sms.Encoder.apply e).eopts).1 (encCfg e)
        return ⟨r.pdus, r.mr.getD e.MsgCount, r.cr.getD e.ConcatRef⟩) := by
  have hne : (EncodeUserData msg (options.foldl Model.Sms.Encoder.apply e).eopts).2.2 ≠ .reserved := by
    rcases C40_alphabet msg (options.foldl Model.Sms.Encoder.apply e).eopts with ⟨h, _⟩ | ⟨h, _⟩ <;> rw [h] <;> simp
  have h20 := C20_with_alphabet ((options.foldl Model.Sms.Encoder.apply e).pdu).DCS _ hne
  unfold AlphabetUpdate at h20
  rw [if_pos hc] at h20
  have hn : ¬ ((DCS.Alphabet ((options.foldl Model.Sms.Encoder.apply e).pdu).DCS).1 = .a8Bit ∨
      (DCS.Alphabet ((options.foldl Model.Sms.Encoder.apply e).pdu).DCS).1 = .ucs2) := by
    have h' : (DCS.Alphabet ((options.foldl Model.Sms.Encoder.apply e).pdu).DCS).1 = .a7Bit := h
    rw [h']; simp
  cases hw : DCS.WithAlphabet ((options.foldl Model.Sms.Encoder.apply e).pdu).DCS
      (EncodeUserData msg (options.foldl Model.Sms.Encoder.apply e).eopts).2.2 with
  | error f => rw [hw] at h20; exact absurd h20 (by simp)
  | ok dcs =>
    refine ⟨dcs, rfl, ?_⟩
    unfold Model.Sms.Encoder.Encode
    simp only
    rw [if_neg hn, hw]
    simp only
    rw [autoTemplate_eq]
    unfold Model.Sms.Encoder.segment
    rw [(apply_counters options e).1, (apply_counters options e).2]
    rfl

/-- What an encoder may change of its template: the message reference, the alphabet bits of the coding scheme (0x0c)
if its alphabet is GSM7, the header and its indicator (0x40), the user data, and the parameter indicator. -/
theorem encode_keeps (e : Model.Sms.Encoder) (msg : List UInt8) (r : Model.Sms.EncResult) (h : e.Encode msg [] = .ok r) :
    ∀ p ∈ r.pdus, p = { e.pdu with
      FirstOctet := p.FirstOctet, MR := p.MR, PI := p.PI, DCS := p.DCS, UDH := p.UDH, UD := p.UD } ∧
      p.FirstOctet &&& 0xbf = e.pdu.FirstOctet &&& 0xbf ∧ p.PI &&& 0xf9 = e.pdu.PI &&& 0xf9 ∧
      p.DCS &&& 0xf3 = e.pdu.DCS &&& 0xf3 ∧ ((DCS.Alphabet e.pdu.DCS).1 ≠ .a7Bit → p.DCS = e.pdu.DCS) := by
  have f40 : ∀ x : UInt8, (x ||| FirstOctet.FoUDHI) &&& 0xbf = x &&& 0xbf := by apply forall_u8; decide +kernel
  have f4 : ∀ x : UInt8, (x ||| PI.PiUDL) &&& 0xf9 = x &&& 0xf9 := by apply forall_u8; decide +kernel
  have f2 : ∀ x : UInt8, (x ||| PI.PiDCS) &&& 0xf9 = x &&& 0xf9 := by apply forall_u8; decide +kernel
  have seg : ∀ (t : TPDU) (d : Bytes), t = { e.pdu with FirstOctet := t.FirstOctet, PI := t.PI, DCS := t.DCS, UDH := t.UDH } →
      t.FirstOctet &&& 0xbf = e.pdu.FirstOctet &&& 0xbf → t.PI &&& 0xf9 = e.pdu.PI &&& 0xf9 →
      (do
        let r ← t.Segment d (encCfg e)
        return (⟨r.pdus, r.mr.getD e.MsgCount, r.cr.getD e.ConcatRef⟩ : Model.Sms.EncResult) : M _) = .ok r →
      ∀ p ∈ r.pdus, p = { e.pdu with
        FirstOctet := p.FirstOctet, MR := p.MR, PI := p.PI, DCS := p.DCS, UDH := p.UDH, UD := p.UD } ∧
        p.FirstOctet &&& 0xbf = e.pdu.FirstOctet &&& 0xbf ∧ p.PI &&& 0xf9 = e.pdu.PI &&& 0xf9 ∧ p.DCS = t.DCS := by
    intro t d ht hf hp hh p hm
    obtain ⟨res, hres, hh⟩ := bind_eq_ok.mp hh
    cases hh
    rcases segment_ok_forms t d _ res hres with ⟨h1, _⟩ | ⟨h1, _⟩ | ⟨cs, _, h1, _⟩
    · rw [h1] at hm; cases hm
    · rw [h1, List.mem_singleton] at hm
      subst hm
      rw [ht]
      exact ⟨rfl, hf, hp, rfl⟩
    · simp only [h1, List.mem_mapIdx] at hm
      obtain ⟨i, hi, rfl⟩ := hm
      rw [ht]
      exact ⟨rfl, (f40 _).trans hf, (f4 _).trans hp, rfl⟩
  rcases alphabet_cases e.pdu with h7 | h8
  · by_cases hc : CanCarry (group e.pdu.DCS) (EncodeUserData msg e.eopts).2.2
    · obtain ⟨dcs, hw, henc⟩ := encode_auto_dcs e msg [] h7 hc
      rw [henc] at h
      have hd : dcs &&& 0xf3 = e.pdu.DCS &&& 0xf3 := with_alphabet_bits _ _ (by
        show (EncodeUserData msg e.eopts).2.2 ≠ .reserved
        rcases C40_alphabet msg e.eopts with ⟨h, _⟩ | ⟨h, _⟩ <;> rw [h] <;> simp) _ hw
      intro p hm
      obtain ⟨p1, p2, p3, p4⟩ := seg _ _ rfl (by
        show (autoTemplate e.pdu dcs (EncodeUserData msg e.eopts).2.1).FirstOctet &&& _ = _
        unfold autoTemplate
        simp only
        split
        · exact f40 _
        · rfl) (by
        show (autoTemplate e.pdu dcs (EncodeUserData msg e.eopts).2.1).PI &&& _ = _
        have f0 : ∀ x : UInt8, (x ||| 0) = x := by apply forall_u8; decide +kernel
        unfold autoTemplate
        simp only
        split <;> split <;> simp only [f4, f2, f0]) h p hm
      exact ⟨p1, p2, p3, by rw [p4]; exact hd, fun hn => absurd h7 hn⟩
    · rw [encode_conflict e msg [] h7 hc] at h; cases h
  · rw [encode_explicit e msg [] h8] at h
    intro p hm
    obtain ⟨p1, p2, p3, p4⟩ := seg _ _ rfl rfl rfl h p hm
    exact ⟨p1, p2, p3, by rw [p4], fun _ => p4⟩

/-- C100: the TPDUs that `Encode` returns are as the options ask, the last word on each matter counting: address,
direction, message type and the fields that only a template can give.  Of the coding scheme only the alphabet
bits can differ, if its alphabet is GSM7; of the first octet only the header indicator; of the parameter indicator
only what is said of coding scheme and user data.  (For the header see C42, for the message reference C43, for the
user data C38.) -/
theorem C100_tpdus (os os' : List EncoderOption) (hk : MTIsKnown (os ++ os')) (msg : List UInt8) (r : Model.Sms.EncResult)
    (h : (Model.Sms.NewEncoder os).Encode msg os' = .ok r) (p : TPDU) (hp : p ∈ r.pdus) :
    let t := (lastSaid saysTemplate (os ++ os')).getD {}
    let d := (lastSaid saysDCS (os ++ os')).getD 0
    p.Direction = (lastSaid saysDirection (os ++ os')).getD 0 ∧ p.FirstOctet &&& 3 = (lastSaid saysMTI (os ++ os')).getD 0 ∧
    p.DA = (lastSaid saysDA (os ++ os')).getD {} ∧ p.OA = (lastSaid saysOA (os ++ os')).getD {} ∧
    p.DCS &&& 0xf3 = d &&& 0xf3 ∧ ((DCS.Alphabet d).1 ≠ .a7Bit → p.DCS = d) ∧
    p.FirstOctet &&& 0xbc = t.FirstOctet &&& 0xbc ∧ p.PI &&& 0xf9 = t.PI &&& 0xf9 ∧
    p.FCS = t.FCS ∧ p.CT = t.CT ∧ p.MN = t.MN ∧ p.RA = t.RA ∧ p.SCTS = t.SCTS ∧ p.DT = t.DT ∧ p.ST = t.ST ∧
    p.PID = t.PID ∧ p.VP = t.VP := by
  have hw : (Model.Sms.NewEncoder os).Encode msg os' = (Model.Sms.NewEncoder (os ++ os')).Encode msg [] := by
    unfold Model.Sms.Encoder.Encode Model.Sms.NewEncoder
    rw [List.foldl_append]
    rfl
  rw [hw] at h
  obtain ⟨h1, h2, h3, h4, h5⟩ := encode_keeps _ msg r h p hp
  have hs := said_mti_small _ hk
  rw [(C100_encoder _ hk).1] at h1 h2 h3 h4 h5
  generalize os ++ os' = xs at *
  unfold saidTemplate at h1 h2 h3 h4 h5
  simp only at h1 h2 h3 h4 h5
  have b1 : ∀ a b : UInt8, a &&& 0xbf = b &&& 0xbf → a &&& 3 = b &&& 3 ∧ a &&& 0xbc = b &&& 0xbc := by
    intro a b h
    have e1 : ∀ x : UInt8, x &&& 3 = (x &&& 0xbf) &&& 3 := by apply forall_u8; decide +kernel
    have e2 : ∀ x : UInt8, x &&& 0xbc = (x &&& 0xbf) &&& 0xbc := by apply forall_u8; decide +kernel
    rw [e1 a, e2 a, h, ← e1, ← e2]
    exact ⟨rfl, rfl⟩
  have b2 : ∀ m f : UInt8, m ≤ 3 → ((f &&& 0xfc) ||| m) &&& 3 = m ∧ ((f &&& 0xfc) ||| m) &&& 0xbc = f &&& 0xbc := by
    have : ∀ m : Fin 4, ∀ f : UInt8, ((f &&& 0xfc) ||| UInt8.ofNat m.val) &&& 3 = UInt8.ofNat m.val ∧
        ((f &&& 0xfc) ||| UInt8.ofNat m.val) &&& 0xbc = f &&& 0xbc := by
      intro m
      apply forall_u8
      revert m
      decide +kernel
    intro m f hm
    have h3 : m.toNat < 4 := by
      rw [UInt8.le_iff_toNat_le] at hm
      have : (3 : UInt8).toNat = 3 := rfl
      omega
    have := this ⟨m.toNat, h3⟩ f
    simpa using this
  have b3 : ∀ x : UInt8, (x ||| 2) &&& 0xf9 = x &&& 0xf9 ∧ (x ||| 0) &&& 0xf9 = x &&& 0xf9 := by apply forall_u8; decide +kernel
  obtain ⟨c1, c2⟩ := b1 _ _ h2
  obtain ⟨d1, d2⟩ := b2 _ ((lastSaid saysTemplate xs).getD {}).FirstOctet hs
  have hpi : p.PI &&& 0xf9 = ((lastSaid saysTemplate xs).getD {}).PI &&& 0xf9 := by
    rw [h3]
    split
    · exact (b3 _).1
    · exact (b3 _).2
  exact ⟨congrArg TPDU.Direction h1, c1.trans d1, congrArg TPDU.DA h1, congrArg TPDU.OA h1, h4, h5, c2.trans d2, hpi,
    by rw [h1], by rw [h1], by rw [h1], by rw [h1], by rw [h1],
    by rw [h1], by rw [h1], by rw [h1], by rw [h1]⟩

/-- Options in another order, given elsewhere, with a destination given before and overridden: the same is asked. -/
example : SameSaid ([Model.Sms.AsSubmit, .charsets .all] ++ [Model.Sms.To [0x31], Model.Sms.As8Bit, Model.Sms.To [0x32]])
      ([Model.Sms.As8Bit, Model.Sms.To [0x32]] ++ [.charsets .all, Model.Sms.AsDeliver, Model.Sms.AsSubmit]) ∧
    MTIsKnown ([Model.Sms.AsSubmit, .charsets .all] ++ [Model.Sms.To [0x31], Model.Sms.As8Bit, Model.Sms.To [0x32]]) := by
  refine ⟨⟨rfl, rfl, rfl, rfl, rfl, rfl, rfl, rfl, rfl⟩, ?_⟩
  intro m hm
  simp [Model.Sms.AsSubmit, Model.Sms.To, Model.Sms.As8Bit] at hm

/-- A template replaces all that was said before it, `AsSubmit` of `sms.Encode` too: a new TPDU is a deliver. -/
example : (Model.Sms.Encode [0x61] [Model.Sms.To [0x32], .template {}]).map (·.map fun p => (p.SmsType, p.DA)) =
    .ok [(SmsDeliver, {})] := by decide +kernel

/-- The last word does not count if a message type exceeds two bits: its other bits stay in the first octet. -/
theorem C100_counterexample :
    let wide : EncoderOption := .templateOption (.messageType 0x41)
    let known : EncoderOption := .templateOption (.messageType 1)
    SameSaid [wide, known] [known] ∧ ¬ MTIsKnown [wide, known] ∧
    ((Model.Sms.NewEncoder [wide, known]).Encode [0x61] []).map (·.pdus.map TPDU.FirstOctet) = .ok [0x41] ∧
    ((Model.Sms.NewEncoder [known]).Encode [0x61] []).map (·.pdus.map TPDU.FirstOctet) = .ok [0x01] := by
  refine ⟨⟨rfl, rfl, rfl, rfl, rfl, rfl, rfl, rfl, rfl⟩, ?_, by decide +kernel, by decide +kernel⟩
  intro h
  exact absurd (h 0x41 (by simp)) (by decide)

end Verif.Props
