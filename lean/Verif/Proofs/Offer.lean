import Verif.Proofs.EncodeSms
import Verif.Spec.Offer

/-! Helper lemmas about how many TPDUs a text takes in septets and in UCS-2. -/

namespace Verif.Proofs.Offer
open Verif.Model Verif.Spec Verif.Proofs Verif.Props

/-- The tables offered, in order. -/
def tables : List Model.Sms.EncoderOption → List CharsetOpt
  | [] => []
  | .charsets o :: os => o :: tables os
  | _ :: os => tables os

theorem fold_tables (os : List Model.Sms.EncoderOption) : ∀ e1 e2 : Model.Sms.Encoder, e1.pdu = e2.pdu →
    (os.foldl Model.Sms.Encoder.apply e1).pdu = ((withoutCharsets os).foldl Model.Sms.Encoder.apply e2).pdu ∧
    (os.foldl Model.Sms.Encoder.apply e1).eopts = e1.eopts ++ tables os ∧
    ((withoutCharsets os).foldl Model.Sms.Encoder.apply e2).eopts = e2.eopts := by
  induction os with
  | nil => intro e1 e2 h; exact ⟨h, by simp [tables], rfl⟩
  | cons o os ih =>
    intro e1 e2 h
    cases o with
    | charsets c =>
      obtain ⟨a, b, d⟩ := ih (e1.apply (.charsets c)) e2 h
      refine ⟨a, ?_, d⟩
      rw [List.foldl_cons, b]
      simp [Model.Sms.Encoder.apply, tables]
    | template t =>
      obtain ⟨a, b, d⟩ := ih (e1.apply (.template t)) (e2.apply (.template t)) rfl
      exact ⟨a, b, d⟩
    | templateOption o =>
      have key : (e1.apply (.templateOption o)).pdu = (e2.apply (.templateOption o)).pdu ∧
          (e1.apply (.templateOption o)).eopts = e1.eopts ∧ (e2.apply (.templateOption o)).eopts = e2.eopts := by
        simp only [Model.Sms.Encoder.apply]
        rw [h]
        cases o.apply e2.pdu with
        | ok t => exact ⟨rfl, rfl, rfl⟩
        | error f => exact ⟨h, rfl, rfl⟩
      obtain ⟨a, b, d⟩ := ih (e1.apply (.templateOption o)) (e2.apply (.templateOption o)) key.1
      exact ⟨a, by rw [List.foldl_cons, b, key.2.1]; rfl, d.trans key.2.2⟩

/-- A character takes at most two septets. -/
theorem loop_length (e : Gsm7.Encoder) : ∀ (us : List Nat) (g : Bytes), e.loop us = .ok g → g.length ≤ 2 * us.length
  | [], g, h => by cases h; simp
  | u :: us, g, h => by
    unfold Gsm7.Encoder.loop at h
    split at h
    · obtain ⟨r, h1, h2⟩ := bind_eq_ok.1 h
      cases h2
      have := loop_length e us r h1
      simp only [List.length_cons]; omega
    · split at h
      · obtain ⟨r, h1, h2⟩ := bind_eq_ok.1 h
        cases h2
        have := loop_length e us r h1
        simp only [List.length_cons]; omega
      · cases h

/-- A character takes at least two octets of UCS-2. -/
theorem ucs2_length (rs : List Nat) : 2 * rs.length ≤ (Ucs2.Encode rs).length := by
  unfold Ucs2.Encode
  rw [putBE16_length]
  induction rs with
  | nil => simp
  | cons r rs ih =>
    rw [List.flatMap_cons, List.length_append, List.length_cons]
    have : 1 ≤ (Unicode.utf16EncodeRune r).length := by
      unfold Unicode.utf16EncodeRune; split
      · simp
      · split <;> simp
    omega

theorem ucs2_chunks (msg : Bytes) (bs : Nat) : ∀ (fuel b : Nat) (cs : List Bytes),
    chunkUCS2Loop msg bs fuel (b : Int) = .ok cs → msg.length ≤ b + bs * cs.length
  | 0, b, cs, h => by cases h
  | fuel + 1, b, cs, h => by
    unfold chunkUCS2Loop at h
    simp only at h
    split at h
    · obtain ⟨s, h1, h⟩ := bind_eq_ok.1 h
      obtain ⟨r, h2, h⟩ := bind_eq_ok.1 h
      obtain ⟨c, h3, h⟩ := bind_eq_ok.1 h
      have hx : (if 0xd800 ≤ r ∧ r < 0xdc00 then (b : Int) + bs - 2 else b + bs) ≤ b + bs := by split <;> omega
      generalize (if 0xd800 ≤ r ∧ r < 0xdc00 then (b : Int) + bs - 2 else b + bs) = x at h h3 hx
      by_cases hd : x = b
      · rw [if_pos hd] at h; cases h
      · rw [if_neg hd] at h
        obtain ⟨cs', h4, h⟩ := bind_eq_ok.1 h
        cases h
        rw [List.length_cons, Nat.mul_add]
        unfold slice at h3
        split at h3
        · rename_i hin
          obtain ⟨n, rfl⟩ : ∃ n : Nat, x = n := ⟨x.toNat, by omega⟩
          have := ucs2_chunks msg bs fuel _ cs' h4
          omega
        · cases h3
    · obtain ⟨c, h1, h⟩ := bind_eq_ok.1 h
      cases h
      simp only [List.length_cons, List.length_nil]
      omega

/-- UCS-2 segments hold at most `baseSize` octets each. -/
theorem ucs2_segments (t : TPDU) (msg : Bytes) (cfg : SegCfg) (ha : t.Alphabet.1 = .ucs2) (res : SegResult)
    (h : t.Segment msg cfg = .ok res) : msg.length ≤ baseSize t * res.pdus.length := by
  by_cases hne : msg = []
  · subst hne; simp
  have hle : t.UDBlockSize ≤ baseSize t := by
    rw [blockSize_eq, ha]; simp only [unitsLeft]; omega
  by_cases hbig : (msg.length : Int) ≤ t.UDBlockSize
  · obtain ⟨res', h1, h2⟩ := C33_single t msg cfg hne hbig
    rw [h] at h1; cases h1
    rw [h2]
    simp only [List.length_cons, List.length_nil]
    omega
  · obtain ⟨h1, h2⟩ := segment_chunks t msg cfg hne hbig
    have hs := segTemplate_le t cfg
    cases hc : chunk msg t.Alphabet.1 (segTemplate t cfg).UDBlockSize with
    | error f => rw [h2 f hc] at h; cases h
    | ok cs =>
      obtain ⟨res', e1, e2, _⟩ := h1 cs hc
      rw [h] at e1; cases e1
      have hlen : res.pdus.length = cs.length := by rw [e2]; simp
      rw [hlen]
      by_cases hp : (segTemplate t cfg).UDBlockSize ≤ 0
      · obtain ⟨k, hk⟩ := chunk_nonpos msg hne t.Alphabet.1 _ hp
        rw [hc] at hk; cases hk
      · rw [ha] at hc
        have hc : chunkUCS2 msg (segTemplate t cfg).UDBlockSize = .ok cs := hc
        unfold chunkUCS2 at hc
        rw [if_neg (by simpa using hne)] at hc
        obtain ⟨_, _, hc⟩ := bind_eq_ok.1 hc
        obtain ⟨bs, hbs⟩ : ∃ bs : Nat, (segTemplate t cfg).UDBlockSize - (segTemplate t cfg).UDBlockSize % 2 = bs :=
          ⟨((segTemplate t cfg).UDBlockSize - (segTemplate t cfg).UDBlockSize % 2).toNat, by omega⟩
        rw [hbs] at hc
        have := ucs2_chunks msg bs _ 0 cs hc
        have hb : bs ≤ baseSize t := by omega
        have := Nat.mul_le_mul_right cs.length hb
        omega

theorem cuts_count {adj bs} (msg : Bytes) (h : AdjOk adj bs) (hb : ∀ b, b + bs - 1 ≤ adj (b + bs)) :
    ∀ fuel b, msg.length - b < fuel → b < msg.length →
      ((cutsLoop adj bs msg fuel b).length - 1) * (bs - 1) + b < msg.length := by
  intro fuel
  induction fuel with
  | zero => intro b hb; omega
  | succ n ih =>
    intro b hf hlt
    obtain ⟨h1, h2⟩ := h b
    have h3 := hb b
    unfold cutsLoop
    split
    · have := ih (adj (b + bs)) (by omega) (by omega)
      have hne := cuts_ne (adj := adj) (bs := bs) msg n (adj (b + bs)) (by omega)
      generalize cutsLoop adj bs msg n (adj (b + bs)) = l at *
      cases l with
      | nil => exact absurd rfl hne
      | cons x xs =>
        simp only [List.length_cons, Nat.add_sub_cancel] at *
        rw [Nat.add_mul]; omega
    · simp; exact hlt

theorem adj7_back (msg : Bytes) (x : Nat) : x - 1 ≤ adj7 msg x := by
  unfold adj7; split <;> omega

/-- All septet segments but the last are filled, less one septet at most. -/
theorem septet_segments (t : TPDU) (msg : Bytes) (cfg : SegCfg) (ha : t.Alphabet.1 = .a7Bit) (hne : msg ≠ [])
    (hr : Room t cfg) (res : SegResult) (h : t.Segment msg cfg = .ok res) (B : Nat)
    (hB : (B : Int) + 1 ≤ (segTemplate t cfg).UDBlockSize) : (res.pdus.length - 1) * B < msg.length := by
  have hpos : 0 < msg.length := by
    have : ¬ msg.length = 0 := by simpa using hne
    omega
  by_cases hbig : (msg.length : Int) ≤ t.UDBlockSize
  · obtain ⟨res', h1, h2⟩ := C33_single t msg cfg hne hbig
    rw [h] at h1; cases h1
    rw [h2]
    simpa using hpos
  · obtain ⟨res', cs, bs, h1, h2, h3, h4, h5, h6, h7, _⟩ := segment_pieces t msg cfg hne hr hbig
    rw [h] at h1; cases h1
    have hlen : res.pdus.length = cs.length := by rw [h5]; simp
    rw [ha] at h4 h7
    have := cuts_count msg h7 (fun b => by
      exact adj7_back msg _) (msg.length + 1) 0 (by omega) hpos
    rw [← h4] at this
    rw [hlen]
    simp only [roundBlock] at this
    have hb : B ≤ bs - 1 := by omega
    have := Nat.mul_le_mul_left (cs.length - 1) hb
    omega

theorem header_len (L : Lang) : hdrLen L.header ≤ 7 := by
  obtain ⟨l, s⟩ := L
  cases l <;> cases s <;> simp [Lang.header, hdrLen]

theorem base_cases (t : TPDU) : baseSize t = 0 ∨ 131 ≤ baseSize t := by
  unfold baseSize
  repeat' split
  all_goals omega

end Verif.Proofs.Offer
