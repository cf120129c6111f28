import Verif.Props.Segment

/-! C35-C37, C58: segmentation. -/

namespace Verif.Props
open Verif.Model Verif.Proofs Verif.Spec

/-- The reference number used by a multi-part message. -/
def concatRef (cfg : SegCfg) : Int :=
  match cfg.cr with
  | none => 1
  | some c => c.vals c.pos

/-- The concatenation element of segment `k` (counted from one) of `n`. -/
def concatIE (cfg : SegCfg) (n k : Nat) : IE :=
  let ref := (concatRef cfg % 65536).toNat
  if cfg.wide then ⟨8, [UInt8.ofNat (ref / 256), UInt8.ofNat ref, UInt8.ofNat n, UInt8.ofNat k]⟩
  else ⟨0, [UInt8.ofNat ref, UInt8.ofNat n, UInt8.ofNat k]⟩

theorem ofNat_mod (n : Nat) : UInt8.ofNat (n % 256) = UInt8.ofNat n := by
  apply UInt8.toNat_inj.mp; simp

theorem ief_eq (cfg : SegCfg) (n k : Nat) : cfg.ief (concatRef cfg) n (k + 1) = concatIE cfg n (k + 1) := by
  have e : ((k : Int) + 1) = ((k + 1 : Nat) : Int) := by omega
  unfold SegCfg.ief concatIE
  rw [e]
  split
  · simp [newInfoElement16bit, Ucs2.putBE16, byteOf_natCast, ofNat_mod, -Int.natCast_add]
  · simp only [newInfoElement, byteOf_natCast]
    congr 2
    unfold byteOf
    rw [← ofNat_mod ((concatRef cfg % 65536).toNat)]
    congr 1
    omega

/-- C36: a multi-part message: segment `k` is the template with the header extended by the concatenation
element, the header indicators (UDHI in the first octet, UDL in the parameter indicator) set, the
content, and, with a counter, the `k`-th message reference. -/
theorem C36_multi (t : TPDU) (msg : List UInt8) (cfg : SegCfg) (h : Room t cfg)
    (hbig : ¬ (msg.length : Int) ≤ t.UDBlockSize) :
    ∃ res, t.Segment msg cfg = .ok res ∧
      (∀ (k : Nat) (p : TPDU), res.pdus[k]? = some p → p = { t with
        FirstOctet := t.FirstOctet ||| 0x40
        PI := t.PI ||| 0x04
        MR := (match cfg.mr with | none => t.MR | some c => byteOf (c.vals (c.pos + k)))
        UDH := t.UDH ++ [concatIE cfg res.pdus.length (k + 1)]
        UD := p.UD }) ∧
      res.cr = cfg.cr.map (fun c => { c with pos := c.pos + 1 }) ∧
      res.mr = cfg.mr.map (fun c => { c with pos := c.pos + res.pdus.length }) := by
  have hne : msg ≠ [] := by
    rintro rfl
    have hm := segTemplate_le t cfg
    unfold Room at h
    simp at hbig; omega
  obtain ⟨res, cs, bs, h1, h2, h3, h4, h5, h6, h7, h8, h9⟩ := segment_pieces t msg cfg hne h hbig
  have hlen : res.pdus.length = cs.length := by rw [h5]; simp
  refine ⟨res, h1, ?_, h8, by rw [hlen]; exact h9⟩
  intro k p hk
  rw [hlen]
  rw [h5, List.getElem?_mapIdx] at hk
  cases hc : cs[k]? with
  | none => rw [hc] at hk; cases hk
  | some c =>
    rw [hc] at hk
    simp only [Option.map_some, Option.some.injEq] at hk
    rw [← hk]
    rw [← ief_eq]
    rfl

/-- C36: a message that fits: only UD and, with a counter, MR can differ from the template. -/
theorem C36_single (t : TPDU) (msg : List UInt8) (cfg : SegCfg) (res : SegResult) (hr : t.Segment msg cfg = .ok res)
    (hfit : (msg.length : Int) ≤ t.UDBlockSize) :
    ∀ p ∈ res.pdus, p = { t with UD := msg, MR := p.MR } ∧ (cfg.mr = none → p.MR = t.MR) := by
  by_cases hne : msg = []
  · subst hne; cases hr; simp
  · obtain ⟨res', h1, h2⟩ := C33_single t msg cfg hne hfit
    rw [hr] at h1; cases h1
    rw [h2]
    intro p hp
    simp only [List.mem_singleton] at hp
    subst hp
    exact ⟨rfl, fun h => by simp [h]⟩

theorem concatInfo_concatIE (udh : UDH) (cfg : SegCfg) (n k : Nat) (hw : cfg.wide = true → udh.ConcatInfo8 = none) :
    UDH.ConcatInfo (udh ++ [concatIE cfg n k]) =
      some ⟨n % 256, k % 256, (concatRef cfg % (if cfg.wide then 65536 else 256)).toNat⟩ := by
  unfold UDH.ConcatInfo
  rw [if_neg (by simp)]
  unfold concatIE
  cases hwide : cfg.wide with
  | false =>
    simp only [Bool.false_eq_true, if_false]
    have : UDH.IE (udh ++ [⟨0, [UInt8.ofNat (concatRef cfg % 65536).toNat, UInt8.ofNat n, UInt8.ofNat k]⟩]) 0 =
        some ⟨0, [UInt8.ofNat (concatRef cfg % 65536).toNat, UInt8.ofNat n, UInt8.ofNat k]⟩ := by
      simp [UDH.IE]
    unfold UDH.ConcatInfo8
    rw [this]
    simp only [UInt8.toNat_ofNat']
    congr 2
    omega
  | true =>
    simp only [if_true]
    have h8 := hw hwide
    have e1 : UDH.ConcatInfo8 (udh ++ [⟨8, [UInt8.ofNat ((concatRef cfg % 65536).toNat / 256), UInt8.ofNat (concatRef cfg % 65536).toNat,
        UInt8.ofNat n, UInt8.ofNat k]⟩]) = none := by
      rw [← h8]
      unfold UDH.ConcatInfo8
      have : ∀ ie : IE, ie.ID = 8 → UDH.IE (udh ++ [ie]) 0 = UDH.IE udh 0 := by
        intro ie h; simp [UDH.IE, h]
      rw [this _ rfl]
    rw [e1]
    have e2 : UDH.IE (udh ++ [⟨8, [UInt8.ofNat ((concatRef cfg % 65536).toNat / 256), UInt8.ofNat (concatRef cfg % 65536).toNat,
        UInt8.ofNat n, UInt8.ofNat k]⟩]) 8 = some ⟨8, [UInt8.ofNat ((concatRef cfg % 65536).toNat / 256), UInt8.ofNat (concatRef cfg % 65536).toNat,
        UInt8.ofNat n, UInt8.ofNat k]⟩ := by
      simp [UDH.IE]
    simp only [UDH.ConcatInfo16]
    rw [e2]
    simp only [be16_eq, UInt8.toNat_ofNat']
    congr 2
    omega

theorem segment_multi_info (t : TPDU) (msg : List UInt8) (cfg : SegCfg) (h : Room t cfg)
    (hw : cfg.wide = true → t.UDH.ConcatInfo8 = none) (hbig : ¬ (msg.length : Int) ≤ t.UDBlockSize) :
    ∃ res, t.Segment msg cfg = .ok res ∧ 2 ≤ res.pdus.length ∧
      ∀ (k : Nat) (p : TPDU), res.pdus[k]? = some p → p.UDHI = true ∧
        p.ConcatInfo = some ⟨res.pdus.length % 256, (k + 1) % 256,
          (concatRef cfg % (if cfg.wide then 65536 else 256)).toNat⟩ := by
  obtain ⟨res, h1, h2, _⟩ := C36_multi t msg cfg h hbig
  refine ⟨res, h1, C33_multi t msg cfg h hbig res h1, ?_⟩
  intro k p hk
  rw [h2 k p hk]
  refine ⟨?_, concatInfo_concatIE _ _ _ _ hw⟩
  have : ∀ o : UInt8, FirstOctet.UDHI (o ||| 0x40) = true := by apply forall_u8; decide +kernel
  exact this _

theorem completeLoop_ok (n r : Nat) (ps : List TPDU) : ∀ i,
    (∀ (k : Nat) (p : TPDU), ps[k]? = some p → p.ConcatInfo = some ⟨n, i + k + 1, r⟩) → Sms.completeLoop n r ps i = true := by
  induction ps with
  | nil => intro i _; rfl
  | cons p ps ih =>
    intro i h
    unfold Sms.completeLoop
    have h0 := h 0 p rfl
    rw [h0]
    simp only [ne_eq, not_true_eq_false, if_false, Nat.add_zero]
    exact ih (i + 1) (fun k q hk => by
      have := h (k + 1) q hk
      rw [this]; congr 2; omega)

/-- C35, partial: a message of 2 to 255 segments: the `k`-th reports `n` segments, number `k` and the shared
reference, the header indicator is set, and the segments are recognised as a complete message.
Missing: more than 255 segments, for which it is false (`C35_too_many`).  The template must not
contain an 8-bit concatenation element when 16-bit ones are used (`C35_counterexample_template`). -/
theorem C35_concat_partial (t : TPDU) (msg : List UInt8) (cfg : SegCfg) (h : Room t cfg)
    (hw : cfg.wide = true → t.UDH.ConcatInfo8 = none) (hbig : ¬ (msg.length : Int) ≤ t.UDBlockSize)
    (res : SegResult) (hr : t.Segment msg cfg = .ok res) (hn : res.pdus.length ≤ 255) :
    2 ≤ res.pdus.length ∧ Sms.IsCompleteMessage res.pdus = true ∧
    ∀ (k : Nat) (p : TPDU), res.pdus[k]? = some p → p.UDHI = true ∧
      p.ConcatInfo = some ⟨res.pdus.length, k + 1, (concatRef cfg % (if cfg.wide then 65536 else 256)).toNat⟩ := by
  obtain ⟨res', h1, h2, h3⟩ := segment_multi_info t msg cfg h hw hbig
  rw [hr] at h1; cases h1
  have h4 : ∀ (k : Nat) (p : TPDU), res.pdus[k]? = some p → p.UDHI = true ∧
      p.ConcatInfo = some ⟨res.pdus.length, k + 1, (concatRef cfg % (if cfg.wide then 65536 else 256)).toNat⟩ := by
    intro k p hk
    obtain ⟨a, b⟩ := h3 k p hk
    have hk' : k < res.pdus.length := by
      rw [List.getElem?_eq_some_iff] at hk
      exact hk.1
    rw [Nat.mod_eq_of_lt (by omega), Nat.mod_eq_of_lt (by omega)] at b
    exact ⟨a, b⟩
  refine ⟨h2, ?_, h4⟩
  unfold Sms.IsCompleteMessage
  match hp : res.pdus with
  | [] => rw [hp] at h2; simp at h2
  | p :: ps =>
    rw [hp] at h4
    simp only
    rw [(h4 0 p rfl).2]
    simp only [ne_eq, not_true_eq_false, if_false]
    exact completeLoop_ok _ _ _ 0 (fun k q hk => by rw [(h4 k q hk).2, Nat.zero_add])

/-- C35 is false of longer messages: with more than 255 segments the reported numbers are truncated, and the
segments are never recognised as a complete message. -/
theorem C35_too_many (t : TPDU) (msg : List UInt8) (cfg : SegCfg) (h : Room t cfg)
    (hw : cfg.wide = true → t.UDH.ConcatInfo8 = none) (hbig : ¬ (msg.length : Int) ≤ t.UDBlockSize)
    (res : SegResult) (hr : t.Segment msg cfg = .ok res) (hn : 255 < res.pdus.length) :
    Sms.IsCompleteMessage res.pdus = false := by
  obtain ⟨res', h1, h2, h3⟩ := segment_multi_info t msg cfg h hw hbig
  rw [hr] at h1; cases h1
  unfold Sms.IsCompleteMessage
  match hp : res.pdus with
  | [] => rfl
  | p :: ps =>
    rw [hp] at h3 hn
    simp only
    rw [(h3 0 p rfl).2]
    simp only
    rw [if_pos (by omega)]

theorem length_flatten_le (cs : List (List UInt8)) (b : Nat) (h : ∀ c ∈ cs, c.length ≤ b) :
    cs.flatten.length ≤ b * cs.length := by
  induction cs with
  | nil => simp
  | cons c cs ih =>
    rw [List.flatten_cons, List.length_append, List.length_cons, Nat.mul_add]
    have := h c (by simp)
    have := ih (fun c hc => h c (by simp [hc]))
    omega

/-- C35: such messages exist: 39016 septets with the default template. -/
theorem C35_counterexample : ∃ msg res, (submitT 0 []).Segment msg {} = .ok res ∧ 255 < res.pdus.length ∧
    Sms.IsCompleteMessage res.pdus = false := by
  have hroom : Room (submitT 0 []) {} := by decide
  have hbs : (submitT 0 []).UDBlockSize = 160 := by decide
  have hst : (segTemplate (submitT 0 []) {}).UDBlockSize = 153 := by decide
  have hbig : ¬ ((List.replicate 39016 (0x61 : UInt8)).length : Int) ≤ (submitT 0 []).UDBlockSize := by
    rw [hbs, List.length_replicate]; omega
  obtain ⟨res, cs, bs, h1, h2, h3, h4, h5, h6, h7, _⟩ :=
    segment_pieces (submitT 0 []) (List.replicate 39016 0x61) {}
      (fun h => by have := congrArg List.length h; rw [List.length_replicate] at this; cases this) hroom hbig
  obtain ⟨res', g1, g2, g3⟩ := C33_pieces (submitT 0 []) (List.replicate 39016 0x61) {} hroom
  rw [h1] at g1; cases g1
  have hle : ∀ c ∈ cs, c.length ≤ 153 := by
    intro c hc
    rw [← h6] at hc
    obtain ⟨p, hp, rfl⟩ := List.mem_map.mp hc
    have := (g3 p hp).2
    rw [h5] at hp
    obtain ⟨i, hi, rfl⟩ := List.mem_mapIdx.mp hp
    rw [segPdu_blockSize, hst] at this
    omega
  have hl := length_flatten_le cs 153 hle
  have hc : cs.flatten = List.replicate 39016 0x61 := by rw [← h6]; exact g2
  rw [hc, List.length_replicate] at hl
  have hn : 255 < res.pdus.length := by
    have : res.pdus.length = cs.length := by rw [h5]; simp
    omega
  exact ⟨_, res, h1, hn, C35_too_many _ _ _ hroom (by simp) hbig res h1 hn⟩

/-- C35: an 8-bit concatenation element already in the template hides the 16-bit ones. -/
theorem C35_counterexample_template : ∃ udh res p ps, (submitT 0 udh).Segment (List.replicate 161 0x61) { wide := true } = .ok res ∧
    res.pdus = p :: ps ∧ p.ConcatInfo = some ⟨7, 8, 9⟩ := by
  have hroom : Room (submitT 0 [⟨0, [9, 7, 8]⟩]) { wide := true } := by decide
  have hbig : ¬ ((List.replicate 161 (0x61 : UInt8)).length : Int) ≤ (submitT 0 [⟨0, [9, 7, 8]⟩]).UDBlockSize := by decide +kernel
  obtain ⟨res, h1, h2, _⟩ := C36_multi _ (List.replicate 161 0x61) _ hroom hbig
  have := C33_multi _ _ _ hroom hbig res h1
  match hp : res.pdus with
  | [] => rw [hp] at this; simp at this
  | p :: ps =>
    refine ⟨_, res, p, ps, h1, hp, ?_⟩
    rw [h2 0 p (by rw [hp]; rfl)]
    rfl

theorem concat8_hides (udh : UDH) (cfg : SegCfg) (n k : Nat) (hw : cfg.wide = true) (c : UDH.Concat)
    (h : udh.ConcatInfo8 = some c) : (udh ++ [concatIE cfg n k]).ConcatInfo = some c := by
  have h8 : UDH.ConcatInfo8 (udh ++ [concatIE cfg n k]) = some c := by
    rw [← h]
    unfold UDH.ConcatInfo8
    have : UDH.IE (udh ++ [concatIE cfg n k]) 0 = UDH.IE udh 0 := by
      have hid : (concatIE cfg n k).ID = 8 := by
        unfold concatIE
        rw [hw]; rfl
      simp [UDH.IE, hid]
    rw [this]
  unfold UDH.ConcatInfo
  rw [if_neg (by simp), h8]

/-- C35, exactly: the segments of a message that needs more than one are recognised as a complete message if and only
if there are at most 255 of them and, with 16-bit references, the template has no 8-bit concatenation element. -/
theorem C35_exact (t : TPDU) (msg : List UInt8) (cfg : SegCfg) (h : Room t cfg) (hbig : ¬ (msg.length : Int) ≤ t.UDBlockSize)
    (res : SegResult) (hr : t.Segment msg cfg = .ok res) :
    Sms.IsCompleteMessage res.pdus = true ↔ res.pdus.length ≤ 255 ∧ (cfg.wide = true → t.UDH.ConcatInfo8 = none) := by
  constructor
  · intro hc
    have hw : cfg.wide = true → t.UDH.ConcatInfo8 = none := by
      intro hw
      cases h8 : t.UDH.ConcatInfo8 with
      | none => rfl
      | some c =>
        exfalso
        obtain ⟨res', h1, h2, _⟩ := C36_multi t msg cfg h hbig
        rw [hr] at h1; cases h1
        have hlen := C33_multi t msg cfg h hbig res hr
        have hinfo : ∀ (k : Nat) (p : TPDU), res.pdus[k]? = some p → p.ConcatInfo = some c := by
          intro k p hk
          rw [h2 k p hk]
          exact concat8_hides _ _ _ _ hw c h8
        match hp : res.pdus with
        | [] => rw [hp] at hlen; simp at hlen
        | [_] => rw [hp] at hlen; simp at hlen
        | p :: q :: ps =>
          rw [hp] at hc hinfo
          have i0 := hinfo 0 p rfl
          have i1 := hinfo 1 q rfl
          unfold Sms.IsCompleteMessage at hc
          simp only [i0] at hc
          split at hc
          · cases hc
          rw [Sms.completeLoop, i0] at hc
          simp only [ne_eq, not_true_eq_false, if_false] at hc
          split at hc
          · cases hc
          rename_i s0
          rw [Sms.completeLoop, i1] at hc
          simp only [ne_eq, not_true_eq_false, if_false] at hc
          split at hc
          · cases hc
          rename_i s1
          have a := Decidable.not_not.1 s0
          have b := Decidable.not_not.1 s1
          omega
    refine ⟨?_, hw⟩
    by_cases hn : res.pdus.length ≤ 255
    · exact hn
    · have := C35_too_many t msg cfg h hw hbig res hr (by omega)
      rw [hc] at this; cases this
  · rintro ⟨hn, hw⟩
    exact (C35_concat_partial t msg cfg h hw hbig res hr hn).2.1

example : Room (submitT 0 []) {} ∧ ¬ ((List.replicate 161 (0x61 : UInt8)).length : Int) ≤ (submitT 0 []).UDBlockSize := by
  decide +kernel

/-- C37, partial: with room, segmentation returns.  Missing: templates whose header leaves less room, for
which it is false of some messages (`C37_exact`). -/
theorem C37_returns_partial (t : TPDU) (msg : List UInt8) (cfg : SegCfg) (h : Room t cfg) :
    ∃ res, t.Segment msg cfg = .ok res := by
  obtain ⟨res, h1, _⟩ := C33_pieces t msg cfg h
  exact ⟨res, h1⟩

/-- C37: SMS-SUBMIT and SMS-DELIVER templates with at most 129 octets of header have room. -/
theorem C37_submit_deliver (t : TPDU) (cfg : SegCfg) (hst : t.SmsType = SmsSubmit ∨ t.SmsType = SmsDeliver)
    (hu : hdrLen t.UDH ≤ 129) : Room t cfg := by
  unfold Room
  rw [blockSize_eq]
  have hb : baseSize (segTemplate t cfg) = 140 := by
    unfold baseSize
    have : (segTemplate t cfg).SmsType = t.SmsType := rfl
    rw [this, if_pos hst]
  have hh : hdrLen (segTemplate t cfg).UDH ≤ 136 := by
    show hdrLen (t.UDH ++ [cfg.ief 0 0 0]) ≤ 136
    have hi : (cfg.ief 0 0 0).Data.length ≤ 4 := by
      unfold SegCfg.ief; split <;> decide
    unfold hdrLen at *
    rw [if_neg (by simp)]
    rw [List.map_append, List.sum_append]
    simp only [List.map_cons, List.map_nil, List.sum_cons, List.sum_nil]
    split at hu
    · rename_i h; rw [h]; simp only [List.map_nil, List.sum_nil]; omega
    · omega
  have ha : (segTemplate t cfg).Alphabet = t.Alphabet := rfl
  rw [hb, ha]
  generalize hdrLen (segTemplate t cfg).UDH = h' at *
  cases t.Alphabet.1 <;> simp only [unitsLeft, minBlock] <;> omega

/-- C37: exactly when segmentation returns; otherwise it panics or loops forever.  Besides templates with
room: nothing to send, a message that fits, and messages that happen to need no character of two units. -/
theorem C37_exact (t : TPDU) (msg : List UInt8) (cfg : SegCfg) :
    let returns :=
      msg = [] ∨ (msg.length : Int) ≤ t.UDBlockSize ∨ Room t cfg ∨
      (t.Alphabet.1 = .a7Bit ∧ (segTemplate t cfg).UDBlockSize = 1 ∧ ∀ i, i + 1 < msg.length → msg[i]? ≠ some 0x1b) ∨
      (t.Alphabet.1 = .ucs2 ∧ (segTemplate t cfg).UDBlockSize = 2 ∧
        ∀ i u, 2 * i + 2 < msg.length → (units msg)[i]? = some u → ¬ HighSurrogate u)
    (returns → ∃ res, t.Segment msg cfg = .ok res) ∧ (¬ returns → ∃ k, t.Segment msg cfg = .error (.panic k)) := by
  intro returns
  by_cases hne : msg = []
  · exact ⟨fun _ => by subst hne; exact ⟨_, rfl⟩, fun h => absurd (.inl hne) h⟩
  by_cases hbig : (msg.length : Int) ≤ t.UDBlockSize
  · obtain ⟨res, h, _⟩ := C33_single t msg cfg hne hbig
    exact ⟨fun _ => ⟨res, h⟩, fun h => absurd (.inr (.inl hbig)) h⟩
  by_cases hroom : Room t cfg
  · exact ⟨fun _ => C37_returns_partial t msg cfg hroom, fun h => absurd (.inr (.inr (.inl hroom))) h⟩
  have hl : ¬ msg.length = 0 := by simpa using hne
  obtain ⟨hok, herr⟩ := segment_chunks t msg cfg hne hbig
  -- it is enough to know what chunking does
  have reduce : ((returns → ∃ cs, chunk msg t.Alphabet.1 (segTemplate t cfg).UDBlockSize = .ok cs) ∧
      (¬ returns → ∃ k, chunk msg t.Alphabet.1 (segTemplate t cfg).UDBlockSize = panicM k)) →
      (returns → ∃ res, t.Segment msg cfg = .ok res) ∧ (¬ returns → ∃ k, t.Segment msg cfg = .error (.panic k)) := by
    rintro ⟨r1, r2⟩
    refine ⟨fun h => ?_, fun h => ?_⟩
    · obtain ⟨cs, hcs⟩ := r1 h
      obtain ⟨res, h1, _⟩ := hok cs hcs
      exact ⟨res, h1⟩
    · obtain ⟨k, hk⟩ := r2 h
      exact ⟨k, herr _ hk⟩
  apply reduce
  have hret : returns ↔ ((t.Alphabet.1 = .a7Bit ∧ (segTemplate t cfg).UDBlockSize = 1 ∧ ∀ i, i + 1 < msg.length → msg[i]? ≠ some 0x1b) ∨
      (t.Alphabet.1 = .ucs2 ∧ (segTemplate t cfg).UDBlockSize = 2 ∧
        ∀ i u, 2 * i + 2 < msg.length → (units msg)[i]? = some u → ¬ HighSurrogate u)) :=
    ⟨fun h => by
      rcases h with h | h | h | h | h
      · exact absurd h hne
      · exact absurd h hbig
      · exact absurd h hroom
      · exact .inl h
      · exact .inr h, fun h => .inr (.inr (.inr h))⟩
  rw [hret]
  unfold Room at hroom
  have hres := alphabet_ne_reserved t
  have heven : t.Alphabet.1 = .ucs2 → (segTemplate t cfg).UDBlockSize % 2 = 0 := by
    intro ha
    rw [blockSize_eq]
    have : (segTemplate t cfg).Alphabet = t.Alphabet := rfl
    rw [this, ha]
    simp only [unitsLeft]; omega
  generalize (segTemplate t cfg).UDBlockSize = bs at *
  by_cases hbs : bs ≤ 0
  · refine ⟨fun h => ?_, fun _ => chunk_nonpos msg hne _ bs hbs⟩
    rcases h with h | h <;> omega
  · generalize t.Alphabet.1 = a at *
    cases a with
    | reserved => exact absurd rfl hres
    | a8Bit => simp only [minBlock] at hroom; omega
    | a7Bit =>
      simp only [minBlock] at hroom
      have : bs = 1 := by omega
      subst this
      obtain ⟨c1, c2⟩ := chunk7_one msg (msg.length + 1) 0 (by omega) (by omega) (.inl rfl)
      have hch : chunk msg .a7Bit 1 = chunk7Loop msg 1 (msg.length + 1) (0 : Nat) := by
        show chunk7Bit msg 1 = _
        unfold chunk7Bit
        rw [if_neg hl, show checkCount msg 1 = .ok () from checkCount_ok msg 1 (by omega)]; rfl
      rw [hch]
      refine ⟨fun h => c1 ?_, fun h => c2 (fun h' => h (.inl ⟨rfl, rfl, fun i hi => h' i (by omega) hi⟩))⟩
      rcases h with ⟨_, _, h⟩ | ⟨h, _⟩
      · exact fun i _ hi => h i hi
      · cases h
    | ucs2 =>
      simp only [minBlock] at hroom
      have := heven rfl
      have : bs = 2 := by omega
      subst this
      obtain ⟨c1, c2⟩ := chunkU_two msg (msg.length + 1) 0 (by omega) (by omega) rfl
      have hch : chunk msg .ucs2 2 = chunkUCS2Loop msg 2 (msg.length + 1) (0 : Nat) := by
        show chunkUCS2 msg 2 = _
        unfold chunkUCS2
        rw [if_neg hl]
        show (checkCount msg 2 >>= _) = _
        rw [show checkCount msg 2 = .ok () from checkCount_ok msg 2 (by omega)]; rfl
      rw [hch]
      have hu : (∀ x, 0 < x → x % 2 = 0 → x < msg.length → ¬ highBefore msg x) ↔
          (∀ i u, 2 * i + 2 < msg.length → (units msg)[i]? = some u → ¬ HighSurrogate u) := by
        constructor
        · intro h i u hi hu hh
          rw [units_getElem?] at hu
          split at hu
          · rename_i a b ha hb
            simp only [Option.some.injEq] at hu
            exact h (2 * i + 2) (by omega) (by omega) hi ⟨a, b, ha, hb, hu ▸ hh⟩
          · cases hu
        · rintro h x hx he hlt ⟨a, b, ha, hb, hh⟩
          refine h (x / 2 - 1) _ (by omega) ?_ hh
          rw [units_getElem?]
          have e1 : 2 * (x / 2 - 1) = x - 2 := by omega
          have e2 : 2 * (x / 2 - 1) + 1 = x - 1 := by omega
          rw [e2, e1, ha, hb]
      rw [hu] at c1 c2
      refine ⟨fun h => c1 ?_, fun h => c2 (fun h' => h (.inr ⟨rfl, rfl, h'⟩))⟩
      rcases h with ⟨h, _⟩ | ⟨_, _, h⟩
      · cases h
      · exact h

/-- C37 is false: a header that leaves no room makes segmentation panic, and one that leaves room for one
16-bit unit makes it loop forever on a surrogate pair. -/
theorem C37_counterexample :
    (∃ t : TPDU, t.Segment [1] {} = .error (.panic .slice)) ∧
    (∃ t : TPDU, t.Segment [0xd8, 0x3d, 0xde, 0x01, 0x00, 0x41, 0x00, 0x42] {} = .error (.panic .diverge)) := by
  refine ⟨⟨submitT 4 [⟨0x70, List.replicate 140 0⟩], ?_⟩, ⟨submitT 8 [⟨0x70, List.replicate 130 0⟩], ?_⟩⟩
  · exact (segment_chunks _ _ _ (by simp) (by decide +kernel)).2 _ (by decide +kernel)
  · exact (segment_chunks _ _ _ (by simp) (by decide +kernel)).2 _ (by decide +kernel)

/-- A type without a defined user data size (a reserved MTI) has no room, even without a header. -/
theorem C37_counterexample_type : ∃ t : TPDU, t.UDH = [] ∧ t.Segment [1] {} = .error (.panic .slice) :=
  ⟨{ Direction := 0, FirstOctet := 3, DCS := 4 }, rfl,
    (segment_chunks _ _ _ (by simp) (by decide +kernel)).2 _ (by decide +kernel)⟩

/-- C58, partial: no cutting of the message into pieces that fit a segment and do not split a character uses
fewer pieces.  For UCS-2 the message must be well formed in that high surrogates are followed by low
ones, as in encoded text (`C58_encoded`).  Missing: malformed UCS-2 messages, for which it is false
(`C58_counterexample`). -/
theorem C58_minimal_partial (t : TPDU) (msg : List UInt8) (cfg : SegCfg) (h : Room t cfg)
    (hu : t.Alphabet.1 = .ucs2 → Paired (units msg))
    (res : SegResult) (hr : t.Segment msg cfg = .ok res)
    (pieces : List (List UInt8)) (hc : pieces.flatten = msg)
    (hfit : ∀ p ∈ pieces, (p.length : Int) ≤ (segTemplate t cfg).UDBlockSize)
    (hns : ∀ pre suf, pieces = pre ++ suf → pre ≠ [] → suf ≠ [] →
      ¬ SplitsChar t.Alphabet.1 pre.flatten suf.flatten) :
    res.pdus.length ≤ pieces.length := by
  by_cases hne : msg = []
  · subst hne; cases hr; simp
  have hpos : 0 < pieces.length := by
    cases pieces with
    | nil => exact absurd hc.symm hne
    | cons _ _ => simp
  by_cases hbig : (msg.length : Int) ≤ t.UDBlockSize
  · obtain ⟨res', h1, h2⟩ := C33_single t msg cfg hne hbig
    rw [hr] at h1; cases h1
    rw [h2]; exact hpos
  obtain ⟨res', cs, bs, h1, h2, h3, h4, h5, h6, h7, _⟩ := segment_pieces t msg cfg hne h hbig
  rw [hr] at h1; cases h1
  have hlen : res.pdus.length = cs.length := by rw [h5]; simp
  rw [hlen, h4]
  have hml : 0 < msg.length := by
    have : ¬ msg.length = 0 := by simpa using hne
    omega
  have heven : t.Alphabet.1 = .ucs2 → bs % 2 = 0 := by
    intro ha
    rw [blockSize_eq] at h2
    have : (segTemplate t cfg).Alphabet = t.Alphabet := rfl
    rw [this, ha] at h2
    simp only [unitsLeft] at h2; omega
  have hround : roundBlock t.Alphabet.1 bs = bs := by
    cases ha : t.Alphabet.1 <;> simp only [roundBlock]
    have := heven ha
    omega
  rw [hround] at h7 ⊢
  have hgood : ∀ pre suf, pieces = pre ++ suf → pre ≠ [] → suf ≠ [] →
      ¬ SplitsChar t.Alphabet.1 (msg.take (0 + pre.flatten.length)) (msg.drop (0 + pre.flatten.length)) := by
    intro pre suf e hp hs
    have hfl : pre.flatten ++ suf.flatten = msg := by rw [← List.flatten_append, ← e]; exact hc
    obtain ⟨e1, e2⟩ := take_of_append _ _ _ hfl
    rw [Nat.zero_add, e1, e2]
    exact hns pre suf e hp hs
  have hle : ∀ p ∈ pieces, p.length ≤ bs := by
    intro p hp
    have := hfit p hp
    omega
  have hres := alphabet_ne_reserved t
  generalize t.Alphabet.1 = a at *
  cases a with
  | reserved => exact absurd rfl hres
  | a8Bit =>
    exact cuts_min (Q := fun _ => True) msg h7 (fun _ _ => trivial)
      (fun y => ¬ SplitsChar .a8Bit (msg.take y) (msg.drop y)) (fun _ _ _ _ _ hy => hy) _ 0 (by omega) trivial
      0 pieces (Nat.le_refl _) hml hc hle hgood
  | a7Bit =>
    simp only [minBlock] at h3
    exact cuts_min (Q := fun _ => True) msg h7 (fun _ _ => trivial)
      (fun y => ¬ SplitsChar .a7Bit (msg.take y) (msg.drop y))
      (fun b y _ hb hg hy => adj7_max msg (b + bs) y (by omega) (by omega) hg hy) _ 0 (by omega) trivial
      0 pieces (Nat.le_refl _) hml hc hle hgood
  | ucs2 =>
    simp only [minBlock] at h3
    have := heven rfl
    exact cuts_min msg h7 (adjU_even msg bs (heven rfl))
      (fun y => ¬ SplitsChar .ucs2 (msg.take y) (msg.drop y))
      (fun b y hq hb hg hy => adjU_max msg (hu rfl) (b + bs) y (by omega)
        (by have : b % 2 = 0 := hq
            omega) (by omega) hg hy) _ 0 (by omega) rfl
      0 pieces (Nat.le_refl _) hml hc hle hgood

/-- Encoded UCS-2 text is well formed. -/
theorem C58_encoded (rs : List Nat) : Paired (units (Ucs2.Encode rs)) := paired_encode rs

/-- C58: with 7-bit and 8-bit alphabets there is no condition on the message. -/
theorem C58_minimal_septets_octets (t : TPDU) (msg : List UInt8) (cfg : SegCfg) (h : Room t cfg)
    (hu : t.Alphabet.1 ≠ .ucs2) (res : SegResult) (hr : t.Segment msg cfg = .ok res)
    (pieces : List (List UInt8)) (hc : pieces.flatten = msg)
    (hfit : ∀ p ∈ pieces, (p.length : Int) ≤ (segTemplate t cfg).UDBlockSize)
    (hns : ∀ pre suf, pieces = pre ++ suf → pre ≠ [] → suf ≠ [] →
      ¬ SplitsChar t.Alphabet.1 pre.flatten suf.flatten) :
    res.pdus.length ≤ pieces.length :=
  C58_minimal_partial t msg cfg h (fun h => absurd h hu) res hr pieces hc hfit hns

/-- C58 is false of a message with an unpaired high surrogate at a block end: 3 segments are used, 2 do. -/
theorem C58_counterexample : ∃ a b res, (submitT 8 []).Segment (a ++ b) {} = .ok res ∧ res.pdus.length = 3 ∧
    (a.length : Int) ≤ (segTemplate (submitT 8 []) {}).UDBlockSize ∧
    (b.length : Int) ≤ (segTemplate (submitT 8 []) {}).UDBlockSize ∧ ¬ SplitsChar .ucs2 a b := by
  obtain ⟨res, h1, h2⟩ := segContents_ok (t := submitT 8 [])
    (msg := (List.replicate 132 0x41 ++ [0xd8, 0x00]) ++ List.replicate 134 0x41)
    (cs := [List.replicate 132 0x41, [0xd8, 0x00] ++ List.replicate 132 0x41, [0x41, 0x41]]) (by decide +kernel)
  refine ⟨_, _, res, h1, ?_, by decide +kernel, by decide +kernel, ?_⟩
  · have := congrArg List.length h2
    simpa using this
  · rintro (h | ⟨h, l, h1, h2, _, hl⟩)
    · simp at h
    · simp only [List.replicate_succ, units, List.head?_cons, Option.some.injEq] at h2
      subst h2
      revert hl
      unfold LowSurrogate
      decide

/-- The hypotheses are met: 7-bit, 306 septets cut 153 + 153. -/
example : Room (submitT 0 []) {} ∧ (segTemplate (submitT 0 []) {}).UDBlockSize = 153 ∧
    segContents (submitT 0 []) (List.replicate 306 0x61) = .ok [List.replicate 153 0x61, List.replicate 153 0x61] := by
  decide +kernel

end Verif.Props
