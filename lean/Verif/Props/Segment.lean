import Verif.Model.Sms
import Verif.Proofs.SegText
import Verif.Proofs.SegFail

/-! C32-C37, C58: segmentation. -/

namespace Verif.Props
open Verif.Model Verif.Proofs Verif.Spec

/-- A template for the examples: an SMS-SUBMIT with the given coding scheme and header. -/
def submitT (dcs : UInt8) (udh : UDH) : TPDU := { Direction := 1, FirstOctet := 1, DCS := dcs, UDH := udh }

/-- C32: user data of `n` units and its header take at most 140 octets (after the length octet) exactly when
`n` is at most the block size. -/
theorem C32_exact (t : TPDU) (hst : t.SmsType = SmsSubmit ∨ t.SmsType = SmsDeliver) (e : List UInt8)
    (h : t.encodeUserData = .ok e) : e.length - 1 ≤ 140 ↔ (t.UD.length : Int) ≤ t.UDBlockSize := by
  have hb : baseSize t = 140 := by unfold baseSize; rw [if_pos hst]
  rw [blockSize_eq, hb]
  exact (encodeUserData_size t e h 140 rfl).1

/-- C32: the user data part always starts with one length octet, and only odd UCS-2 data or an undefined
coding group is refused. -/
theorem C32_encodes (t : TPDU) (ha : t.Alphabet.2 = none) (hu : t.Alphabet.1 = .ucs2 → t.UD.length % 2 = 0) :
    ∃ e, t.encodeUserData = .ok e ∧ 1 ≤ e.length := by
  unfold TPDU.encodeUserData
  generalize t.Alphabet = al at *
  obtain ⟨a, o⟩ := al
  simp only at ha hu
  subst ha
  simp only
  split
  · exact ⟨_, rfl, by simp⟩
  · rw [if_neg (fun h => by have := hu h.1; omega)]
    exact ⟨_, rfl, by simp⟩

example : (submitT 0 []).UDBlockSize = 160 ∧ (submitT 0 [⟨0, [1, 2, 1]⟩]).UDBlockSize = 153 ∧
    (submitT 4 [⟨0, [1, 2, 1]⟩]).UDBlockSize = 134 ∧ (submitT 8 [⟨8, [1, 2, 2, 1]⟩]).UDBlockSize = 132 := by decide

/-- C33: with room, segmentation returns TPDUs whose contents make up the message, each non-empty and within
its own block size. -/
theorem C33_pieces (t : TPDU) (msg : List UInt8) (cfg : SegCfg) (h : Room t cfg) :
    ∃ res, t.Segment msg cfg = .ok res ∧ content res.pdus = msg ∧
      ∀ p ∈ res.pdus, p.UD ≠ [] ∧ (p.UD.length : Int) ≤ p.UDBlockSize := by
  by_cases hne : msg = []
  · subst hne
    exact ⟨_, rfl, rfl, by simp⟩
  by_cases hbig : (msg.length : Int) ≤ t.UDBlockSize
  · have hl : ¬ msg.length = 0 := by simpa using hne
    refine ⟨_, by unfold TPDU.Segment; rw [if_neg hl]; simp only; rw [if_pos hbig], ?_, ?_⟩
    · cases cfg.mr <;> simp [content, setMR]
    · intro p hp
      cases hmr : cfg.mr <;> simp only [hmr, setMR, List.mem_singleton] at hp <;> subst hp <;> exact ⟨hne, hbig⟩
  · obtain ⟨res, cs, bs, h1, h2, h3, h4, h5, h6, h7, _⟩ := segment_pieces t msg cfg hne h hbig
    have hpos : 0 < msg.length := by
      have : ¬ msg.length = 0 := by simpa using hne
      omega
    refine ⟨res, h1, ?_, ?_⟩
    · unfold content
      rw [h6, h4, cuts_flatten msg h7 _ 0 (by omega)]
      rfl
    · intro p hp
      have hu : p.UD ∈ cs := by rw [← h6]; exact List.mem_map_of_mem hp
      rw [h4] at hu
      obtain ⟨l1, l2⟩ := cuts_length msg h7 _ 0 (by omega) hpos p.UD hu
      refine ⟨by intro h0; rw [h0] at l1; simp at l1, ?_⟩
      have hr : roundBlock t.Alphabet.1 bs ≤ bs := by
        cases t.Alphabet.1 <;> simp [roundBlock]
      have hps : p.UDBlockSize = (segTemplate t cfg).UDBlockSize := by
        rw [h5] at hp
        obtain ⟨i, hi, rfl⟩ := List.mem_mapIdx.mp hp
        exact segPdu_blockSize _ _ _ _ _
      rw [hps, h2]
      omega

/-- C33: a message that fits yields one TPDU carrying it; only UD and, with a counter, MR differ from the
template. -/
theorem C33_single (t : TPDU) (msg : List UInt8) (cfg : SegCfg) (hne : msg ≠ [])
    (h : (msg.length : Int) ≤ t.UDBlockSize) :
    ∃ res, t.Segment msg cfg = .ok res ∧ res.pdus = [{ t with UD := msg, MR := (match cfg.mr with
      | none => t.MR
      | some c => byteOf (c.vals c.pos)) }] := by
  have hl : ¬ msg.length = 0 := by simpa using hne
  refine ⟨_, by unfold TPDU.Segment; rw [if_neg hl]; simp only; rw [if_pos h], ?_⟩
  cases cfg.mr <;> simp [setMR, Counter.count]

/-- C33: an empty message yields no TPDUs, and takes nothing from the counters. -/
theorem C33_empty (t : TPDU) (cfg : SegCfg) : t.Segment [] cfg = .ok ⟨[], cfg.cr, cfg.mr⟩ := rfl

/-- C33: only a message that does not fit is split. -/
theorem C33_multi (t : TPDU) (msg : List UInt8) (cfg : SegCfg) (h : Room t cfg)
    (hbig : ¬ (msg.length : Int) ≤ t.UDBlockSize) (res : SegResult) (hr : t.Segment msg cfg = .ok res) :
    2 ≤ res.pdus.length := by
  have hmono := segTemplate_le t cfg
  have hne : msg ≠ [] := by
    rintro rfl
    have := h
    unfold Room at this
    simp at hbig; omega
  obtain ⟨res', h1, h2, h3⟩ := C33_pieces t msg cfg h
  rw [hr] at h1; cases h1
  obtain ⟨res'', cs, bs, g1, g2, g3, g4, g5, g6, g7, _⟩ := segment_pieces t msg cfg hne h hbig
  rw [hr] at g1; cases g1
  have hpieces := h3
  match hp : res.pdus with
  | [] => rw [hp] at h2; exact absurd h2.symm hne
  | _ :: _ :: _ => simp
  | [p] =>
    exfalso
    rw [hp] at h2 h3 g5
    have hud : p.UD = msg := by simpa [content] using h2
    have hle := (h3 p (by simp)).2
    rw [hud] at hle
    obtain ⟨i, hi, hpe⟩ := List.mem_mapIdx.mp (g5 ▸ List.mem_singleton_self p)
    rw [← hpe, segPdu_blockSize] at hle
    omega

example : Room (submitT 0 []) {} ∧ Room (submitT 8 [⟨0x24, [1]⟩]) { wide := true } ∧
    ¬ Room (submitT 8 [⟨0x70, List.replicate 130 0⟩]) {} := by decide +kernel

/-- C34: cutting positions never separate an escape from its septet nor the units of a pair.  For 7-bit
messages, provided escapes do not come in threes (which they do not in encoded text without U+001B,
`C34_text_partial`).  Missing: 7-bit messages with three escapes in a row, for which the statement is
false (`C34_counterexample`). -/
theorem C34_boundaries_partial (t : TPDU) (msg : List UInt8) (cfg : SegCfg) (h : Room t cfg)
    (hesc : t.Alphabet.1 = .a7Bit → NoTripleEsc msg) (res : SegResult) (hr : t.Segment msg cfg = .ok res)
    (pre suf : List TPDU) (hsplit : res.pdus = pre ++ suf) (hp : pre ≠ []) (hs : suf ≠ []) :
    ¬ SplitsChar t.Alphabet.1 (content pre) (content suf) := by
  by_cases hne : msg = []
  · subst hne
    cases hr
    have := hsplit.symm
    simp only [List.append_eq_nil_iff] at this
    exact absurd this.1 hp
  by_cases hbig : (msg.length : Int) ≤ t.UDBlockSize
  · obtain ⟨res', h1, h2⟩ := C33_single t msg cfg hne hbig
    rw [hr] at h1; cases h1
    exfalso
    rw [h2] at hsplit
    have := congrArg List.length hsplit
    rw [List.length_append] at this
    cases pre with
    | nil => exact hp rfl
    | cons _ _ =>
      cases suf with
      | nil => exact hs rfl
      | cons _ _ => simp at this; omega
  · obtain ⟨res', cs, bs, h1, h2, h3, h4, h5, h6, h7, _⟩ := segment_pieces t msg cfg hne h hbig
    rw [hr] at h1; cases h1
    refine cuts_not_split msg _ bs h3 ?_ (pre.map (·.UD)) (suf.map (·.UD)) ?_ (by simpa using hp) (by simpa using hs)
    · intro n1 n2
      apply hesc
      have := alphabet_ne_reserved t
      cases ha : t.Alphabet.1 <;> simp_all
    · rw [← h4, ← h6, hsplit, List.map_append]

/-- C34, for every message: a cut splits a character just when the message is in septets and the cut is after an odd
number of escapes, three or more. -/
theorem C34_exact (t : TPDU) (msg : List UInt8) (cfg : SegCfg) (h : Room t cfg)
    (res : SegResult) (hr : t.Segment msg cfg = .ok res)
    (pre suf : List TPDU) (hsplit : res.pdus = pre ++ suf) (hp : pre ≠ []) (hs : suf ≠ []) :
    SplitsChar t.Alphabet.1 (content pre) (content suf) ↔
      t.Alphabet.1 = .a7Bit ∧ EscapePending (content pre) ∧ ∃ p, content pre = p ++ [0x1b, 0x1b, 0x1b] := by
  have h7 : t.Alphabet.1 = .a7Bit → (SplitsChar t.Alphabet.1 (content pre) (content suf) ↔ EscapePending (content pre)) := by
    intro ha
    rw [ha]
    exact Iff.rfl
  refine ⟨fun hsp => ?_, fun ⟨ha, he, _⟩ => (h7 ha).2 he⟩
  by_cases hne : msg = []
  · subst hne
    cases hr
    have := hsplit.symm
    simp only [List.append_eq_nil_iff] at this
    exact absurd this.1 hp
  by_cases hbig : (msg.length : Int) ≤ t.UDBlockSize
  · obtain ⟨res', h1, h2⟩ := C33_single t msg cfg hne hbig
    rw [hr] at h1; cases h1
    exfalso
    rw [h2] at hsplit
    have := congrArg List.length hsplit
    rw [List.length_append] at this
    cases pre with
    | nil => exact hp rfl
    | cons _ _ =>
      cases suf with
      | nil => exact hs rfl
      | cons _ _ => simp at this; omega
  · obtain ⟨res', cs, bs, h1, h2, h3, h4, h5, h6, h7', _⟩ := segment_pieces t msg cfg hne h hbig
    rw [hr] at h1; cases h1
    obtain ⟨hu, w⟩ := cuts_split msg _ bs h3 (pre.map TPDU.UD) (suf.map TPDU.UD) (by rw [← h4, ← h6, hsplit, List.map_append])
      (by simpa using hp) (by simpa using hs) hsp
    have ha : t.Alphabet.1 = .a7Bit := by
      have := alphabet_ne_reserved t
      cases ha : t.Alphabet.1 <;> simp_all [SplitsChar]
    exact ⟨ha, (h7 ha).1 hsp, w⟩

/-- C34: 7-bit segments decode separately to the decoding of the whole, for every decoder. -/
theorem C34_decode7_partial (t : TPDU) (msg : List UInt8) (cfg : SegCfg) (h : Room t cfg)
    (ha : t.Alphabet.1 = .a7Bit) (hesc : NoTripleEsc msg) (d : Gsm7.Decoder) :
    ∃ res, t.Segment msg cfg = .ok res ∧
      d.Decode msg = (do let xs ← res.pdus.mapM (fun p => d.Decode p.UD); return xs.flatten) := by
  obtain ⟨res, hr, hc, _⟩ := C33_pieces t msg cfg h
  refine ⟨res, hr, ?_⟩
  have := pieces_decode d (res.pdus.map (·.UD)) (by
    intro pre suf e hp hs
    obtain ⟨a, b, e1, e2, e3⟩ := List.map_eq_append_iff.mp e
    have hb := C34_boundaries_partial t msg cfg h (fun _ => hesc) res hr a b e1
      (by rintro rfl; exact hp e2.symm) (by rintro rfl; exact hs e3.symm)
    rw [ha] at hb
    rw [← e2]
    exact hb)
  have hc' : (res.pdus.map (·.UD)).flatten = msg := hc
  rw [hc', List.mapM_map] at this
  exact this

/-- C34: encoded text without the control character U+001B has no adjacent escapes, so it can be segmented,
and decoding the segments gives the text.  (Text with U+001B does not even decode to itself whole.) -/
theorem C34_text_partial (l s : Int) (text msg : List UInt8)
    (he : Gsm7.Encode text [.charset l, .extCharset s] = .ok msg) (hesc : 0x1b ∉ text)
    (t : TPDU) (cfg : SegCfg) (h : Room t cfg) (ha : t.Alphabet.1 = .a7Bit) :
    NoTripleEsc msg ∧
    ∃ (res : SegResult) (xs : List (List UInt8)), t.Segment msg cfg = .ok res ∧
      res.pdus.map (fun p => Gsm7.Decode p.UD [.charset l, .extCharset s]) = xs.map .ok ∧ xs.flatten = text := by
  have hE : Gsm7.Encode text [.charset l, .extCharset s] =
      Gsm7.Encoder.loop ⟨Charset.NewEncoder l, Charset.NewExtEncoder s⟩ (Unicode.decodeRunes text) :=
    encoder_encode_eq _ text
  have hd : Gsm7.Decode msg [.charset l, .extCharset s] = .ok text :=
    (gsm7_roundtrip l s false text msg he).mpr hesc
  rw [hE] at he
  have hf := encode_text l s _ _ he
  have ht : Unicode.encodeRunes (Unicode.decodeRunes text) = text := encodeRunes_decodeRunes text hf
  have hn : 0x1b ∉ Unicode.decodeRunes text := by
    intro hm; apply hesc; rw [← ht, encodeRunes_mem_esc]; exact hm
  have hnt : NoTripleEsc msg :=
    noTriple_of_noDouble _ (encode_noDouble _ _ _ (locking_ok l) (shift_ok s) _ _ he hn)
  refine ⟨hnt, ?_⟩
  obtain ⟨res, h1, h2⟩ := C34_decode7_partial t msg cfg h ha hnt (Gsm7.NewDecoder [.charset l, .extCharset s])
  have hd' : (Gsm7.NewDecoder [.charset l, .extCharset s]).Decode msg = .ok text := hd
  rw [hd'] at h2
  obtain ⟨xs, hx, h3⟩ := bind_eq_ok.mp h2.symm
  refine ⟨res, xs, h1, ?_, by simpa [pure, Except.pure] using h3⟩
  have key : ∀ (ps : List TPDU) (xs : List (List UInt8)),
      ps.mapM (fun p => (Gsm7.NewDecoder [.charset l, .extCharset s]).Decode p.UD) = .ok xs →
      ps.map (fun p => Gsm7.Decode p.UD [.charset l, .extCharset s]) = xs.map .ok := by
    intro ps
    induction ps with
    | nil => intro xs h; cases h; rfl
    | cons p ps ih =>
      intro xs h
      rw [List.mapM_cons] at h
      obtain ⟨x, e1, h⟩ := bind_eq_ok.mp h
      obtain ⟨ys, e2, h⟩ := bind_eq_ok.mp h
      cases h
      rw [List.map_cons, List.map_cons, ih ys e2]
      exact congrArg (· :: _) e1
  exact key _ _ hx

/-- C34: UCS-2 text is cut into encodings of consecutive parts of the text, which decode without error. -/
theorem C34_ucs2 (t : TPDU) (rs : List Nat) (cfg : SegCfg) (h : Room t cfg) (ha : t.Alphabet.1 = .ucs2) :
    ∃ (res : SegResult) (rss : List (List Nat)), t.Segment (Ucs2.Encode rs) cfg = .ok res ∧ rss.flatten = rs ∧
      res.pdus.map (·.UD) = rss.map Ucs2.Encode ∧ ∀ p ∈ res.pdus, (Ucs2.Decode p.UD).err = none := by
  obtain ⟨res, hr, hc, _⟩ := C33_pieces t (Ucs2.Encode rs) cfg h
  have hc' : (res.pdus.map (·.UD)).flatten = Ucs2.Encode rs := hc
  obtain ⟨rss, h1, h2⟩ := pieces_encode (res.pdus.map (·.UD)) rs hc'.symm (by
    intro pre suf e hp hs
    obtain ⟨a, b, e1, e2, e3⟩ := List.map_eq_append_iff.mp e
    have hb := C34_boundaries_partial t _ cfg h (by rw [ha]; simp) res hr a b e1
      (by rintro rfl; exact hp e2.symm) (by rintro rfl; exact hs e3.symm)
    rw [ha] at hb
    rw [← e2, ← e3]
    exact hb)
  refine ⟨res, rss, hr, h1, h2, ?_⟩
  intro p hp
  have : p.UD ∈ rss.map Ucs2.Encode := by rw [← h2]; exact List.mem_map_of_mem hp
  obtain ⟨r, _, e⟩ := List.mem_map.mp this
  rw [← e]
  have hdec := (decode_ok_iff (Ucs2.Encode r) (r.map fun r => if Scalar r then r else 0xFFFD)).mpr (by
    unfold Ucs2.Encode
    have hlt : ∀ u ∈ r.flatMap Unicode.utf16EncodeRune, u < 65536 := by
      intro u hu
      obtain ⟨r, _, h⟩ := List.mem_flatMap.mp hu
      exact utf16EncodeRune_lt r u h
    refine ⟨by rw [putBE16_length]; omega, ?_⟩
    rw [units_putBE16 _ hlt]
    exact groups_encode r)
  rw [hdec]

/-- The contents of the segments. -/
def segContents (t : TPDU) (msg : List UInt8) : M (List (List UInt8)) :=
  (t.Segment msg {}).map fun r => r.pdus.map (·.UD)

theorem segContents_ok {t : TPDU} {msg : List UInt8} {cs : List (List UInt8)} (h : segContents t msg = .ok cs) :
    ∃ res, t.Segment msg {} = .ok res ∧ res.pdus.map (·.UD) = cs := by
  unfold segContents at h
  cases hs : t.Segment msg {} with
  | error f => rw [hs] at h; cases h
  | ok res => rw [hs] at h; exact ⟨res, rfl, by simpa [Except.map] using h⟩

/-- C34 is false for a run of three escapes: the cut falls between the third and the septet it shifts, and
the segments do not decode to what the whole decodes to. -/
theorem C34_counterexample :
    ∃ msg res a b, (submitT 0 []).Segment msg {} = .ok res ∧ res.pdus.map (·.UD) = [a, b] ∧ EscapePending a ∧
      Gsm7.Decode msg [] ≠ (do return (← Gsm7.Decode a []) ++ (← Gsm7.Decode b [])) := by
  obtain ⟨res, h1, h2⟩ := segContents_ok (t := submitT 0 [])
    (msg := List.replicate 150 0x61 ++ [0x1b, 0x1b, 0x1b, 0x65] ++ List.replicate 10 0x62)
    (cs := [List.replicate 150 0x61 ++ [0x1b, 0x1b, 0x1b], 0x65 :: List.replicate 10 0x62]) (by decide +kernel)
  exact ⟨_, res, _, _, h1, h2, by decide +kernel, by decide +kernel⟩

/-- A cut next to an escape is moved: the first segment is one septet short. -/
example : segContents (submitT 0 []) (List.replicate 152 0x61 ++ [0x1b, 0x65] ++ List.replicate 10 0x62) =
    .ok [List.replicate 152 0x61, [0x1b, 0x65] ++ List.replicate 10 0x62] := by decide +kernel

end Verif.Props
