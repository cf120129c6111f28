import Verif.Spec.CutText
import Verif.Proofs.Sms

/-! C94: where septets are cut. -/

namespace Verif.Props
open Verif.Model Verif.Spec Verif.Proofs Verif.Model.Gsm7

/-- What the decoder makes of septets, after an escape or not. -/
def septetText (set ext : List (UInt8 × Nat)) : Bytes → Bool → Bytes
  | [], b => if b then [0x20] else []
  | g :: r, true => (if g = 0x1b then [0x20] else shiftedText set ext g) ++ septetText set ext r false
  | g :: r, false => if g = 0x1b then septetText set ext r true else plainText set g ++ septetText set ext r false

theorem loop_text (d : Decoder) (hd : d.strict = false) (src : Bytes) : ∀ b, d.loop src b = .ok (septetText d.set d.ext src b) := by
  induction src with
  | nil => intro b; cases b <;> rfl
  | cons g r ih =>
    intro b
    have he : Gsm7.esc = 0x1b := rfl
    cases b
    · by_cases hg : g = 0x1b
      · simp only [Decoder.loop, septetText, he, if_pos hg, ih]
      · simp only [Decoder.loop, septetText, plainText, he, if_neg hg, hd, ih, ok_bind]
        cases List.lookup g d.set <;> rfl
    · by_cases hg : g = 0x1b
      · simp only [Decoder.loop, septetText, he, if_pos hg, ih]; rfl
      · simp only [Decoder.loop, septetText, shiftedText, plainText, he, if_neg hg, hd, ih, ok_bind]
        cases List.lookup g d.ext
        · cases List.lookup g d.set <;> rfl
        · rfl

theorem septetText_append (set ext : List (UInt8 × Nat)) (a c : Bytes) : ∀ b, escAfter a b = false →
    septetText set ext (a ++ c) b = septetText set ext a b ++ septetText set ext c false := by
  induction a with
  | nil => intro b h; have : b = false := h; subst this; rfl
  | cons g a ih =>
    intro b h
    simp only [escAfter] at h
    cases b
    · simp only [Bool.false_eq_true, if_false] at h
      simp only [List.cons_append, septetText]
      by_cases hg : g = 0x1b
      · rw [if_pos hg, if_pos hg]
        exact ih true (by rw [← h]; simp [hg, Gsm7.esc])
      · rw [if_neg hg, if_neg hg, ih false (by rw [show (g == Gsm7.esc) = false by simpa [Gsm7.esc] using hg] at h; exact h), List.append_assoc]
    · simp only [if_true] at h
      simp only [List.cons_append, septetText]
      rw [ih false h, List.append_assoc]

theorem plainText_rune (set : List (UInt8 × Nat)) (g : UInt8) : ∃ r, plainText set g = Unicode.encodeRune r := by
  unfold plainText
  cases set.lookup g with
  | some m => exact ⟨m, rfl⟩
  | none => exact ⟨0x20, rfl⟩

theorem shiftedText_rune (set ext : List (UInt8 × Nat)) (g : UInt8) : ∃ r, shiftedText set ext g = Unicode.encodeRune r := by
  unfold shiftedText
  cases ext.lookup g with
  | some m => exact ⟨m, rfl⟩
  | none => exact plainText_rune set g

/-- One character is not two. -/
theorem shifted_ne (set ext : List (UInt8 × Nat)) (g : UInt8) : shiftedText set ext g ≠ 0x20 :: plainText set g := by
  obtain ⟨r, hr⟩ := shiftedText_rune set ext g
  obtain ⟨r', hr'⟩ := plainText_rune set g
  rw [hr, hr', encodeRune_sanitize r, encodeRune_sanitize r']
  intro h
  have := encodeRunes_inj [sanitize r] [0x20, sanitize r'] (by simp [sanitize_scalar]) (by simp [sanitize_scalar]; decide)
    (by
      simp only [Unicode.encodeRunes, List.flatMap_cons, List.flatMap_nil, List.append_nil]
      exact h)
  simp at this

/-- The two questions that lead to each other at every escape. -/
theorem same_after (set ext : List (UInt8 × Nat)) (b : Bytes) :
    (septetText set ext b true = 0x20 :: septetText set ext b false ↔ SameAfterEscape set ext b) ∧
    (septetText set ext b false = septetText set ext b true ↔ SameAfterEscape set ext (0x1b :: b)) := by
  induction b with
  | nil => exact ⟨by simp [septetText, SameAfterEscape], by simp [septetText, SameAfterEscape]⟩
  | cons g r ih =>
    have flip : ∀ r, SameAfterEscape set ext (0x1b :: 0x1b :: r) ↔ SameAfterEscape set ext r := by
      intro r
      unfold SameAfterEscape
      have e1 : (0x1b :: 0x1b :: r : Bytes).dropWhile (· == 0x1b) = r.dropWhile (· == 0x1b) := by simp
      have e2 : ((0x1b :: 0x1b :: r : Bytes).takeWhile (· == 0x1b)).length % 2 = (r.takeWhile (· == 0x1b)).length % 2 := by
        simp; omega
      rw [e1, e2]
    by_cases hg : g = 0x1b
    · subst hg
      constructor
      · rw [← ih.2]
        simp only [septetText, if_true, List.singleton_append, List.cons.injEq, true_and]
      · rw [flip, ← ih.1]
        simp only [septetText, if_true, List.singleton_append]
    · constructor
      · simp only [septetText, if_neg hg]
        rw [← List.cons_append, List.append_cancel_right_eq]
        refine ⟨fun h => absurd h (shifted_ne set ext g), fun h => ?_⟩
        unfold SameAfterEscape at h
        simp [hg] at h
      · simp only [septetText, if_neg hg]
        rw [List.append_cancel_right_eq]
        unfold SameAfterEscape
        simp [hg]
        exact eq_comm

theorem pending_last {a : Bytes} (h : EscapePending a) : ∃ a', a = a' ++ [0x1b] ∧ ¬ EscapePending a' := by
  unfold EscapePending at *
  rcases List.eq_nil_or_concat a with rfl | ⟨a', x, rfl⟩
  · simp at h
  · rw [List.concat_eq_append] at h ⊢
    rw [List.reverse_append, List.reverse_singleton, List.singleton_append, List.takeWhile_cons] at h
    by_cases hx : x = 0x1b
    · subst hx
      refine ⟨a', rfl, ?_⟩
      simp at h ⊢; omega
    · simp [hx] at h

/-- **C94** for a decoder with any tables: cutting septets in two gives the text of the whole exactly if the
cut is not after a pending escape, or it does not matter there. -/
theorem C94_decoder_exact (d : Decoder) (hd : d.strict = false) (a b : Bytes) :
    d.Decode (a ++ b) = (do let x ← d.Decode a; let y ← d.Decode b; return x ++ y) ↔
      ¬ EscapePending a ∨ SameAfterEscape d.set d.ext b := by
  simp only [decoder_decode_eq, loop_text d hd, ok_bind]
  show Except.ok _ = Except.ok _ ↔ _
  rw [Except.ok.injEq]
  by_cases hp : EscapePending a
  · obtain ⟨a', rfl, hp'⟩ := pending_last hp
    have he : escAfter a' false = false := by rw [escAfter_run]; exact decide_eq_false hp'
    rw [List.append_assoc, septetText_append _ _ _ _ _ he, septetText_append _ _ _ _ _ he, List.append_assoc, List.append_cancel_left_eq]
    refine Iff.trans ?_ ⟨fun h => .inr h, fun h => h.resolve_left (fun h => h hp)⟩
    rw [← (same_after d.set d.ext b).1]
    simp [septetText]
  · have he : escAfter a false = false := by rw [escAfter_run]; exact decide_eq_false hp
    rw [septetText_append _ _ _ _ _ he]
    simp [hp]

/-- The decoder for the header `udh`: the tables of the languages that it announces and the options permit. -/
def decoderOf (udh : UDH) (options : List CharsetOpt) : Decoder :=
  ⟨Charset.NewDecoder ((nliOf udh lockingIEI ((Model.Sms.decodeOpts options).foldl applyDecodeOption {}).locking).getD 0),
    Charset.NewExtDecoder ((nliOf udh shiftIEI ((Model.Sms.decodeOpts options).foldl applyDecodeOption {}).shift).getD 0), false⟩

theorem decode_septets (segs : List TPDU) (options : List CharsetOpt) (udh : UDH)
    (h : ∀ s ∈ segs, s.Alphabet.1 = .a7Bit ∧ decoderOf s.UDH options = decoderOf udh options) :
    Model.Sms.Decode segs options = .ok (segs.flatMap fun s => septetText (decoderOf udh options).set (decoderOf udh options).ext s.UD false) := by
  unfold Model.Sms.Decode
  induction segs with
  | nil => rfl
  | cons s ss ih =>
    obtain ⟨ha, hu⟩ := h s (by simp)
    have ih := ih fun x hx => h x (by simp [hx])
    rw [Model.Sms.decodeLoop]
    obtain ⟨t, h1, h2⟩ := Sms.decodeUserData_7bit s.UD s.UDH s.Alphabet.1 (Model.Sms.decodeOpts options) (by rw [ha]; decide) (by rw [ha]; decide)
    rw [decoder_decode_eq, loop_text _ rfl] at h2
    cases h2
    simp only [ne_eq, not_true_eq_false, if_false]
    rw [h1]
    simp only [ih, ok_bind, List.flatMap_cons]
    have e : decoderOf s.UDH options = _ := hu
    rw [← hu]
    rfl

/-- The headers announce the same languages, by the elements that the code takes for it (C95). -/
def SameLanguages (s t : TPDU) : Prop := s.UDH.IE 25 = t.UDH.IE 25 ∧ s.UDH.IE 24 = t.UDH.IE 24

theorem SameLanguages.decoder {s t : TPDU} (h : SameLanguages s t) (options : List CharsetOpt) : decoderOf s.UDH options = decoderOf t.UDH options := by
  have e : ∀ p, nliOf s.UDH lockingIEI p = nliOf t.UDH lockingIEI p ∧ nliOf s.UDH shiftIEI p = nliOf t.UDH shiftIEI p := by
    intro p
    unfold nliOf
    have h1 : s.UDH.IE lockingIEI = t.UDH.IE lockingIEI := h.1
    have h2 : s.UDH.IE shiftIEI = t.UDH.IE shiftIEI := h.2
    rw [h1, h2]; exact ⟨rfl, rfl⟩
  unfold decoderOf
  rw [(e _).1, (e _).2]

/-- **C94**: two segments of septets decode to the text of one TPDU `t` that has all the septets exactly if
the first does not end in a pending escape, or what follows the escape is the same without it. -/
theorem C94_exact (s s' t : TPDU) (options : List CharsetOpt)
    (ha : s.Alphabet.1 = .a7Bit) (ha' : s'.Alphabet.1 = .a7Bit) (hat : t.Alphabet.1 = .a7Bit)
    (hl : SameLanguages s t) (hl' : SameLanguages s' t) (hud : t.UD = s.UD ++ s'.UD) :
    Model.Sms.Decode [s, s'] options = Model.Sms.Decode [t] options ↔
      ¬ EscapePending s.UD ∨ SameAfterEscape (decoderOf t.UDH options).set (decoderOf t.UDH options).ext s'.UD := by
  rw [decode_septets [s, s'] options t.UDH (by simp [ha, ha', hl.decoder, hl'.decoder]), decode_septets [t] options t.UDH (by simp [hat]),
    ← C94_decoder_exact (decoderOf t.UDH options) rfl s.UD s'.UD]
  simp only [decoder_decode_eq, loop_text _ (show (decoderOf t.UDH options).strict = false from rfl), ok_bind, List.flatMap_cons, List.flatMap_nil, List.append_nil, hud]
  exact eq_comm

/-- C94: any number of segments of which none but the last ends in a pending escape decode to the text of the
whole, wherever the cuts are. -/
theorem C94_segments_partial (segs : List TPDU) (last t : TPDU) (options : List CharsetOpt)
    (ha : ∀ s ∈ segs ++ [last], s.Alphabet.1 = .a7Bit) (hat : t.Alphabet.1 = .a7Bit)
    (hl : ∀ s ∈ segs ++ [last], SameLanguages s t) (hud : t.UD = segs.flatMap TPDU.UD ++ last.UD)
    (hp : ∀ s ∈ segs, ¬ EscapePending s.UD) :
    Model.Sms.Decode (segs ++ [last]) options = Model.Sms.Decode [t] options := by
  rw [decode_septets (segs ++ [last]) options t.UDH (fun s hs => ⟨ha s hs, (hl s hs).decoder options⟩), decode_septets [t] options t.UDH (by simp [hat])]
  congr 1
  simp only [List.flatMap_append, List.flatMap_cons, List.flatMap_nil, List.append_nil, hud]
  clear ha hl hud
  induction segs with
  | nil => rfl
  | cons s ss ih =>
    have he : escAfter s.UD false = false := by rw [escAfter_run]; exact decide_eq_false (hp s (by simp))
    simp only [List.flatMap_cons, List.append_assoc]
    rw [septetText_append _ _ _ _ _ he, ← ih fun x hx => hp x (by simp [hx])]

/-- A cut between the escape and the septet that it shifts: the euro sign becomes " e". -/
theorem C94_counterexample : ∃ s s' t : TPDU, t.UD = s.UD ++ s'.UD ∧
    Model.Sms.Decode [t] [] = .ok [0xe2, 0x82, 0xac] ∧ Model.Sms.Decode [s, s'] [] = .ok [0x20, 0x65] :=
  ⟨{ UD := [0x1b] }, { UD := [0x65] }, { UD := [0x1b, 0x65] }, rfl, by decide +kernel, by decide +kernel⟩

/-- A cut after a pending escape that does not matter: what follows is an escape and a letter that is the same
shifted. -/
example : EscapePending [0x1b] ∧ SameAfterEscape Charset.DefaultDecoder Charset.DefaultExtDecoder [0x1b, 0x41] ∧
    Model.Sms.Decode [{ UD := [0x1b] }, { UD := [0x1b, 0x41] }] [] = Model.Sms.Decode [{ UD := [0x1b, 0x1b, 0x41] }] [] :=
  ⟨by decide, ⟨rfl, by decide +kernel⟩, by decide +kernel⟩

/-- Segments of one message that differ in their concatenation element meet the hypotheses. -/
example : ∃ s s' t : TPDU, s.Alphabet.1 = .a7Bit ∧ s'.Alphabet.1 = .a7Bit ∧ t.Alphabet.1 = .a7Bit ∧ SameLanguages s t ∧ SameLanguages s' t ∧
    s.UDH ≠ s'.UDH ∧ t.UD = s.UD ++ s'.UD ∧ ¬ EscapePending s.UD ∧ Model.Sms.Decode [t] [] = .ok [0x61, 0xe2, 0x82, 0xac] :=
  ⟨{ UDH := [⟨0, [1, 2, 1]⟩], UD := [0x61] }, { UDH := [⟨0, [1, 2, 2]⟩], UD := [0x1b, 0x65] }, { UD := [0x61, 0x1b, 0x65] },
    by decide, by decide, by decide, ⟨by decide, by decide⟩, ⟨by decide, by decide⟩, by decide, rfl, by decide, by decide +kernel⟩

end Verif.Props
