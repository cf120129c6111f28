import Verif.Proofs.Gsm7
import Verif.Spec.Chars

/-! C09-C12: GSM 7-bit text and its character set tables. -/

namespace Verif.Props
open Verif.Model Verif.Model.Gsm7 Verif.Model.Unicode Verif.Proofs Verif.Spec

/-- Options that only choose character sets. -/
def CharsetOptions (opts : List Option') : Prop := ∀ o ∈ opts, ∃ n, o = .charset n ∨ o = .extCharset n

/-- C09 (false of the code): ESC followed by 'e' is encoded as the escape sequence for the euro sign. -/
theorem C09_counterexample :
    ∃ text g text', Encode text [] = .ok g ∧ Decode g [] = .ok text' ∧ text' ≠ text :=
  ⟨[0x1b, 0x65], [0x1b, 0x65], [0xe2, 0x82, 0xac], by decide +kernel, by decide +kernel, by decide⟩

/-- C09, partial: for every choice of character sets, text without the control character U+001B that encodes
is decoded to itself.  Missing: text with U+001B, for which the statement is false. -/
theorem C09_roundtrip_partial (opts : List Option') (ho : CharsetOptions opts) (text g : List UInt8)
    (h : Encode text opts = .ok g) (hesc : 0x1b ∉ text) : Decode g opts = .ok text := by
  obtain ⟨l, s, e1, e2⟩ := plain_options opts ho
  unfold Encode at h
  unfold Decode
  rw [e1] at h
  rw [e2]
  exact (gsm7_roundtrip l s false text g h).mpr hesc

/-- C09: the exception is exact: text containing U+001B never round-trips. -/
theorem C09_exact (opts : List Option') (ho : CharsetOptions opts) (text g : List UInt8)
    (h : Encode text opts = .ok g) : Decode g opts = .ok text ↔ 0x1b ∉ text := by
  obtain ⟨l, s, e1, e2⟩ := plain_options opts ho
  unfold Encode at h
  unfold Decode
  rw [e1] at h
  rw [e2]
  exact gsm7_roundtrip l s false text g h

/-- "a€^" in the default alphabet, and U+0986 ("আ") with the Bengali locking table. -/
example : Encode [0x61, 0xe2, 0x82, 0xac, 0x5e] [] = .ok [0x61, 0x1b, 0x65, 0x1b, 0x14] ∧
    Decode [0x61, 0x1b, 0x65, 0x1b, 0x14] [] = .ok [0x61, 0xe2, 0x82, 0xac, 0x5e] := by decide +kernel
example : Encode [0xe0, 0xa6, 0x86] [.charset 4, .extCharset 4] = .ok [4] ∧
    CharsetOptions [.charset 4, .extCharset 4] :=
  ⟨by decide +kernel, by intro o h; simp at h; rcases h with rfl | rfl <;> simp⟩

/-- The character `r` has a septet in the table `d`. -/
def InTable (d : Charset.Decoder) (r : Nat) : Prop := ∃ g, (g, r) ∈ d

/-- C10: encoding succeeds exactly when every character is in the locking or the shift table. -/
theorem C10_succeeds (l s : Int) (text : List UInt8) :
    (∃ g, Encode text [.charset l, .extCharset s] = .ok g) ↔
      ∀ r ∈ decodeRunes text, InTable (Charset.NewDecoder l) r ∨ InTable (Charset.NewExtDecoder s) r := by
  have hE : Encode text [.charset l, .extCharset s] =
      Encoder.loop ⟨Charset.NewEncoder l, Charset.NewExtEncoder s⟩ (decodeRunes text) :=
    encoder_encode_eq _ text
  rw [hE]
  constructor
  · rintro ⟨g, h⟩ r hr
    rcases encoder_loop_ok _ _ g h r hr with h | h
    · obtain ⟨c, hc⟩ := Option.isSome_iff_exists.mp h
      exact .inl ⟨c, lookup_mem ((locking_ok l).sect _ _ hc).1⟩
    · obtain ⟨c, hc⟩ := Option.isSome_iff_exists.mp h
      exact .inr ⟨c, lookup_mem ((shift_ok s).sect _ _ hc).1⟩
  · intro h
    apply encoder_loop_complete
    intro r hr
    rcases h r hr with ⟨c, hc⟩ | ⟨c, hc⟩
    · obtain ⟨c', hc', _⟩ := (locking_ok l).total _ _ ((locking_ok l).mem _ _ hc)
      left; simp [hc']
    · obtain ⟨c', hc', _⟩ := (shift_ok s).total _ _ ((shift_ok s).mem _ _ hc)
      right; simp [hc']

/-- C10: the output is septets, one per character of the locking table and two per other character. -/
theorem C10_output (l s : Int) (text g : List UInt8) (h : Encode text [.charset l, .extCharset s] = .ok g) :
    (∀ b ∈ g, b.toNat < 128) ∧
    ∃ shifted : Nat → Bool, (∀ r, shifted r = false ↔ InTable (Charset.NewDecoder l) r) ∧
      g.length = (decodeRunes text).length + (decodeRunes text).countP shifted := by
  have hE : Encode text [.charset l, .extCharset s] =
      Encoder.loop ⟨Charset.NewEncoder l, Charset.NewExtEncoder s⟩ (decodeRunes text) :=
    encoder_encode_eq _ text
  rw [hE] at h
  obtain ⟨h1, h2⟩ := encoder_loop_septets ⟨Charset.NewEncoder l, Charset.NewExtEncoder s⟩
    (fun r g h => ((locking_ok l).sect r g h).2) (fun r g h => ((shift_ok s).sect r g h).2) _ g h
  refine ⟨h1, fun u => ((Charset.NewEncoder l).lookup u).isNone, ?_, ?_⟩
  · intro r
    constructor
    · intro h
      cases hc : (Charset.NewEncoder l).lookup r with
      | none => simp [hc] at h
      | some c => exact ⟨c, lookup_mem ((locking_ok l).sect _ _ hc).1⟩
    · rintro ⟨c, hc⟩
      obtain ⟨c', hc', _⟩ := (locking_ok l).total _ _ ((locking_ok l).mem _ _ hc)
      simp [hc']
  · rw [h2, List.countP_eq_length_filter]

/-- C10: on failure the error names the first unrepresentable character. -/
theorem C10_error (l s : Int) (text : List UInt8) (f : Fault)
    (h : Encode text [.charset l, .extCharset s] = .error f) :
    ∃ a r b, decodeRunes text = a ++ r :: b ∧
      (∀ v ∈ a, InTable (Charset.NewDecoder l) v ∨ InTable (Charset.NewExtDecoder s) v) ∧
      ¬ InTable (Charset.NewDecoder l) r ∧ ¬ InTable (Charset.NewExtDecoder s) r ∧
      f = .err (.gsm7InvalidUTF8 r) := by
  have hE : Encode text [.charset l, .extCharset s] =
      Encoder.loop ⟨Charset.NewEncoder l, Charset.NewExtEncoder s⟩ (decodeRunes text) :=
    encoder_encode_eq _ text
  rw [hE] at h
  obtain ⟨a, r, b, e1, e2, e3, e4, e5⟩ := encoder_loop_error _ _ f h
  refine ⟨a, r, b, e1, ?_, ?_, ?_, e5⟩
  · intro v hv
    rcases e2 v hv with h | h
    · obtain ⟨c, hc⟩ := Option.isSome_iff_exists.mp h
      exact .inl ⟨c, lookup_mem ((locking_ok l).sect _ _ hc).1⟩
    · obtain ⟨c, hc⟩ := Option.isSome_iff_exists.mp h
      exact .inr ⟨c, lookup_mem ((shift_ok s).sect _ _ hc).1⟩
  · rintro ⟨c, hc⟩
    obtain ⟨c', hc', _⟩ := (locking_ok l).total _ _ ((locking_ok l).mem _ _ hc)
    simp only at e3; rw [hc'] at e3; cases e3
  · rintro ⟨c, hc⟩
    obtain ⟨c', hc', _⟩ := (shift_ok s).total _ _ ((shift_ok s).mem _ _ hc)
    simp only at e4; rw [hc'] at e4; cases e4

example : Encode [0x61, 0xc4, 0x9f] [.charset 0, .extCharset 0] = .error (.err (.gsm7InvalidUTF8 0x11f)) := by
  decide +kernel
example : Encode [0x61, 0xc4, 0x9f] [.charset 0, .extCharset 1] = .ok [0x61, 0x1b, 0x67] := by decide +kernel

/-- C11: non-strict decoding, with any tables, succeeds on every byte string and yields valid UTF-8. -/
theorem C11_total (d : Decoder) (src : List UInt8) (hd : d.strict = false) :
    ∃ rs, (∀ r ∈ rs, isScalar r = true) ∧ d.Decode src = .ok (encodeRunes rs) := by
  rw [decoder_decode_eq]
  obtain ⟨rs, h1, h2⟩ := decoder_loop_total d hd src false
  exact ⟨rs, h2, h1⟩

/-- C11: strict decoding agrees with non-strict decoding, or reports a septet of the input that has no
mapping in the table consulted for it. -/
theorem C11_strict (d : Decoder) (src : List UInt8) :
    ({ d with strict := true }).Decode src = ({ d with strict := false }).Decode src ∨
    ∃ pre g post, src = pre ++ g :: post ∧ g ≠ 0x1b ∧
      ({ d with strict := true }).Decode src = fail (.gsm7InvalidSeptet g) ∧
      (if EscapePending pre then d.ext.lookup g = none else d.set.lookup g = none) := by
  rw [decoder_decode_eq, decoder_decode_eq]
  rcases strict_dichotomy d src false with h | ⟨pre, g, post, e1, e2, e3, e4⟩
  · exact .inl h
  · right
    refine ⟨pre, g, post, e1, e2, e3, ?_⟩
    rw [escAfter_run] at e4
    have hp : EscapePending pre ↔ (pre.reverse.takeWhile (· == Gsm7.esc)).length % 2 = 1 := Iff.rfl
    by_cases h : (pre.reverse.takeWhile (· == Gsm7.esc)).length % 2 = 1
    · rw [if_pos (hp.mpr h)]
      simp only [h, decide_true, if_true] at e4
      exact e4
    · rw [if_neg (fun x => h (hp.mp x))]
      simp only [h, decide_false] at e4
      simpa using e4

/-- After `pre` the septet `g` has no mapping in the table consulted for it. -/
def Unmapped (d : Decoder) (pre : List UInt8) (g : UInt8) : Prop :=
  g ≠ 0x1b ∧ if EscapePending pre then d.ext.lookup g = none else d.set.lookup g = none

theorem unmapped_iff (d : Decoder) (pre : List UInt8) (g : UInt8) :
    Unmapped d pre g ↔ UnmappedFrom d false pre g := by
  unfold Unmapped UnmappedFrom
  rw [escAfter_run]
  have hp : EscapePending pre ↔ (pre.reverse.takeWhile (· == Gsm7.esc)).length % 2 = 1 := Iff.rfl
  by_cases h : (pre.reverse.takeWhile (· == Gsm7.esc)).length % 2 = 1
  · rw [if_pos (hp.mpr h), if_pos (decide_eq_true h)]; rfl
  · rw [if_neg (fun x => h (hp.mp x)), if_neg (by simpa using h)]; rfl

/-- C11, exactly: strict decoding reports the first septet that has no mapping in the table consulted for it, and agrees
with non-strict decoding when there is none. -/
theorem C11_strict_exact (d : Decoder) (src : List UInt8) :
    ((∀ pre g post, src = pre ++ g :: post → ¬ Unmapped d pre g) →
      ({ d with strict := true }).Decode src = ({ d with strict := false }).Decode src) ∧
    ∀ pre g post, src = pre ++ g :: post → Unmapped d pre g →
      (∀ pre' g' post', pre = pre' ++ g' :: post' → ¬ Unmapped d pre' g') →
      ({ d with strict := true }).Decode src = fail (.gsm7InvalidSeptet g) := by
  simp only [unmapped_iff]
  rw [decoder_decode_eq, decoder_decode_eq]
  refine ⟨strict_clean d src false, ?_⟩
  rintro pre g post rfl hu hc
  exact strict_first d g post pre false hc hu

/-- C11: decoding is character by character: it may be cut anywhere an escape is not pending. -/
theorem C11_compositional (d : Decoder) (a b x y : List UInt8) (h : ¬ EscapePending a)
    (ha : d.Decode a = .ok x) (hb : d.Decode b = .ok y) : d.Decode (a ++ b) = .ok (x ++ y) := by
  rw [decoder_decode_eq] at *
  have he : escAfter a false = false := by
    rw [escAfter_run]; exact decide_eq_false h
  rw [decoder_loop_append d a b false he, ha, hb]
  rfl

/-- C11: the meaning of one character: a septet, or an escaped septet that falls back to the locking table;
unknown septets and double or dangling escapes are spaces. -/
theorem C11_character (d : Decoder) (hd : d.strict = false) (g : UInt8) (hg : g ≠ 0x1b) :
    d.Decode [g] = .ok (match d.set.lookup g with
      | some r => encodeRune r
      | none => [0x20]) ∧
    d.Decode [0x1b, g] = .ok (match d.ext.lookup g with
      | some r => encodeRune r
      | none => match d.set.lookup g with
        | some r => encodeRune r
        | none => [0x20]) ∧
    d.Decode [0x1b] = .ok [0x20] ∧ d.Decode [0x1b, 0x1b] = .ok [0x20] := by
  have hg' : ¬ g = esc := hg
  have he : (0x1b : UInt8) = esc := rfl
  refine ⟨?_, ?_, ?_, ?_⟩
  · rw [decoder_decode_eq]
    simp only [Decoder.loop, if_neg hg', hd]
    cases d.set.lookup g <;> simp [sp]
  · rw [decoder_decode_eq]
    simp only [Decoder.loop, he, if_neg hg', if_true, hd]
    cases d.ext.lookup g
    · cases d.set.lookup g <;> simp [sp]
    · simp
  · rw [decoder_decode_eq]; simp [Decoder.loop, he, sp]
  · rw [decoder_decode_eq]; simp [Decoder.loop, he, sp]

example : (NewDecoder [.strict]).Decode [0x61, 0x1b, 0x65, 0x1b, 0x61] = fail (.gsm7InvalidSeptet 0x61) := by
  decide +kernel
example : ¬ EscapePending [0x1b, 0x65, 0x1b, 0x1b] ∧ EscapePending [0x65, 0x1b] := by decide

/-- C12: encoding a character and looking the septet up gives the character back, with septets below 0x80. -/
theorem C12_section (nli : Int) (r : Nat) (g : UInt8) :
    ((Charset.NewEncoder nli).lookup r = some g → (Charset.NewDecoder nli).lookup g = some r ∧ g.toNat < 128) ∧
    ((Charset.NewExtEncoder nli).lookup r = some g → (Charset.NewExtDecoder nli).lookup g = some r ∧ g.toNat < 128) :=
  ⟨(locking_ok nli).sect r g, (shift_ok nli).sect r g⟩

/-- C12: every character a decoder can produce is encoded, by the least of its septets. -/
theorem C12_complete (nli : Int) (r : Nat) (g : UInt8) :
    ((Charset.NewDecoder nli).lookup g = some r → ∃ g', (Charset.NewEncoder nli).lookup r = some g' ∧ g' ≤ g) ∧
    ((Charset.NewExtDecoder nli).lookup g = some r → ∃ g', (Charset.NewExtEncoder nli).lookup r = some g' ∧ g' ≤ g) :=
  ⟨(locking_ok nli).total g r, (shift_ok nli).total g r⟩

/-- C12: decoder tables are maps (no septet has two entries), of characters, and only the escape septet is
mapped to U+001B. -/
theorem C12_functional (nli : Int) (r : Nat) (g : UInt8) :
    ((g, r) ∈ Charset.NewDecoder nli → (Charset.NewDecoder nli).lookup g = some r ∧ isScalar r = true ∧
      (g = 0x1b ↔ r = 0x1b)) ∧
    ((g, r) ∈ Charset.NewExtDecoder nli → (Charset.NewExtDecoder nli).lookup g = some r ∧ isScalar r = true ∧
      (g = 0x1b ↔ r = 0x1b)) := by
  constructor
  · intro h
    have := (locking_ok nli).mem g r h
    exact ⟨this, ((locking_ok nli).scalar g r this).1, (locking_ok nli).esc g r this⟩
  · intro h
    have := (shift_ok nli).mem g r h
    exact ⟨this, ((shift_ok nli).scalar g r this).1, (shift_ok nli).esc g r this⟩

/-- C12: unknown identifiers behave as the default alphabet. -/
theorem C12_unknown (nli : Int) (h : nli < 0 ∨ 13 < nli) :
    Charset.NewDecoder nli = Charset.DefaultDecoder ∧ Charset.NewEncoder nli = Charset.DefaultEncoder ∧
    Charset.NewExtDecoder nli = Charset.DefaultExtDecoder ∧
    Charset.NewExtEncoder nli = Charset.DefaultExtEncoder :=
  newDecoder_unknown nli h

/-- C12: the generated encoder does not depend on the order in which the decoder map is traversed. -/
theorem C12_order (d1 d2 : Charset.Decoder) (h : d1.Perm d2) (r : Nat) :
    (Charset.generateEncoder d1).lookup r = (Charset.generateEncoder d2).lookup r :=
  generate_perm h r [] [] rfl

example : (Charset.NewExtDecoder 4).lookup 24 = some 42 ∧ (Charset.NewExtDecoder 4).lookup 11 = some 42 ∧
    (Charset.NewExtEncoder 4).lookup 42 = some 11 := by decide +kernel

end Verif.Props
