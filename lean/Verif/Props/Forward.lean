import Verif.Props.WireExact
import Verif.Props.TextsExact

/-! C117: a text that was received can be sent on, any number of times. -/

namespace Verif.Props
open Verif.Model Verif.Spec Verif.Proofs

/-- One stretch of the way of a text: who sends it submits it to a number, with tables that may be used, and who receives
it decodes it with options of their own. -/
structure Stretch where
  digits : List UInt8
  tables : List CharsetOpt
  dopts : List CharsetOpt

/-- The number has up to 255 digits, and who receives knows the tables that may be used. -/
structure Stretch.Fine (g : Stretch) : Prop where
  digits : Digits g.digits
  len : g.digits.length ≤ 255
  tables : Matching g.tables g.dopts

/-- The text is encoded, the TPDUs are marshalled, unmarshalled and decoded, and that is the new text. -/
def Stretch.Takes (g : Stretch) (text text' : List UInt8) : Prop :=
  ∃ pdus, Sms.Encode text (Sms.To g.digits :: g.tables.map .charsets) = .ok pdus ∧
    Arrives SmsSubmit ⟨0x91, g.digits⟩ pdus g.dopts text'

/-- The text is sent on from stretch to stretch. -/
inductive Forwarded : List Stretch → List UInt8 → List UInt8 → Prop
  | nil {text} : Forwarded [] text text
  | cons {g gs text text' text''} : g.Takes text text' → Forwarded gs text' text'' → Forwarded (g :: gs) text text''

/-! Helpers. -/

theorem takes_unique {g : Stretch} {text x y : List UInt8} (h : g.Takes text x) (h' : g.Takes text y) : x = y := by
  obtain ⟨p, e1, q, s1, d1, _⟩ := h
  obtain ⟨p', e2, q', s2, d2, _⟩ := h'
  rw [e1] at e2; cases e2
  have := sent_unique _ _ _ s1 s2
  subst this
  rw [d1] at d2
  exact Except.ok.inj d2

/-- What comes out of one stretch, for any octets. -/
theorem takes_some (g : Stretch) (hg : g.Fine) (text : List UInt8) : ∃ out, g.Takes text out ∧ Utf8 out ∧
    (InSeptets g.tables text → 0x1b ∉ out) ∧
    (¬ InSeptets g.tables text → out = Unicode.encodeRunes (Unicode.decodeRunes text)) ∧
    (Utf8 text → (InSeptets g.tables text → 0x1b ∉ text) → out = text) := by
  obtain ⟨a, ha, _⟩ := C41_chosen 0 g.tables text
  have hplus : g.digits.head? ≠ some 0x2b := by
    intro h
    have : (0x2b : UInt8) ∈ g.digits := by
      cases hd : g.digits with
      | nil => rw [hd] at h; cases h
      | cons x xs => rw [hd] at h; cases h; simp
    exact absurd (hg.digits _ this) (by decide)
  have hnum : Address.NewFromNumber g.digits = ⟨0x91, g.digits⟩ := (C57_number g.digits hplus).2.2.1
  have hty : ({ Direction := MO, FirstOctet := 1, DA := ⟨0x91, g.digits⟩ } : TPDU).SmsType = SmsSubmit := by
    show smsType (FirstOctet.MTI 1) MO = SmsSubmit
    decide
  have hp : peer { Direction := MO, FirstOctet := 1, DA := ⟨0x91, g.digits⟩ } = ⟨0x91, g.digits⟩ := by
    unfold peer; rw [if_pos hty]
  have hca : CanCarry (group 0) a := by cases ha <;> decide
  have h7 : (DCS.Alphabet 0).1 = .a7Bit := by decide
  let e : Model.Sms.Encoder := ⟨g.tables, { Direction := MO, FirstOctet := 1, DA := ⟨0x91, g.digits⟩ },
    Model.Sms.newCounter, Model.Sms.newCounter⟩
  have hst : (callTemplate e []).SmsType ∈ smsTypes := by
    show ({ Direction := MO, FirstOctet := 1, DA := ⟨0x91, g.digits⟩ } : TPDU).SmsType ∈ smsTypes
    rw [hty]; decide
  obtain ⟨r, out, h1, h2, h3, h4, h5, _⟩ := auto_decodes e text [] g.dopts a hst (Nat.zero_le _) h7 ha hca
  have h6 := auto_arrives e text [] g.dopts out
    (.submit rfl (by show FirstOctet.MTI 1 = 1; decide)
      (.inl ⟨by show ((0x91 : UInt8) >>> 4) &&& 0x07 ≠ 5; decide, hg.digits, hg.len⟩)
      .absent (by show FirstOctet.VPF 1 = VpfNotPresent; decide))
    (Nat.zero_le _) (by show FirstOctet.UDHI 1 = true ↔ ([] : UDH) ≠ []; decide) rfl h7 r h1 h2
  refine ⟨out, ⟨r.pdus, ?_, ?_⟩, h3, ?_, ?_, ?_⟩
  · unfold Model.Sms.Encode
    rw [submit_encoder, hnum, h1]
    rfl
  · have : Arrives ({ Direction := MO, FirstOctet := 1, DA := ⟨0x91, g.digits⟩ } : TPDU).SmsType
        (peer { Direction := MO, FirstOctet := 1, DA := ⟨0x91, g.digits⟩ }) r.pdus g.dopts out := h6
    rw [hty, hp] at this
    exact this
  · intro hin
    apply h4
    cases ha with
    | septets => rfl
    | octets h => cases h
    | ucs2 h => cases h
    | fallback _ h => exact absurd hin h
  · intro hin
    apply h5
    cases ha with
    | septets _ h => exact absurd h hin
    | octets h => cases h
    | ucs2 h => rfl
    | fallback _ h => rfl
  · intro hu hesc
    obtain ⟨r', k1, k2⟩ := (C38_exact e text [] g.dopts a hst (Nat.zero_le _) h7 ha hg.tables (by intro _ ie hie; cases hie)).2
      ⟨hca, hu, by
        intro h
        apply hesc
        subst h
        cases ha with
        | septets _ h => exact h⟩
    rw [h1] at k1
    have := Except.ok.inj k1
    subst this
    rw [h2] at k2
    exact Except.ok.inj k2

/-- A text that each stretch leaves alone arrives as it is, and as nothing else. -/
theorem forwarded_fixed (text : List UInt8) : ∀ (gs : List Stretch), (∀ g ∈ gs, g.Takes text text) →
    ∀ text', Forwarded gs text text' ↔ text' = text := by
  intro gs
  induction gs with
  | nil =>
    intro _ text'
    constructor
    · intro h; cases h; rfl
    · rintro rfl; exact .nil
  | cons g gs ih =>
    intro h text'
    have hi := ih (fun x hx => h x (by simp [hx])) text'
    constructor
    · intro hf
      cases hf with
      | cons h1 h2 =>
        have := takes_unique h1 (h g (by simp))
        subst this
        exact hi.1 h2
    · rintro rfl
      exact .cons (h g (by simp)) (hi.2 rfl)

/-! The properties. -/

/-- C117: whatever TPDUs a text was decoded from, of any sender, if they were not 8-bit data and U+001B is not in the text,
then it can be sent on over any number of stretches, with whatever tables each of them uses, and what arrives is that text
and nothing else. -/
theorem C117_received (segs : List TPDU) (dopts : List CharsetOpt) (text : List UInt8) (h8 : ∀ s ∈ segs, s.Alphabet.1 ≠ .a8Bit)
    (hd : Sms.Decode segs dopts = .ok text) (hesc : 0x1b ∉ text) (gs : List Stretch) (hg : ∀ g ∈ gs, g.Fine) (text' : List UInt8) :
    Forwarded gs text text' ↔ text' = text := by
  refine forwarded_fixed text gs (fun g hgs => ?_) text'
  obtain ⟨out, h1, _, _, _, h2⟩ := takes_some g (hg g hgs) text
  rw [h2 (C79_utf8 segs dopts text h8 hd) (fun _ => hesc)] at h1
  exact h1

/-- C117: in particular whatever was decoded from septets. -/
theorem C117_septets (segs : List TPDU) (dopts : List CharsetOpt) (text : List UInt8) (h7 : ∀ s ∈ segs, s.Alphabet.1 = .a7Bit)
    (hd : Sms.Decode segs dopts = .ok text) (gs : List Stretch) (hg : ∀ g ∈ gs, g.Fine) (text' : List UInt8) :
    Forwarded gs text text' ↔ text' = text :=
  C117_received segs dopts text (fun s hs => by rw [h7 s hs]; decide) hd (C38_no_escape segs dopts text h7 hd) gs hg text'

/-- C117 for any octets, whether they are text or not: over the first stretch they may change, but from there the same
stretch, any number of times, changes nothing. -/
theorem C117_settles (g : Stretch) (hg : g.Fine) (text : List UInt8) :
    ∃ out, g.Takes text out ∧ ∀ (n : Nat) (text' : List UInt8), Forwarded (List.replicate (n + 1) g) text text' ↔ text' = out := by
  obtain ⟨out, h1, hu, h2, h3, _⟩ := takes_some g hg text
  refine ⟨out, h1, ?_⟩
  have hfix : g.Takes out out := by
    obtain ⟨out', k1, _, _, _, k2⟩ := takes_some g hg out
    rw [k2 hu ?_] at k1
    · exact k1
    · by_cases hin : InSeptets g.tables text
      · exact fun _ => h2 hin
      · intro hin'
        refine absurd ?_ hin
        have hr : Unicode.decodeRunes out = Unicode.decodeRunes text := by
          rw [h3 hin, decodeRunes_encodeRunes _ (decodeRunes_scalar text)]
        rcases hin' with h | ⟨L, hL, h⟩
        · exact .inl (by unfold Representable at h ⊢; rw [hr] at h; exact h)
        · exact .inr ⟨L, hL, by unfold Representable at h ⊢; rw [hr] at h; exact h⟩
  intro n text'
  rw [List.replicate_succ]
  constructor
  · intro hf
    cases hf with
    | cons q1 q2 =>
      have := takes_unique q1 h1
      subst this
      exact (forwarded_fixed _ _ (fun x hx => by rw [(List.mem_replicate.1 hx).2]; exact hfix) text').1 q2
  · rintro rfl
    exact .cons h1 ((forwarded_fixed _ _ (fun x hx => by rw [(List.mem_replicate.1 hx).2]; exact hfix) _).2 rfl)

/-- C117, the exact condition: a text arrives as it is over each of the stretches exactly if it is UTF-8 and no stretch that
has U+001B to send does so in septets. -/
theorem C117_exact (gs : List Stretch) (hne : gs ≠ []) (hg : ∀ g ∈ gs, g.Fine) (text : List UInt8) :
    (∀ g ∈ gs, g.Takes text text) ↔ Utf8 text ∧ ∀ g ∈ gs, InSeptets g.tables text → 0x1b ∉ text := by
  constructor
  · intro h
    have hx : ∀ g ∈ gs, Utf8 text ∧ (InSeptets g.tables text → 0x1b ∉ text) := by
      intro g hgs
      obtain ⟨out, h1, h2, h3, _⟩ := takes_some g (hg g hgs) text
      rw [takes_unique h1 (h g hgs)] at h2 h3
      exact ⟨h2, h3⟩
    cases gs with
    | nil => exact absurd rfl hne
    | cons g gs => exact ⟨(hx g (by simp)).1, fun g' h' => (hx g' h').2⟩
  · rintro ⟨hu, h⟩ g hgs
    obtain ⟨out, h1, _, _, _, h2⟩ := takes_some g (hg g hgs) text
    rw [h2 hu (h g hgs)] at h1
    exact h1

/-- C117: the exception is needed.  "ê", U+001B and "e", received in UCS-2, are sent on as they are in UCS-2; a stretch with
the Portuguese table sends them in septets, and the last two become a euro sign. -/
theorem C117_escape_false :
    ((do let pdus ← Sms.Encode [0xc3, 0xaa, 0x1b, 0x65] []
         Sms.Decode pdus []) : M _) = .ok [0xc3, 0xaa, 0x1b, 0x65] ∧
    ((do let pdus ← Sms.Encode [0xc3, 0xaa, 0x1b, 0x65] [.charsets (.locking [3])]
         Sms.Decode pdus []) : M _) = .ok [0xc3, 0xaa, 0xe2, 0x82, 0xac] := by
  constructor <;> decide +kernel

/-- Beside C117: a stretch without tables and one with the Portuguese ones. -/
example : (Stretch.mk [0x31, 0x32] [] []).Fine ∧ (Stretch.mk [0x33] [.charset [3]] []).Fine :=
  ⟨⟨by decide, by decide, (C38_matching _).1⟩, ⟨by decide, by decide, (C38_matching _).1⟩⟩

end Verif.Props
