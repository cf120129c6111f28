import Verif.Proofs.Encode

/-! C40: automatic selection of the alphabet. -/

namespace Verif.Props
open Verif.Model Verif.Spec Verif.Proofs

/-- C40: text that the default alphabet can represent is encoded in it, without a header. -/
theorem C40_default (text : List UInt8) (options : List CharsetOpt) (h : Representable .default text) :
    ∃ d, EncodeUserData text options = (d, [], .a7Bit) ∧ Gsm7.Encode text [] = .ok d := by
  obtain ⟨g, hg⟩ := (representable_iff .default text).mp h
  have hg : Gsm7.Encode text [] = .ok g := hg
  exact ⟨g, by unfold EncodeUserData; rw [hg], hg⟩

/-- C40: otherwise the first of the offered tables that can represent the text is used, and the header is the
one that announces these tables, which are those of existing languages. -/
theorem C40_language (text : List UInt8) (options : List CharsetOpt) (hd : ¬ Representable .default text)
    (pre post : List Lang) (L : Lang) (ho : offered options = pre ++ L :: post)
    (hpre : ∀ M ∈ pre, ¬ Representable M text) (hL : Representable L text) :
    (∃ d, EncodeUserData text options = (d, L.header, .a7Bit) ∧
      Gsm7.Encode text [.charset (L.locking.getD 0), .extCharset (L.shift.getD 0)] = .ok d) ∧
    (∀ n, L.locking = some n → 1 ≤ n ∧ n ≤ 13) ∧ (∀ n, L.shift = some n → 1 ≤ n ∧ n ≤ 13) := by
  obtain ⟨f, hf⟩ := not_representable hd
  have hf : Gsm7.Encode text [] = .error f := hf
  obtain ⟨g, hg, hfe⟩ := firstEncoding_first text pre post L hpre hL
  refine ⟨⟨g, ?_, by rw [← encode_lang]; exact hg⟩, ?_, ?_⟩
  · unfold EncodeUserData
    rw [hf]
    simp only [offered_cfg, candidates_eq]
    have ho' : choices (offeredLocking options) (offeredShift options) = pre ++ L :: post := ho
    rw [ho', hfe]
  · intro n hn
    obtain ⟨a, b, _⟩ := (offered_known (by rw [ho]; simp) hd hL).1 n hn
    exact ⟨a, b⟩
  · intro n hn
    obtain ⟨a, b, _⟩ := (offered_known (by rw [ho]; simp) hd hL).2 n hn
    exact ⟨a, b⟩

/-- C40: UCS-2 is used when none of the tables can represent the text. -/
theorem C40_fallback (text : List UInt8) (options : List CharsetOpt) (h : ¬ InSeptets options text) :
    EncodeUserData text options = (Ucs2.Encode (Unicode.decodeRunes text), [], .ucs2) := by
  unfold InSeptets at h
  obtain ⟨f, hf⟩ := not_representable (L := .default) (text := text) (fun hh => h (.inl hh))
  have hf : Gsm7.Encode text [] = .error f := hf
  unfold EncodeUserData
  rw [hf]
  simp only [offered_cfg, candidates_eq]
  rw [firstEncoding_none text (choices (offeredLocking options) (offeredShift options)) (fun M hM hR => h (.inr ⟨M, hM, hR⟩))]

/-- C40: the three cases are all there is, and UCS-2 is used only in the last. -/
theorem C40_alphabet (text : List UInt8) (options : List CharsetOpt) :
    (EncodeUserData text options).2.2 = .a7Bit ∧ InSeptets options text ∨
    (EncodeUserData text options).2.2 = .ucs2 ∧ ¬ InSeptets options text := by
  by_cases h : InSeptets options text
  · left
    refine ⟨?_, h⟩
    by_cases hd : Representable .default text
    · obtain ⟨d, hh, _⟩ := C40_default text options hd
      rw [hh]
    · obtain ⟨pre, L, post, e, h1, h2⟩ := find_first (offered options) (fun L => Representable L text)
        (by rcases h with h | h
            · exact absurd h hd
            · exact h)
      obtain ⟨⟨d, hh, _⟩, _⟩ := C40_language text options hd pre post L e h1 h2
      rw [hh]
  · right
    exact ⟨by rw [C40_fallback text options h], h⟩

/-- C40: a decoder given the header, and permitting the languages offered, recovers the text (in septets: text
without U+001B, see C09; in UCS-2: valid UTF-8). -/
theorem C40_decodes (text : List UInt8) (eopts dopts : List CharsetOpt)
    (hm : ∀ n : Int, 1 ≤ n → n ≤ 13 → (n ∈ offeredLocking eopts → ∃ o ∈ dopts, n ∈ offersLocking o) ∧
      (n ∈ offeredShift eopts → ∃ o ∈ dopts, n ∈ offersShift o))
    (hesc : InSeptets eopts text → 0x1b ∉ text)
    (hutf : ∃ rs, (∀ r ∈ rs, Scalar r) ∧ text = Unicode.encodeRunes rs) :
    DecodeUserData (EncodeUserData text eopts).1 (EncodeUserData text eopts).2.1 (EncodeUserData text eopts).2.2 dopts =
      ⟨text, none⟩ := by
  by_cases h : InSeptets eopts text
  · have hesc := hesc h
    have key : ∀ (L : Lang) (d : Bytes),
        Gsm7.Encode text [.charset (L.locking.getD 0), .extCharset (L.shift.getD 0)] = .ok d →
        (∀ n, L.locking = some n → 1 ≤ n ∧ n ≤ 13 ∧ n ∈ offeredLocking eopts) →
        (∀ n, L.shift = some n → 1 ≤ n ∧ n ≤ 13 ∧ n ∈ offeredShift eopts) →
        DecodeUserData d L.header .a7Bit dopts = ⟨text, none⟩ := by
      intro L d hd h1 h2
      obtain ⟨t, e1, e2⟩ := Sms.decodeUserData_7bit d L.header .a7Bit dopts (by simp) (by simp)
      obtain ⟨n1, n2⟩ := nliOf_header L (dopts.foldl applyDecodeOption {}).locking (dopts.foldl applyDecodeOption {}).shift
        (fun n hn => by
          obtain ⟨a, b, c⟩ := h1 n hn
          exact ⟨a, b, (permitted_cfg dopts n).1.mpr ((hm n a b).1 c)⟩)
        (fun n hn => by
          obtain ⟨a, b, c⟩ := h2 n hn
          exact ⟨a, b, (permitted_cfg dopts n).2.mpr ((hm n a b).2 c)⟩)
      rw [n1, n2] at e2
      have := (gsm7_roundtrip (L.locking.getD 0) (L.shift.getD 0) false text d hd).mpr hesc
      rw [this] at e2
      cases e2
      exact e1
    by_cases hd : Representable .default text
    · obtain ⟨d, hh, hg⟩ := C40_default text eopts hd
      rw [hh]
      exact key .default d hg (by intro n hn; cases hn) (by intro n hn; cases hn)
    · obtain ⟨pre, L, post, e, h1, h2⟩ := find_first (offered eopts) (fun L => Representable L text)
        (by rcases h with h | h
            · exact absurd h hd
            · exact h)
      obtain ⟨⟨d, hh, hg⟩, _⟩ := C40_language text eopts hd pre post L e h1 h2
      rw [hh]
      obtain ⟨k1, k2⟩ := offered_known (options := eopts) (by rw [e]; simp) hd h2
      exact key L d hg k1 k2
  · rw [C40_fallback text eopts h]
    obtain ⟨rs, hrs, rfl⟩ := hutf
    simp only [DecodeUserData]
    have hdr : Unicode.decodeRunes (Unicode.encodeRunes rs) = rs :=
      decodeRunes_encodeRunes rs (fun r hr => (isScalar_iff r).mpr (hrs r hr))
    rw [hdr]
    rw [ucs2_roundtrip rs hrs]

/-- "ğ" is in the Turkish tables and not in the default ones: with all languages offered the locking table is
chosen; with only shift tables offered, the shift table; without options, UCS-2. -/
example : EncodeUserData [0xc4, 0x9f] [.all] = ([0x0c], [⟨25, [1]⟩], .a7Bit) ∧
    EncodeUserData [0xc4, 0x9f] [.shift [1]] = ([0x1b, 0x67], [⟨24, [1]⟩], .a7Bit) ∧
    EncodeUserData [0xc4, 0x9f] [] = ([0x01, 0x1f], [], .ucs2) := by decide +kernel
/-- U+0627 is in the Urdu locking table, U+0600 only in its shift table. -/
example : EncodeUserData (Unicode.encodeRunes [0x627, 0x600]) [.charset [13]] =
    ([0x00, 0x1b, 0x19], [⟨25, [13]⟩, ⟨24, [13]⟩], .a7Bit) := by decide +kernel

end Verif.Props
