import Verif.Proofs.Gsm7
import Verif.Proofs.Utf8
import Verif.Model.Gsm7Tables
import Verif.Spec.Codec

/-! C87: text in character tables that the caller supplies. -/

namespace Verif.Props
open Verif.Model Verif.Model.Gsm7 Verif.Model.Unicode Verif.Proofs Verif.Spec

theorem stands_encode {m u : Nat} (hu : Scalar u) : Stands m u ↔ encodeRune m = encodeRune u := by
  have hsu : isScalar u = true := (isScalar_iff u).2 hu
  constructor
  · rintro (⟨_, rfl⟩ | ⟨hm, rfl⟩)
    · rfl
    · rw [encodeRune_sanitize]
      have : sanitize m = 0xFFFD := by
        unfold sanitize
        rw [if_neg (fun h => hm ((isScalar_iff m).1 h))]
        rfl
      rw [this]
  · intro h
    rw [encodeRune_sanitize m] at h
    have := encodeRunes_inj [sanitize m] [u] (by simp [sanitize_scalar]) (by simpa using hsu) (by simpa [encodeRunes] using h)
    simp only [List.cons.injEq, and_true] at this
    by_cases hm : Scalar m
    · left
      rw [sanitize_eq m ((isScalar_iff m).2 hm)] at this
      exact ⟨hm, this⟩
    · right
      refine ⟨hm, ?_⟩
      rw [← this]
      unfold sanitize
      rw [if_neg (fun h => hm ((isScalar_iff m).1 h))]
      rfl

theorem space_encode {u : Nat} (hu : Scalar u) : [sp] = encodeRune u ↔ u = 0x20 := by
  have : encodeRune 0x20 = [sp] := by decide
  rw [← this, ← stands_encode hu]
  constructor
  · rintro (⟨_, h⟩ | ⟨h, _⟩)
    · exact h.symm
    · exact absurd (show Scalar 0x20 by unfold Scalar; omega) h
  · rintro rfl
    exact Or.inl ⟨hu, rfl⟩

/-- What the decoder writes for one septet outside of an escape. -/
theorem loop_alone {d : Decoder} {g : UInt8} {u : Nat} (hu : Scalar u) (h : ReadAlone (List.lookup · d.set) d.strict g u) (src : Bytes) :
    d.loop (g :: src) false = (d.loop src false).bind fun r => .ok (encodeRune u ++ r) := by
  obtain ⟨hg, h⟩ := h
  have hg' : ¬ g = esc := hg
  rcases h with ⟨m, hm, hs⟩ | ⟨hn, hs, rfl⟩
  · rw [← (stands_encode hu).1 hs]
    simp only [Decoder.loop, if_neg hg', hm]
    rfl
  · simp only [Decoder.loop, if_neg hg', hn, hs]
    rfl

theorem loop_escaped {d : Decoder} {g : UInt8} {u : Nat} (hu : Scalar u)
    (h : ReadEscaped (List.lookup · d.set) (List.lookup · d.ext) d.strict g u) (src : Bytes) :
    d.loop (esc :: g :: src) false = (d.loop src false).bind fun r => .ok (encodeRune u ++ r) := by
  rcases h with ⟨rfl, rfl⟩ | ⟨hg, h⟩
  · simp only [Decoder.loop, if_true, show ((0x1b : UInt8) = esc) from rfl]
    rfl
  · have hg' : ¬ g = esc := hg
    rcases h with ⟨m, hm, hs⟩ | ⟨hn, hs, h⟩
    · rw [← (stands_encode hu).1 hs]
      simp only [Decoder.loop, if_true, if_neg hg', hm]
      rfl
    · rcases h with ⟨m, hm, hs'⟩ | ⟨hn', _, rfl⟩
      · rw [← (stands_encode hu).1 hs']
        simp only [Decoder.loop, if_true, if_neg hg', hn, hs, hm]
        rfl
      · simp only [Decoder.loop, if_true, if_neg hg', hn, hs, hn']
        rfl

theorem tables_loop (e : Encoder) (d : Decoder)
    (h : Undoes (List.lookup · e.set) (List.lookup · e.ext) (List.lookup · d.set) (List.lookup · d.ext) d.strict)
    (us : List Nat) (hus : ∀ u ∈ us, Scalar u) (g : Bytes) (he : e.loop us = .ok g) : d.loop g false = .ok (encodeRunes us) := by
  induction us generalizing g with
  | nil => cases he; rfl
  | cons u us ih =>
    have hu := hus u (by simp)
    have hus' : ∀ u ∈ us, Scalar u := fun v hv => hus v (by simp [hv])
    unfold Encoder.loop at he
    split at he
    · rename_i c hc
      obtain ⟨r, hr, he⟩ := bind_eq_ok.mp he
      cases he
      rw [loop_alone hu ((h u c hu).1 hc), ih hus' r hr]
      rfl
    · rename_i hc
      split at he
      · rename_i c hc'
        obtain ⟨r, hr, he⟩ := bind_eq_ok.mp he
        cases he
        rw [loop_escaped hu ((h u c hu).2 hc hc'), ih hus' r hr]
        rfl
      · cases he

/-- C87: with whatever tables an Encoder and a Decoder are given, every UTF-8 text that Encode accepts is returned by Decode if
and only if the tables of the Decoder undo those of the Encoder, character by character. -/
theorem C87_exact (e : Encoder) (d : Decoder) (wset wext : Charset.Encoder) (set ext : Charset.Decoder) :
    (∀ text g : List UInt8, Utf8 text → ((e.WithCharset wset).WithExtCharset wext).Encode text = .ok g →
      ((d.WithCharset set).WithExtCharset ext).Decode g = .ok text) ↔
    Undoes (List.lookup · wset) (List.lookup · wext) (List.lookup · set) (List.lookup · ext) d.strict := by
  constructor
  · intro h
    have one : ∀ us : List Nat, (∀ u ∈ us, Scalar u) → ∀ g, Encoder.loop ⟨wset, wext⟩ us = .ok g →
        Decoder.loop ⟨set, ext, d.strict⟩ g false = .ok (encodeRunes us) := by
      intro us hus g hg
      have := h (encodeRunes us) g ((utf8_iff _).2 ⟨us, hus, rfl⟩) (by
        rw [encoder_encode_eq, decodeRunes_encodeRunes us (fun r hr => (isScalar_iff r).2 (hus r hr))]
        exact hg)
      rwa [decoder_decode_eq] at this
    intro u g hu
    refine ⟨?_, ?_⟩
    · intro hw
      have h1 := one [u] (by simpa using hu) [g] (by simp only [Encoder.loop, hw]; rfl)
      have h2 := one [u, u] (by simpa using hu) [g, g] (by simp only [Encoder.loop, hw]; rfl)
      have e1 : encodeRunes [u] = encodeRune u := by simp [encodeRunes]
      have e2 : encodeRunes [u, u] = encodeRune u ++ encodeRune u := by simp [encodeRunes]
      rw [e1] at h1
      rw [e2] at h2
      by_cases hg : g = esc
      · subst hg
        simp only [Decoder.loop, if_true, Except.ok.injEq] at h1 h2
        change Except.ok [sp] = _ at h2
        injection h2 with h2
        rw [← h1] at h2
        exact absurd h2 (by decide)
      · refine ⟨hg, ?_⟩
        simp only [Decoder.loop, if_neg hg] at h1
        split at h1
        · rename_i m hm
          refine Or.inl ⟨m, hm, (stands_encode hu).2 ?_⟩
          change Except.ok (encodeRune m ++ []) = _ at h1
          injection h1 with h1
          rw [← h1, List.append_nil]
        · rename_i hm
          split at h1
          · cases h1
          · rename_i hs
            refine Or.inr ⟨hm, by simpa using hs, (space_encode hu).1 ?_⟩
            injection h1
    · intro hw hx
      have h1 := one [u] (by simpa using hu) [esc, g] (by simp only [Encoder.loop, hw, hx]; rfl)
      have e1 : encodeRunes [u] = encodeRune u := by simp [encodeRunes]
      rw [e1] at h1
      by_cases hg : g = esc
      · subst hg
        refine Or.inl ⟨rfl, (space_encode hu).1 ?_⟩
        simp only [Decoder.loop, if_true] at h1
        injection h1
      · refine Or.inr ⟨hg, ?_⟩
        simp only [Decoder.loop, if_true, if_neg hg] at h1
        split at h1
        · rename_i m hm
          refine Or.inl ⟨m, hm, (stands_encode hu).2 ?_⟩
          change Except.ok (encodeRune m ++ []) = _ at h1
          injection h1 with h1
          rw [← h1, List.append_nil]
        · rename_i hm
          split at h1
          · cases h1
          · rename_i hs
            refine Or.inr ⟨hm, by simpa using hs, ?_⟩
            split at h1
            · rename_i m hm
              refine Or.inl ⟨m, hm, (stands_encode hu).2 ?_⟩
              change Except.ok (encodeRune m ++ []) = _ at h1
              injection h1 with h1
              rw [← h1, List.append_nil]
            · rename_i hm'
              refine Or.inr ⟨hm', by simpa using hs, (space_encode hu).1 ?_⟩
              injection h1
  · intro h text g ht he
    obtain ⟨us, hus, rfl⟩ := (utf8_iff _).1 ht
    rw [encoder_encode_eq, decodeRunes_encodeRunes us (fun r hr => (isScalar_iff r).2 (hus r hr))] at he
    rw [decoder_decode_eq]
    exact tables_loop ⟨wset, wext⟩ ⟨set, ext, d.strict⟩ h us hus g he

/-- C87: the same of every string of octets, if in addition the tables of the Encoder do not have U+FFFD, which stands for
octets that are not UTF-8. -/
theorem C87_octets (e : Encoder) (d : Decoder) (wset wext : Charset.Encoder) (set ext : Charset.Decoder) :
    (∀ text g : List UInt8, ((e.WithCharset wset).WithExtCharset wext).Encode text = .ok g →
      ((d.WithCharset set).WithExtCharset ext).Decode g = .ok text) ↔
    Undoes (List.lookup · wset) (List.lookup · wext) (List.lookup · set) (List.lookup · ext) d.strict ∧
      wset.lookup 0xFFFD = none ∧ wext.lookup 0xFFFD = none := by
  constructor
  · intro h
    have hu := (C87_exact e d wset wext set ext).1 (fun text g _ => h text g)
    refine ⟨hu, ?_⟩
    -- the octet 0xff is not UTF-8
    have key : ∀ g, Encoder.loop ⟨wset, wext⟩ [0xFFFD] = .ok g → False := by
      intro g hg
      have h1 := h [0xff] g (by rw [encoder_encode_eq]; exact hg)
      have h2 := tables_loop ⟨wset, wext⟩ ⟨set, ext, d.strict⟩ hu [0xFFFD] (by simp [Scalar]) g hg
      rw [decoder_decode_eq] at h1
      have h1' : Decoder.loop ⟨set, ext, d.strict⟩ g false = .ok [0xff] := h1
      rw [h2] at h1'
      injection h1' with h1'
      exact absurd h1' (by decide)
    have hset : wset.lookup 0xFFFD = none := by
      rcases hw : wset.lookup 0xFFFD with _ | g
      · rfl
      · exact (key [g] (by simp only [Encoder.loop, hw]; rfl)).elim
    refine ⟨hset, ?_⟩
    rcases hw : wext.lookup 0xFFFD with _ | g
    · rfl
    · exact (key [esc, g] (by simp only [Encoder.loop, hset, hw]; rfl)).elim
  · rintro ⟨h, hs, hx⟩ text g he
    rw [encoder_encode_eq] at he
    have hn : 0xFFFD ∉ decodeRunes text := by
      intro hm
      rcases encoder_loop_ok _ _ g he _ hm with h | h
      · rw [show Encoder.set _ = wset from rfl, hs] at h; cases h
      · rw [show Encoder.ext _ = wext from rfl, hx] at h; cases h
    rw [decoder_decode_eq]
    have := tables_loop ⟨wset, wext⟩ ⟨set, ext, d.strict⟩ h (decodeRunes text)
      (fun r hr => (isScalar_iff r).1 (decodeRunes_scalar text r hr)) g he
    rw [encodeRunes_decodeRunes text hn] at this
    exact this

/-- C87: in particular tables that are inverse to those of the Encoder and do not use the septet of the escape will do. -/
theorem C87_inverse (e : Encoder) (d : Decoder) (wset wext : Charset.Encoder) (set ext : Charset.Decoder)
    (hs : ∀ u g, wset.lookup u = some g → g ≠ 0x1b ∧ set.lookup g = some u)
    (hx : ∀ u g, wext.lookup u = some g → g ≠ 0x1b ∧ ext.lookup g = some u) (text g : List UInt8) (ht : Utf8 text)
    (h : ((e.WithCharset wset).WithExtCharset wext).Encode text = .ok g) :
    ((d.WithCharset set).WithExtCharset ext).Decode g = .ok text := by
  refine (C87_exact e d wset wext set ext).2 ?_ text g ht h
  intro u g hu
  exact ⟨fun hw => ⟨(hs u g hw).1, Or.inl ⟨u, (hs u g hw).2, Or.inl ⟨hu, rfl⟩⟩⟩,
    fun _ hw => Or.inr ⟨(hx u g hw).1, Or.inl ⟨u, (hx u g hw).2, Or.inl ⟨hu, rfl⟩⟩⟩⟩

/-- Tables of three characters of which one is escaped; "ab€" comes back.  With the septet of "b" changed to the escape
the tables are not undone. -/
example : (∀ text g : List UInt8, Utf8 text →
      (((NewEncoder []).WithCharset [(0x61, 1), (0x62, 2)]).WithExtCharset [(0x20ac, 1)]).Encode text = .ok g →
      ((((NewDecoder []).WithCharset [(1, 0x61), (2, 0x62)]).WithExtCharset [(1, 0x20ac)]).Strict).Decode g = .ok text) ∧
    (((NewEncoder []).WithCharset [(0x61, 1), (0x62, 2)]).WithExtCharset [(0x20ac, 1)]).Encode [0x61, 0x62, 0xe2, 0x82, 0xac] =
      .ok [1, 2, 0x1b, 1] ∧
    ¬ Undoes (List.lookup · [(0x61, 1), (0x62, 0x1b)]) (List.lookup · [(0x20ac, 1)])
      (List.lookup · [(1, 0x61), (0x1b, 0x62)]) (List.lookup · [(1, 0x20ac)]) true := by
  refine ⟨fun text g ht h => C87_inverse _ ((NewDecoder []).Strict) _ _ _ _ ?_ ?_ text g ht h, by decide +kernel, ?_⟩
  · intro u g h
    simp only [List.lookup] at h
    repeat' split at h
    all_goals first | cases h | skip
    all_goals (simp_all <;> rfl)
  · intro u g h
    simp only [List.lookup] at h
    repeat' split at h
    all_goals first | cases h | skip
    all_goals (simp_all <;> rfl)
  · intro h
    exact ((h 0x62 0x1b (by unfold Scalar; omega)).1 (by decide)).1 rfl

end Verif.Props
