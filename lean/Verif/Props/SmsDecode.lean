import Verif.Proofs.Sms

/-! Properties of `sms.Decode` and `sms.IsCompleteMessage`: C45, C46, C47. -/

namespace Verif.Props
open Verif.Model Verif.Spec Verif.Proofs

/-- C45: UCS-2 segments of even length decode to the characters of the joined user data, wherever the cuts
fall; and they decode at all exactly when the joined user data does not end in an unpaired surrogate. -/
theorem C45_rejoin (segs : List TPDU) (options : List CharsetOpt)
    (h : ∀ s ∈ segs, s.Alphabet.1 = .ucs2 ∧ s.UD.length % 2 = 0) (text : Bytes) :
    Sms.Decode segs options = .ok text ↔
      ∃ rs, Groups (units (segs.map TPDU.UD).flatten) rs ∧ text = Unicode.encodeRunes rs := by
  have hl := Sms.decodeLoop_all_ucs2 (Model.Sms.decodeOpts options) segs h [] (.inl rfl)
  rw [List.nil_append] at hl
  unfold Model.Sms.Decode
  rw [hl]
  have hev : (segs.map TPDU.UD).flatten.length % 2 = 0 := by
    clear hl
    induction segs with
    | nil => rfl
    | cons x xs ih =>
      have h1 := (h x (by simp)).2
      have h2 := ih (fun y hy => h y (by simp [hy]))
      simp only [List.map_cons, List.flatten_cons, List.length_append]; omega
  cases hd : Ucs2.Decode (segs.map TPDU.UD).flatten with
  | mk rs e =>
    cases e with
    | none =>
      have hg := ((decode_ok_iff _ rs).mp hd).2
      constructor
      · intro hh; cases hh; exact ⟨rs, hg, rfl⟩
      · rintro ⟨rs', hg', rfl⟩
        rw [groups_unique hg rs' hg']
    | some e =>
      constructor
      · intro hh; cases hh
      · rintro ⟨rs', hg', rfl⟩
        have := (decode_ok_iff _ rs').mpr ⟨hev, hg'⟩
        rw [hd] at this; cases this

/-- C45: cutting a UCS-2 message at even offsets, in whatever way, does not change what it decodes to. -/
theorem C45_any_cut (segs segs' : List TPDU) (options : List CharsetOpt)
    (h : ∀ s ∈ segs, s.Alphabet.1 = .ucs2 ∧ s.UD.length % 2 = 0)
    (h' : ∀ s ∈ segs', s.Alphabet.1 = .ucs2 ∧ s.UD.length % 2 = 0)
    (he : (segs.map TPDU.UD).flatten = (segs'.map TPDU.UD).flatten) :
    Sms.Decode segs options = Sms.Decode segs' options := by
  have hl := Sms.decodeLoop_all_ucs2 (Model.Sms.decodeOpts options) segs h [] (.inl rfl)
  have hl' := Sms.decodeLoop_all_ucs2 (Model.Sms.decodeOpts options) segs' h' [] (.inl rfl)
  unfold Model.Sms.Decode
  rw [hl, hl', he]

/-- Segments cut in the middle of U+1F601, joined again. -/
example : Sms.Decode [{ DCS := 8, UD := [0x00, 0x41, 0xD8, 0x3D] }, { DCS := 8, UD := [0xDE, 0x01] }] [] =
    .ok [0x41, 0xF0, 0x9F, 0x98, 0x81] := by decide

/-- C46: `Decode` succeeds exactly when every UCS-2 segment has even length and the UCS-2 data at the end does
not end in an unpaired surrogate. -/
theorem C46_exact (segs : List TPDU) (options : List CharsetOpt) :
    (∃ text, Sms.Decode segs options = .ok text) ↔
      (∀ s ∈ segs, s.Alphabet.1 = .ucs2 → s.UD.length % 2 = 0) ∧ ∃ rs, Groups (units (pendingUcs2 segs)) rs := by
  have ho := Sms.decodeLoop_outcome (Model.Sms.decodeOpts options) segs [] rfl
  rw [Sms.pendingFrom_eq, show Sms.left (Ucs2.Decode []) = [] from rfl] at ho
  unfold Model.Sms.Decode
  rcases ho with ⟨⟨x, hx, hxa, hxo⟩, h2⟩ | ⟨h1, hev, h3⟩
  · rw [h2]
    constructor
    · rintro ⟨t, ht⟩; cases ht
    · rintro ⟨h, _⟩; have := h x hx hxa; omega
  · cases hd : Ucs2.Decode (pendingUcs2 segs) with
    | mk rs e =>
      rw [hd] at h3
      rcases h3 with ⟨h3, t, h4⟩ | ⟨e', h3, h4⟩
      · simp only at h3; subst h3
        exact ⟨fun _ => ⟨h1, rs, ((decode_ok_iff _ rs).mp hd).2⟩, fun _ => ⟨t, h4⟩⟩
      · simp only at h3; subst h3
        rw [h4]
        constructor
        · rintro ⟨t, ht⟩; cases ht
        · rintro ⟨_, rs', hg⟩
          have := (decode_ok_iff _ rs').mpr ⟨hev, hg⟩
          rw [hd] at this; cases this

/-- C46: a failure is one of the two UCS-2 errors, never a panic: an odd length, or an unpaired surrogate that
is the last unit of the UCS-2 data at the end. -/
theorem C46_errors (segs : List TPDU) (options : List CharsetOpt) (f : Fault)
    (h : Sms.Decode segs options = .error f) :
    (f = .err .ucs2InvalidLength ∧ ∃ s ∈ segs, s.Alphabet.1 = .ucs2 ∧ s.UD.length % 2 = 1) ∨
    (∃ pre hi lo, f = .err (.ucs2Dangling [hi, lo]) ∧ pendingUcs2 segs = pre ++ [hi, lo] ∧
      Surrogate (256 * hi.toNat + lo.toNat)) := by
  have ho := Sms.decodeLoop_outcome (Model.Sms.decodeOpts options) segs [] rfl
  rw [Sms.pendingFrom_eq, show Sms.left (Ucs2.Decode []) = [] from rfl] at ho
  unfold Model.Sms.Decode at h
  rcases ho with ⟨⟨x, hx, hxa, hxo⟩, h2⟩ | ⟨h1, hev, h3⟩
  · rw [h2] at h; cases h
    exact .inl ⟨rfl, x, hx, hxa, hxo⟩
  · rcases h3 with ⟨h3, t, h4⟩ | ⟨e', h3, h4⟩
    · rw [h4] at h; cases h
    · rw [h4] at h; cases h
      right
      have : Ucs2.Decode (pendingUcs2 segs) = ⟨(Ucs2.Decode (pendingUcs2 segs)).runes, some e'⟩ := by
        rw [← h3]
      obtain ⟨pre, hi, lo, e1, e2, _, e4⟩ := (decode_err_iff _ _ _ hev).mp this
      exact ⟨pre, hi, lo, by rw [e4], e1, e2⟩

/-- C46: messages in 7-bit and 8-bit segments always decode. -/
theorem C46_no_ucs2 (segs : List TPDU) (options : List CharsetOpt) (h : ∀ s ∈ segs, s.Alphabet.1 ≠ .ucs2) :
    ∃ text, Sms.Decode segs options = .ok text := by
  refine (C46_exact segs options).mpr ⟨fun s hs ha => absurd ha (h s hs), [], ?_⟩
  have : pendingUcs2 segs = [] := by
    unfold pendingUcs2
    cases hr : segs.reverse with
    | nil => rfl
    | cons s l =>
      have hs : s ∈ segs := by
        rw [← List.mem_reverse, hr]; simp
      simp [h s hs]
  rw [this]; exact .nil

/-- An unpaired surrogate is an error at the end, but not before an 8-bit segment. -/
example : Sms.Decode [{ DCS := 8, UD := [0xD8, 0x3D] }] [] = fail (.ucs2Dangling [0xD8, 0x3D]) ∧
    (∃ t, Sms.Decode [{ DCS := 8, UD := [0xD8, 0x3D] }, { DCS := 4, UD := [0x41] }] [] = .ok t) ∧
    Sms.Decode [{ DCS := 8, UD := [0x00, 0x3D] }, { DCS := 8, UD := [0x41] }] [] = fail .ucs2InvalidLength :=
  ⟨(by decide), ⟨_, rfl⟩, (by decide)⟩

/-- C47. -/
theorem C47_complete_iff (segs : List TPDU) :
    Sms.IsCompleteMessage segs = true ↔
      (∃ s, segs = [s] ∧ s.ConcatInfo = none) ∨
      (segs ≠ [] ∧ ∃ ref, ∀ (i : Nat) (s : TPDU), segs[i]? = some s → s.ConcatInfo = some ⟨segs.length, i + 1, ref⟩) := by
  unfold Model.Sms.IsCompleteMessage
  cases segs with
  | nil => simp
  | cons s ss =>
    simp only
    cases hc : s.ConcatInfo with
    | none =>
      simp only [decide_eq_true_eq]
      constructor
      · intro h
        left
        have : ss = [] := by
          simpa using h
        subst this
        exact ⟨s, rfl, hc⟩
      · rintro (⟨x, hx, _⟩ | ⟨_, r, h⟩)
        · rw [hx]; rfl
        · have := h 0 s rfl
          rw [hc] at this; cases this
    | some base =>
      simp only
      constructor
      · intro h
        right
        refine ⟨by simp, base.mref, ?_⟩
        split at h
        · cases h
        · rename_i hb
          have hb : base.segments = (s :: ss).length := by simpa using hb
          rw [hb] at h
          have := (Sms.completeLoop_iff _ _ _ 0).mp h
          intro i t ht
          have := this i t ht
          simpa using this
      · rintro (⟨x, hx, hx2⟩ | ⟨_, r, h⟩)
        · cases hx; rw [hc] at hx2; cases hx2
        · have h0 := h 0 s rfl
          rw [hc] at h0
          simp only [Option.some.injEq] at h0
          subst h0
          simp only
          rw [if_neg (by simp), Sms.completeLoop_iff]
          intro i t ht
          have := h i t ht
          simpa using this

/-- Both ways of being complete, and an out of order message. -/
example : Sms.IsCompleteMessage [{}] = true ∧
    Sms.IsCompleteMessage [{ UDH := [⟨0, [7, 2, 1]⟩] }, { UDH := [⟨0, [7, 2, 2]⟩] }] = true ∧
    Sms.IsCompleteMessage [{ UDH := [⟨0, [7, 2, 2]⟩] }, { UDH := [⟨0, [7, 2, 1]⟩] }] = false := by decide

end Verif.Props
