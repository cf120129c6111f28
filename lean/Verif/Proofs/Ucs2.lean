import Verif.Model.Ucs2
import Verif.Proofs.Unicode
import Verif.Spec.Utf16

/-! Helper lemmas for UCS-2. -/

namespace Verif.Proofs
open Verif.Model Verif.Model.Ucs2 Verif.Model.Unicode Verif.Spec

theorem isSurrogate_iff (u : Nat) : isSurrogate u = true ↔ Surrogate u := by
  simp [isSurrogate, Surrogate]

theorem be16_eq (h l : UInt8) : be16 h l = 256 * h.toNat + l.toNat := by unfold be16; omega

theorem be16_lt (h l : UInt8) : be16 h l < 65536 := by
  have := h.toNat_lt; have := l.toNat_lt; unfold be16; omega

theorem utf16DecodeRune_pair (a b : Nat) (ha : HighSurrogate a) (hb : LowSurrogate b) :
    utf16DecodeRune a b = 0x10000 + (a - 0xD800) * 1024 + (b - 0xDC00) := by
  unfold utf16DecodeRune HighSurrogate LowSurrogate at *
  rw [if_pos (by omega)]; omega

theorem utf16DecodeRune_broken (a b : Nat) (h : ¬ (HighSurrogate a ∧ LowSurrogate b)) :
    utf16DecodeRune a b = 0xFFFD := by
  unfold utf16DecodeRune HighSurrogate LowSurrogate at *
  rw [if_neg (by omega)]; rfl

/-- The three shapes of an even-length input. -/
theorem decodeLoop_cases (src : Bytes) (he : src.length % 2 = 0) :
    (∃ rs, decodeLoop src = ⟨rs, none⟩ ∧ Groups (units src) rs) ∨
    (∃ pre h l rs, src = pre ++ [h, l] ∧ pre.length % 2 = 0 ∧ Surrogate (256 * h.toNat + l.toNat) ∧
      Groups (units pre) rs ∧ decodeLoop src = ⟨rs, some (.ucs2Dangling [h, l])⟩) := by
  fun_induction decodeLoop src with
  | case1 h l r hs h2 l2 rest2 d ih =>
    have e2 : rest2.length % 2 = 0 := by simp at he; omega
    have hg : ∀ us rs, Groups us rs → Groups ((256 * h.toNat + l.toNat) :: (256 * h2.toNat + l2.toNat) :: us)
        (utf16DecodeRune r (be16 h2 l2) :: rs) := by
      intro us rs g
      by_cases hp : HighSurrogate r ∧ LowSurrogate (be16 h2 l2)
      · rw [utf16DecodeRune_pair _ _ hp.1 hp.2]
        rw [← be16_eq, ← be16_eq]
        exact .pair hp.1 hp.2 g
      · rw [utf16DecodeRune_broken _ _ hp]
        rw [← be16_eq, ← be16_eq]
        exact .broken ((isSurrogate_iff _).mp hs) hp g
    rcases ih e2 with ⟨rs, e, g⟩ | ⟨pre, a, b, rs, e, e', s, g, e''⟩
    · left
      refine ⟨_, ?_, hg _ _ g⟩
      simp [d, e]
    · right
      refine ⟨h :: l :: h2 :: l2 :: pre, a, b, _, by simp [e], by simp; omega, s, hg _ _ g, ?_⟩
      simp [d, e'']
  | case2 h l r hs rest hne =>
    right
    have : rest = [] := by
      match rest, hne, he with
      | [], _, _ => rfl
      | [x], _, he => simp at he
      | x :: y :: z, hne, _ => exact absurd rfl (hne x y z)
    subst this
    exact ⟨[], h, l, [], rfl, rfl, by rw [← be16_eq]; exact (isSurrogate_iff _).mp hs, .nil, rfl⟩
  | case3 h l rest r hs d ih =>
    have hns : ¬ Surrogate (256 * h.toNat + l.toNat) := by
      rw [← be16_eq, ← isSurrogate_iff]; exact hs
    have e2 : rest.length % 2 = 0 := by simp at he; omega
    rcases ih e2 with ⟨rs, e, g⟩ | ⟨pre, a, b, rs, e, e', s, g, e''⟩
    · left
      refine ⟨_, ?_, Groups.unit hns g⟩
      simp [d, e, r, be16_eq]
    · right
      refine ⟨h :: l :: pre, a, b, _, by simp [e], by simp; omega, s, Groups.unit hns g, ?_⟩
      simp [d, e'', r, be16_eq]
  | case4 src hne =>
    left
    have : src = [] := by
      match src, hne, he with
      | [], _, _ => rfl
      | [x], _, he => simp at he
      | x :: y :: z, hne, _ => exact absurd rfl (hne x y z)
    subst this
    exact ⟨[], rfl, .nil⟩

theorem groups_unique {us rs : List Nat} (h : Groups us rs) : ∀ rs', Groups us rs' → rs = rs' := by
  induction h with
  | nil => intro rs' h; cases h; rfl
  | unit hu _ ih =>
    intro rs' h
    cases h with
    | unit _ g => rw [ih _ g]
    | pair h1 _ _ => exact absurd ⟨h1.1, by have := h1.2; omega⟩ hu
    | broken h1 _ _ => exact absurd h1 hu
  | pair h1 h2 _ ih =>
    intro rs' h
    cases h with
    | unit hu _ => exact absurd ⟨h1.1, by have := h1.2; omega⟩ hu
    | pair _ _ g => rw [ih _ g]
    | broken _ hb _ => exact absurd ⟨h1, h2⟩ hb
  | broken h1 h2 _ ih =>
    intro rs' h
    cases h with
    | unit hu _ => exact absurd h1 hu
    | pair ha hb _ => exact absurd ⟨ha, hb⟩ h2
    | broken _ _ g => rw [ih _ g]

theorem units_append (a b : Bytes) (h : a.length % 2 = 0) : units (a ++ b) = units a ++ units b := by
  fun_induction units a with
  | case1 h l t ih => simp [units, ih (by simp at h; omega)]
  | case2 t hne =>
    match t, hne, h with
    | [], _, _ => rfl
    | [x], _, he => simp at he
    | x :: y :: z, hne, _ => exact absurd rfl (hne x y z)

theorem high_surrogate {u : Nat} (h : HighSurrogate u) : Surrogate u := ⟨h.1, by have := h.2; omega⟩

theorem groups_unit_inv {u : Nat} {l rs : List Nat} (h : Groups l rs) : ∀ us, l = u :: us → ¬ Surrogate u →
    ∃ rs', rs = u :: rs' ∧ Groups us rs' := by
  intro us e hu
  cases h with
  | nil => cases e
  | unit _ g => cases e; exact ⟨_, rfl, g⟩
  | pair h1 _ _ => cases e; exact absurd (high_surrogate h1) hu
  | broken h1 _ _ => cases e; exact absurd h1 hu

theorem groups_surr_inv {u : Nat} {l rs : List Nat} (h : Groups l rs) : ∀ us, l = u :: us → Surrogate u →
    ∃ v vs r rs', us = v :: vs ∧ rs = r :: rs' ∧ Groups vs rs' := by
  intro us e hu
  cases h with
  | nil => cases e
  | unit h _ => cases e; exact absurd hu h
  | pair _ _ g => cases e; exact ⟨_, _, _, _, rfl, rfl, g⟩
  | broken _ _ g => cases e; exact ⟨_, _, _, _, rfl, rfl, g⟩

/-- A group sequence cannot be extended by one surrogate to another group sequence. -/
theorem groups_dangling {us rs : List Nat} (h : Groups us rs) : ∀ s rs', Surrogate s → ¬ Groups (us ++ [s]) rs' := by
  induction h with
  | nil =>
    intro s rs' hs h
    obtain ⟨_, _, _, _, e, _⟩ := groups_surr_inv h _ rfl hs
    cases e
  | unit hu _ ih =>
    intro s rs' hs h
    obtain ⟨_, _, g⟩ := groups_unit_inv h _ rfl hu
    exact ih s _ hs g
  | pair h1 _ _ ih =>
    intro s rs' hs h
    obtain ⟨_, _, _, _, e, _, g⟩ := groups_surr_inv h _ rfl (high_surrogate h1)
    cases e; exact ih s _ hs g
  | broken h1 _ _ ih =>
    intro s rs' hs h
    obtain ⟨_, _, _, _, e, _, g⟩ := groups_surr_inv h _ rfl h1
    cases e; exact ih s _ hs g

theorem decode_ok_iff (src : Bytes) (rs : List Nat) :
    Ucs2.Decode src = ⟨rs, none⟩ ↔ src.length % 2 = 0 ∧ Groups (units src) rs := by
  unfold Ucs2.Decode
  split
  · rename_i h
    have : src = [] := List.length_eq_zero_iff.mp h
    subst this
    constructor
    · intro e; cases e; exact ⟨rfl, .nil⟩
    · rintro ⟨_, g⟩; cases g; rfl
  split
  · constructor
    · intro e; cases e
    · rintro ⟨e, _⟩; omega
  · rename_i h
    have he : src.length % 2 = 0 := by omega
    rcases decodeLoop_cases src he with ⟨rs', e, g⟩ | ⟨pre, a, b, rs', e, e', s, g, e''⟩
    · rw [e]
      constructor
      · intro x; cases x; exact ⟨he, g⟩
      · rintro ⟨_, g'⟩; rw [groups_unique g _ g']
    · rw [e'']
      constructor
      · intro x; cases x
      · rintro ⟨_, g'⟩
        rw [e, units_append _ _ e'] at g'
        exact absurd g' (groups_dangling g _ _ s)

theorem decode_err_iff (src : Bytes) (rs : List Nat) (x : Err) (he : src.length % 2 = 0) :
    Ucs2.Decode src = ⟨rs, some x⟩ ↔ ∃ pre h l, src = pre ++ [h, l] ∧ Surrogate (256 * h.toNat + l.toNat) ∧
      Groups (units pre) rs ∧ x = .ucs2Dangling [h, l] := by
  constructor
  · intro hd
    unfold Ucs2.Decode at hd
    split at hd
    · cases hd
    split at hd
    · omega
    · rcases decodeLoop_cases src he with ⟨rs', e, g⟩ | ⟨pre, a, b, rs', e, e', s, g, e''⟩
      · rw [e] at hd; cases hd
      · rw [e''] at hd; cases hd; exact ⟨pre, a, b, e, s, g, rfl⟩
  · rintro ⟨pre, h, l, e, s, g, rfl⟩
    have hpre : pre.length % 2 = 0 := by rw [e] at he; simp at he; omega
    unfold Ucs2.Decode
    rw [if_neg (by rw [e]; simp), if_neg (by omega)]
    rcases decodeLoop_cases src he with ⟨rs', e1, g1⟩ | ⟨pre', a, b, rs', e1, e', s', g', e''⟩
    · rw [e, units_append _ _ hpre] at g1
      exact absurd g1 (groups_dangling g _ _ s)
    · rw [e''] 
      rw [e1] at e
      obtain ⟨h1, h2⟩ := List.append_inj' e rfl
      subst h1; cases h2
      rw [groups_unique g _ g']

theorem units_putBE16 (us : List Nat) (h : ∀ u ∈ us, u < 65536) : units (us.flatMap putBE16) = us := by
  induction us with
  | nil => rfl
  | cons u us ih =>
    have hu := h u (by simp)
    simp only [List.flatMap_cons, putBE16, List.cons_append, List.nil_append, units,
      ofNat_toNat_lt (u / 256) (by omega), ofNat_toNat_lt (u % 256) (by omega)]
    rw [ih (fun x hx => h x (by simp [hx]))]
    congr 1; omega

theorem putBE16_length (us : List Nat) : (us.flatMap putBE16).length = 2 * us.length := by
  induction us with
  | nil => rfl
  | cons u us ih => simp [putBE16, ih]; omega

theorem utf16EncodeRune_lt (r : Nat) : ∀ u ∈ utf16EncodeRune r, u < 65536 := by
  intro u hu
  unfold utf16EncodeRune at hu
  split at hu
  · simp at hu; omega
  split at hu
  · simp at hu; omega
  · simp [replacement] at hu; omega

theorem groups_encode (rs : List Nat) :
    Groups (rs.flatMap utf16EncodeRune) (rs.map fun r => if Scalar r then r else 0xFFFD) := by
  induction rs with
  | nil => exact .nil
  | cons r rs ih =>
    simp only [List.flatMap_cons, List.map_cons]
    by_cases h1 : r < 0xD800 ∨ (0xE000 ≤ r ∧ r < 0x10000)
    · rw [if_pos (show Scalar r by unfold Scalar; omega), utf16EncodeRune, if_pos h1]
      exact .unit (by unfold Surrogate; omega) ih
    by_cases h2 : 0x10000 ≤ r ∧ r ≤ 0x10FFFF
    · rw [if_pos (show Scalar r by unfold Scalar; omega), utf16EncodeRune, if_neg h1, if_pos h2]
      have := Groups.pair (h := 0xD800 + (r - 0x10000) / 1024 % 1024) (l := 0xDC00 + (r - 0x10000) % 1024)
        (by unfold HighSurrogate; omega) (by unfold LowSurrogate; omega) ih
      have e : 0x10000 + (0xD800 + (r - 0x10000) / 1024 % 1024 - 0xD800) * 1024 +
        (0xDC00 + (r - 0x10000) % 1024 - 0xDC00) = r := by omega
      rw [e] at this
      exact this
    · rw [if_neg (show ¬ Scalar r by unfold Scalar; omega), utf16EncodeRune, if_neg h1, if_neg h2]
      exact .unit (by unfold Surrogate; decide) ih

end Verif.Proofs
