import Verif.Proofs.Sms
import Verif.Proofs.Tables
import Verif.Spec.Language

/-! Helper lemmas about the selection of an alphabet. -/

namespace Verif.Proofs
open Verif.Model Verif.Spec

/-- The options of `gsm7.Encode` for a choice of tables. -/
def langOpts (L : Lang) : List Gsm7.Option' :=
  (L.locking.toList.map .charset) ++ (L.shift.toList.map .extCharset)

theorem langOpts_encoder (L : Lang) : Gsm7.NewEncoder (langOpts L) =
    ⟨Charset.NewEncoder (L.locking.getD 0), Charset.NewExtEncoder (L.shift.getD 0)⟩ := by
  obtain ⟨l, s⟩ := L
  cases l <;> cases s <;> rfl

theorem encode_lang (L : Lang) (text : Bytes) :
    Gsm7.Encode text (langOpts L) = Gsm7.Encode text [.charset (L.locking.getD 0), .extCharset (L.shift.getD 0)] := by
  unfold Gsm7.Encode
  rw [langOpts_encoder]; rfl

theorem candidates_eq (c : CharsetCfg) :
    candidates c = (choices c.locking c.shift).map fun L => ⟨langOpts L, L.header⟩ := by
  unfold candidates choices
  simp only [List.map_append, List.map_map, List.map_flatMap]
  rfl

theorem representable_iff (L : Lang) (text : Bytes) :
    Representable L text ↔ ∃ g, Gsm7.Encode text (langOpts L) = .ok g := by
  unfold Gsm7.Encode
  rw [langOpts_encoder, encoder_encode_eq]
  constructor
  · intro h
    apply encoder_loop_complete
    intro r hr
    rcases h r hr with ⟨c, hc⟩ | ⟨c, hc⟩
    · obtain ⟨c', hc', _⟩ := (locking_ok _).total _ _ ((locking_ok _).mem _ _ hc)
      left; simp [hc']
    · obtain ⟨c', hc', _⟩ := (shift_ok _).total _ _ ((shift_ok _).mem _ _ hc)
      right; simp [hc']
  · rintro ⟨g, h⟩ r hr
    rcases encoder_loop_ok _ _ g h r hr with h | h
    · obtain ⟨c, hc⟩ := Option.isSome_iff_exists.mp h
      exact .inl ⟨c, lookup_mem ((locking_ok _).sect _ _ hc).1⟩
    · obtain ⟨c, hc⟩ := Option.isSome_iff_exists.mp h
      exact .inr ⟨c, lookup_mem ((shift_ok _).sect _ _ hc).1⟩

theorem not_representable {L : Lang} {text : Bytes} (h : ¬ Representable L text) :
    ∃ f, Gsm7.Encode text (langOpts L) = .error f := by
  rw [representable_iff] at h
  cases hh : Gsm7.Encode text (langOpts L) with
  | ok g => exact absurd ⟨g, hh⟩ h
  | error f => exact ⟨f, rfl⟩

theorem firstEncoding_first (text : Bytes) (pre post : List Lang) (L : Lang)
    (hpre : ∀ M ∈ pre, ¬ Representable M text) (hL : Representable L text) :
    ∃ g, Gsm7.Encode text (langOpts L) = .ok g ∧
      firstEncoding text ((pre ++ L :: post).map fun L => ⟨langOpts L, L.header⟩) = some (g, L.header) := by
  obtain ⟨g, hg⟩ := (representable_iff L text).mp hL
  refine ⟨g, hg, ?_⟩
  induction pre with
  | nil => simp [firstEncoding, hg]
  | cons M pre ih =>
    obtain ⟨f, hf⟩ := not_representable (hpre M (by simp))
    simp only [List.cons_append, List.map_cons, firstEncoding, hf]
    exact ih (fun M hM => hpre M (by simp [hM]))

theorem firstEncoding_none (text : Bytes) (Ls : List Lang) (h : ∀ M ∈ Ls, ¬ Representable M text) :
    firstEncoding text (Ls.map fun L => ⟨langOpts L, L.header⟩) = none := by
  induction Ls with
  | nil => rfl
  | cons M Ls ih =>
    obtain ⟨f, hf⟩ := not_representable (h M (by simp))
    simp only [List.map_cons, firstEncoding, hf]
    exact ih (fun M hM => h M (by simp [hM]))

theorem offered_cfg (options : List CharsetOpt) :
    options.foldl applyEncodeOption {} = ⟨offeredLocking options, offeredShift options⟩ := by
  have key : ∀ (os : List CharsetOpt) (c : CharsetCfg), os.foldl applyEncodeOption c =
      if .all ∈ os then ⟨offeredLocking os, offeredShift os⟩
      else ⟨c.locking ++ os.flatMap offersLocking, c.shift ++ os.flatMap offersShift⟩ := by
    intro os
    induction os with
    | nil => intro c; simp
    | cons o os ih =>
      intro c
      rw [List.foldl_cons, ih]
      by_cases h : CharsetOpt.all ∈ os
      · rw [if_pos h, if_pos (by simp [h])]
        unfold offeredLocking offeredShift
        rw [sinceAll, if_pos h]
      · rw [if_neg h]
        cases o with
        | all =>
          rw [if_pos (by simp)]
          unfold offeredLocking offeredShift
          rw [sinceAll, if_neg h]
          rfl
        | charset n => rw [if_neg (by simp [h])]; simp [applyEncodeOption, offersLocking, offersShift]
        | locking n => rw [if_neg (by simp [h])]; simp [applyEncodeOption, offersLocking, offersShift]
        | shift n => rw [if_neg (by simp [h])]; simp [applyEncodeOption, offersLocking, offersShift]
  rw [key]
  split
  · rfl
  · rename_i h
    have : sinceAll options = options := by
      cases options with
      | nil => rfl
      | cons o os => rw [sinceAll, if_neg (fun hh => h (by simp [hh]))]
    unfold offeredLocking offeredShift
    rw [this]; simp

theorem permitted_cfg (options : List CharsetOpt) (n : Int) :
    (n ∈ (options.foldl applyDecodeOption {}).locking ↔ ∃ o ∈ options, n ∈ offersLocking o) ∧
    (n ∈ (options.foldl applyDecodeOption {}).shift ↔ ∃ o ∈ options, n ∈ offersShift o) := by
  have key : ∀ (os : List CharsetOpt) (c : CharsetCfg), os.foldl applyDecodeOption c =
      ⟨c.locking ++ os.flatMap offersLocking, c.shift ++ os.flatMap offersShift⟩ := by
    intro os
    induction os with
    | nil => intro c; simp
    | cons o os ih =>
      intro c
      rw [List.foldl_cons, ih]
      cases o <;> simp [applyDecodeOption, offersLocking, offersShift, allNlis]
  rw [key]
  simp [List.mem_flatMap]

theorem permitted_sms (dopts : List CharsetOpt) (n : Int) :
    (permitsLocking dopts n → n ∈ ((Model.Sms.decodeOpts dopts).foldl applyDecodeOption {}).locking) ∧
    (permitsShift dopts n → n ∈ ((Model.Sms.decodeOpts dopts).foldl applyDecodeOption {}).shift) := by
  rw [(permitted_cfg _ n).1, (permitted_cfg _ n).2]
  unfold Model.Sms.decodeOpts permitsLocking permitsShift
  cases dopts with
  | nil =>
    simp only [List.length_nil, if_true]
    have : 1 ≤ n ∧ n ≤ 13 → n ∈ [(1 : Int), 2, 3, 4, 5, 6, 7, 8, 9, 10, 11, 12, 13] := by
      rintro ⟨h1, h2⟩; simp; omega
    constructor
    · rintro (⟨_, h⟩ | ⟨o, ho, _⟩)
      · exact ⟨.all, by simp, this h⟩
      · simp at ho
    · rintro (⟨_, h⟩ | ⟨o, ho, _⟩)
      · exact ⟨.all, by simp, this h⟩
      · simp at ho
  | cons o os =>
    rw [if_neg (by simp)]
    constructor
    · rintro (⟨h, _⟩ | h)
      · cases h
      · exact h
    · rintro (⟨h, _⟩ | h)
      · cases h
      · exact h

theorem representable_congr {L M : Lang} {text : Bytes}
    (h1 : Charset.NewDecoder (L.locking.getD 0) = Charset.NewDecoder (M.locking.getD 0))
    (h2 : Charset.NewExtDecoder (L.shift.getD 0) = Charset.NewExtDecoder (M.shift.getD 0)) :
    Representable L text → Representable M text := by
  unfold Representable; rw [h1, h2]; exact id

/-- A table selected because the default alphabet does not do is one of an existing language. -/
theorem offered_known {options : List CharsetOpt} {text : Bytes} {L : Lang} (hm : L ∈ offered options)
    (hd : ¬ Representable .default text) (hL : Representable L text) :
    (∀ n, L.locking = some n → 1 ≤ n ∧ n ≤ 13 ∧ n ∈ offeredLocking options) ∧
    (∀ n, L.shift = some n → 1 ≤ n ∧ n ≤ 13 ∧ n ∈ offeredShift options) := by
  have hdef : ∀ n : Int, n < 1 ∨ 13 < n → Charset.NewDecoder n = Charset.DefaultDecoder ∧
      Charset.NewExtDecoder n = Charset.DefaultExtDecoder := by
    intro n hn
    by_cases h0 : n = 0
    · subst h0; exact ⟨rfl, rfl⟩
    · obtain ⟨h1, _, h2, _⟩ := newDecoder_unknown n (by omega)
      exact ⟨h1, h2⟩
  unfold offered choices at hm
  simp only [List.mem_append, List.mem_map, List.mem_flatMap, List.mem_filter, decide_eq_true_eq] at hm
  rcases hm with (⟨n, hn, rfl⟩ | ⟨n, hn, rfl⟩) | ⟨n, hn, m, ⟨hm, rfl⟩, rfl⟩
  · refine ⟨?_, (by simp)⟩
    intro k hk; cases hk
    by_cases hr : 1 ≤ n ∧ n ≤ 13
    · exact ⟨hr.1, hr.2, hn⟩
    · exact absurd (representable_congr (L := ⟨some n, none⟩) (M := .default) (hdef n (by omega)).1 rfl hL) hd
  · refine ⟨(by simp), ?_⟩
    intro k hk; cases hk
    by_cases hr : 1 ≤ n ∧ n ≤ 13
    · exact ⟨hr.1, hr.2, hn⟩
    · exact absurd (representable_congr (L := ⟨none, some n⟩) (M := .default) rfl (hdef n (by omega)).2 hL) hd
  · by_cases hr : 1 ≤ n ∧ n ≤ 13
    · exact ⟨fun k hk => by cases hk; exact ⟨hr.1, hr.2, hn⟩, fun k hk => by cases hk; exact ⟨hr.1, hr.2, hm⟩⟩
    · exact absurd (representable_congr (L := ⟨some n, some n⟩) (M := .default) (hdef n (by omega)).1 (hdef n (by omega)).2 hL) hd

theorem find_first {α : Type} (l : List α) (P : α → Prop) (h : ∃ x ∈ l, P x) :
    ∃ pre x post, l = pre ++ x :: post ∧ (∀ y ∈ pre, ¬ P y) ∧ P x := by
  induction l with
  | nil => obtain ⟨x, hx, _⟩ := h; cases hx
  | cons a l ih =>
    by_cases ha : P a
    · exact ⟨[], a, l, rfl, by simp, ha⟩
    · obtain ⟨x, hx, hP⟩ := h
      rcases List.mem_cons.mp hx with rfl | hx
      · exact absurd hP ha
      · obtain ⟨pre, y, post, e, h1, h2⟩ := ih ⟨x, hx, hP⟩
        refine ⟨a :: pre, y, post, by rw [e]; rfl, ?_, h2⟩
        intro z hz
        rcases List.mem_cons.mp hz with rfl | hz
        · exact ha
        · exact h1 z hz

theorem ucs2_roundtrip (rs : List Nat) (hrs : ∀ r ∈ rs, Scalar r) : Ucs2.Decode (Ucs2.Encode rs) = ⟨rs, none⟩ := by
  rw [decode_ok_iff]
  unfold Ucs2.Encode
  refine ⟨by rw [putBE16_length]; omega, ?_⟩
  rw [units_putBE16 _ (by
    intro u hu
    obtain ⟨r, _, hr⟩ := List.mem_flatMap.mp hu
    exact utf16EncodeRune_lt r u hr)]
  have hg := groups_encode rs
  have : (rs.map fun r => if Scalar r then r else 0xFFFD) = rs := by
    conv => rhs; rw [← List.map_id rs]
    apply List.map_congr_left
    intro r hr
    rw [if_pos (hrs r hr)]; rfl
  rwa [this] at hg

/-- The last element with an identifier, in a header extended by another identifier. -/
theorem nliOf_append (udh : UDH) (ie : IE) (iei : UInt8) (p : List Int) (h : ie.ID ≠ iei) :
    nliOf (udh ++ [ie]) iei p = nliOf udh iei p := by
  have : UDH.IE (udh ++ [ie]) iei = UDH.IE udh iei := by
    unfold UDH.IE
    simp [h]
  unfold nliOf
  rw [this]

theorem nliOf_none (udh : UDH) (iei : UInt8) (p : List Int) (h : ∀ ie ∈ udh, ie.ID ≠ iei) : nliOf udh iei p = none := by
  have : UDH.IE udh iei = none := by
    unfold UDH.IE
    rw [List.find?_eq_none]
    intro x hx
    have := h x (by simpa using hx)
    simpa using this
  unfold nliOf
  rw [this]

theorem byteOf_small (n : Int) (h1 : 1 ≤ n) (h2 : n ≤ 13) : ((byteOf n).toNat : Int) = n := by
  obtain ⟨k, rfl⟩ : ∃ k : Nat, n = k := ⟨n.toNat, by omega⟩
  rw [byteOf_natCast]
  simp only [UInt8.toNat_ofNat']
  omega

theorem nliOf_header (L : Lang) (pl ps : List Int)
    (h1 : ∀ n, L.locking = some n → 1 ≤ n ∧ n ≤ 13 ∧ n ∈ pl)
    (h2 : ∀ n, L.shift = some n → 1 ≤ n ∧ n ≤ 13 ∧ n ∈ ps) :
    nliOf L.header lockingIEI pl = L.locking ∧ nliOf L.header shiftIEI ps = L.shift := by
  obtain ⟨l, s⟩ := L
  cases l with
  | none =>
    cases s with
    | none => exact ⟨rfl, rfl⟩
    | some m =>
      obtain ⟨a, b, c⟩ := h2 m rfl
      have hb := byteOf_small m a b
      refine ⟨rfl, ?_⟩
      simp [nliOf, Lang.header, UDH.IE, shiftIEI, hb, c]
  | some n =>
    obtain ⟨a', b', c'⟩ := h1 n rfl
    have hb' := byteOf_small n a' b'
    cases s with
    | none =>
      refine ⟨?_, rfl⟩
      simp [nliOf, Lang.header, UDH.IE, lockingIEI, hb', c']
    | some m =>
      obtain ⟨a, b, c⟩ := h2 m rfl
      have hb := byteOf_small m a b
      constructor
      · simp [nliOf, Lang.header, UDH.IE, lockingIEI, hb', c']
      · simp [nliOf, Lang.header, UDH.IE, shiftIEI, hb, c]

end Verif.Proofs
