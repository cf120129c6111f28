import Verif.Model.Semioctet
import Verif.Proofs.Basic
import Verif.Spec.Digits

/-! Helper lemmas for semi-octet digits. -/

namespace Verif.Proofs
open Verif.Model Verif.Model.Semioctet Verif.Spec

theorem encodeDigits_eq (d : UInt8) :
    encodeDigits d = if d ∈ digitChars then some (digitCode d) else none := by
  revert d; apply forall_u8; decide +kernel

theorem digitCode_lt (d : UInt8) (h : d ∈ digitChars) : digitCode d < 15 := by
  have := List.idxOf_lt_length_iff.mpr h
  exact this

theorem digitChars_code (d : UInt8) (h : d ∈ digitChars) : decodeDigits[digitCode d]? = some d := by
  revert d; apply forall_u8; decide +kernel

theorem decodeDigits_lt (k : Nat) (h : k < 15) :
    ∃ d, decodeDigits[k]? = some d ∧ d ∈ digitChars ∧ d ≠ 0x46 ∧ digitChars[k]? = some d := by
  have : ∀ k < 15, ((decodeDigits[k]?).any fun d => decide (d ∈ digitChars ∧ d ≠ 0x46 ∧ digitChars[k]? = some d)) = true := by
    decide +kernel
  have := this k h
  cases hd : decodeDigits[k]? with
  | none => simp [hd] at this
  | some d => rw [hd] at this; simp at this; exact ⟨d, rfl, by simp [this]⟩

theorem digit_ne_F (d : UInt8) (h : d ∈ digitChars) : d ≠ 0x46 := by
  rintro rfl; revert h; decide

theorem and_0f (o : UInt8) : (o &&& 0x0f).toNat = o.toNat % 16 := by
  revert o; apply forall_u8; decide +kernel

theorem shr_4 (o : UInt8) : (o >>> 4).toNat = o.toNat / 16 := by
  revert o; apply forall_u8; decide +kernel

theorem or_nibbles : ∀ a, a < 16 → ∀ b, b < 16 → a ||| (b <<< 4) = a + 16 * b := by decide +kernel

theorem encodeLoop_ok (src : Bytes) : ∀ (hi : Option Nat), (∀ p ∈ hi, p < 15) → Digits src →
    ∃ out, encodeLoop src hi = .ok out ∧
      out.flatMap nibbles = hi.toList ++ src.map digitCode ++
        (if (hi.toList.length + src.length) % 2 = 1 then [15] else []) := by
  induction src with
  | nil =>
    intro hi hhi _
    cases hi with
    | none => exact ⟨[], rfl, by simp⟩
    | some p =>
      have hp : p < 15 := hhi p rfl
      refine ⟨_, rfl, ?_⟩
      have e : p ||| 0xf0 = p + 16 * 15 := or_nibbles p (by omega) 15 (by omega)
      rw [e, byteOf_natCast]
      simp [nibbles, Nat.mod_eq_of_lt (show p + 240 < 256 by omega)]
      omega
  | cons d src ih =>
    intro hi hhi hd
    have hdm : d ∈ digitChars := hd d (by simp)
    have hds : Digits src := fun x hx => hd x (by simp [hx])
    have hc := digitCode_lt d hdm
    cases hi with
    | none =>
      obtain ⟨out, e1, e2⟩ := ih (some (digitCode d)) (by simp [hc]) hds
      refine ⟨out, ?_, ?_⟩
      · simp only [encodeLoop, encodeDigits_eq, if_pos hdm]; exact e1
      · rw [e2]; simp [Nat.add_comm]
    | some p =>
      have hp : p < 15 := hhi p rfl
      obtain ⟨out, e1, e2⟩ := ih none (by simp) hds
      refine ⟨byteOf (p ||| (digitCode d <<< 4) : Nat) :: out, ?_, ?_⟩
      · simp only [encodeLoop, encodeDigits_eq, if_pos hdm, e1]; rfl
      · rw [List.flatMap_cons, e2, or_nibbles p (by omega) _ (by omega), byteOf_natCast]
        have h1 : (UInt8.ofNat (p + 16 * digitCode d)).toNat = p + 16 * digitCode d := by
          simp only [UInt8.toNat_ofNat']; omega
        have h2 : (p + 16 * digitCode d) % 16 = p := by omega
        have h3 : (p + 16 * digitCode d) / 16 = digitCode d := by omega
        simp only [nibbles, h1, h2, h3]
        simp only [Option.toList_none, Option.toList_some, List.length_nil, List.length_cons,
          List.nil_append, List.cons_append, List.map_cons]
        congr 4
        exact propext (by omega)

theorem encodeLoop_error (src : Bytes) : ∀ (hi : Option Nat), ¬ Digits src →
    ∃ a d b, src = a ++ d :: b ∧ Digits a ∧ d ∉ digitChars ∧ encodeLoop src hi = fail (.semiInvalidDigit d) := by
  induction src with
  | nil => intro hi h; exact absurd (by simp [Digits]) h
  | cons d src ih =>
    intro hi h
    by_cases hd : d ∈ digitChars
    · have hs : ¬ Digits src := fun hs => h (by
        intro x hx
        rcases List.mem_cons.mp hx with rfl | hx
        · exact hd
        · exact hs x hx)
      cases hi with
      | none =>
        obtain ⟨a, d', b, e, ha, hd', hl⟩ := ih (some (digitCode d)) hs
        refine ⟨d :: a, d', b, by simp [e], ?_, hd', ?_⟩
        · intro x hx; rcases List.mem_cons.mp hx with rfl | hx
          · exact hd
          · exact ha x hx
        · simp only [encodeLoop, encodeDigits_eq, if_pos hd]; exact hl
      | some p =>
        obtain ⟨a, d', b, e, ha, hd', hl⟩ := ih none hs
        refine ⟨d :: a, d', b, by simp [e], ?_, hd', ?_⟩
        · intro x hx; rcases List.mem_cons.mp hx with rfl | hx
          · exact hd
          · exact ha x hx
        · simp only [encodeLoop, encodeDigits_eq, if_pos hd, hl]; rfl
    · refine ⟨[], d, src, rfl, by simp [Digits], hd, ?_⟩
      simp only [encodeLoop, encodeDigits_eq, if_neg hd]

theorem idx_decodeDigits {k : Nat} {d : UInt8} (h : decodeDigits[k]? = some d) :
    idx decodeDigits (k : Nat) = .ok d := by simp [idx, h]

theorem push_ok {n : Nat} {out : Bytes} {d : UInt8} (h : out.length < n) : push n out d = .ok (out ++ [d]) :=
  if_pos h

/-- Decoding inverts encoding, for a buffer of at least the right size; the input may continue when the
buffer has exactly the right size. -/
theorem dec_enc (n : Nat) (rest : Bytes) : ∀ (m : Nat) (src : Bytes), src.length = m → ∀ (out : Bytes) (ri : Nat) (p : Bytes),
    Digits src → encodeLoop src none = .ok p → out.length + src.length ≤ n →
    (rest = [] ∨ out.length + src.length = n) →
    decodeLoop n (p ++ rest) out ri = .ok ⟨.ok (out ++ src), ri + p.length⟩ := by
  intro m
  induction m using Nat.strongRecOn with
  | _ m ih =>
    intro src hm out ri p hd he hn hr
    match src, hm, hd, he, hn, hr with
    | [], _, _, he, hn, hr' =>
      cases he
      rcases hr' with rfl | hr'
      · simp [decodeLoop]
      · cases rest with
        | nil => simp [decodeLoop]
        | cons o rest =>
          have : ¬ out.length < n := by have : out.length + 0 = n := hr'; omega
          simp [decodeLoop, this]
    | [d], _, hd, he, hn, hr =>
      have hdm : d ∈ digitChars := hd d (by simp)
      have hc := digitCode_lt d hdm
      simp only [encodeLoop, encodeDigits_eq, if_pos hdm] at he
      cases he
      have e : digitCode d ||| 0xf0 = digitCode d + 16 * 15 := or_nibbles _ (by omega) 15 (by omega)
      rw [e, byteOf_natCast]
      have h1 : (UInt8.ofNat (digitCode d + 16 * 15)).toNat = digitCode d + 16 * 15 := by
        simp only [UInt8.toNat_ofNat']; omega
      have h2 : (digitCode d + 16 * 15) % 16 = digitCode d := by omega
      have h3 : (digitCode d + 16 * 15) / 16 = 15 := by omega
      simp only [List.length_singleton] at hn hr
      simp only [List.cons_append, List.nil_append, decodeLoop, and_0f, shr_4, h1, h2, h3]
      rw [if_pos (by omega), idx_decodeDigits (digitChars_code d hdm)]
      have hF : idx decodeDigits ((15 : Nat) : Int) = .ok 0x46 := by decide
      simp only [ok_bind, if_pos (digit_ne_F d hdm), push_ok (show out.length < n by omega), hF]
      simp only [ne_eq, not_true_eq_false, and_false, if_false, if_true]
      rcases hr with rfl | hr
      · simp [decodeLoop]
      · cases rest with
        | nil => simp [decodeLoop]
        | cons o rest =>
          have : ¬ (out ++ [d]).length < n := by simp; omega
          simp [decodeLoop]; omega
    | d :: d' :: src, hm, hd, he, hn, hr =>
      have hdm : d ∈ digitChars := hd d (by simp)
      have hdm' : d' ∈ digitChars := hd d' (by simp)
      have hc := digitCode_lt d hdm
      have hc' := digitCode_lt d' hdm'
      simp only [encodeLoop, encodeDigits_eq, if_pos hdm, if_pos hdm'] at he
      obtain ⟨p', hp', hpe⟩ := bind_eq_ok.mp he
      cases hpe
      rw [or_nibbles _ (by omega) _ (by omega), byteOf_natCast]
      have h1 : (UInt8.ofNat (digitCode d + 16 * digitCode d')).toNat = digitCode d + 16 * digitCode d' := by
        simp only [UInt8.toNat_ofNat']; omega
      have h2 : (digitCode d + 16 * digitCode d') % 16 = digitCode d := by omega
      have h3 : (digitCode d + 16 * digitCode d') / 16 = digitCode d' := by omega
      simp only [List.length_cons] at hn hr hm
      simp only [List.cons_append, decodeLoop, and_0f, shr_4, h1, h2, h3]
      rw [if_pos (by omega), idx_decodeDigits (digitChars_code d hdm)]
      simp only [ok_bind, if_pos (digit_ne_F d hdm), push_ok (show out.length < n by omega),
        idx_decodeDigits (digitChars_code d' hdm')]
      rw [if_neg (by simp; omega), if_neg (digit_ne_F d' hdm'), push_ok (by simp; omega), ok_bind]
      rw [ih src.length (by omega) src rfl _ _ p' (fun x hx => hd x (by simp [hx])) hp' (by simp; omega)
        (by rcases hr with h | h
            · exact .inl h
            · right; simp; omega)]
      simp; omega

/-- Complete description of `Decode` on arbitrary input. -/
theorem decodeLoop_spec (n : Nat) (src : Bytes) : ∀ (out : Bytes) (ri : Nat), out.length ≤ n → Digits out →
    ∃ r k, decodeLoop n src out ri = .ok r ∧ k ≤ src.length ∧ r.read = ri + k ∧
      (∀ ds, r.digits = .ok ds → ds.length ≤ n ∧ Digits ds ∧ (k = src.length ∨ ds.length = n) ∧
        ds.map digitCode = out.map digitCode ++ ((src.take k).flatMap nibbles).filter (· ≠ 15)) ∧
      (∀ e, r.digits = .error e → e = .semiMissingFill ∧ 
        out.length + (((src.take k).flatMap nibbles).filter (· ≠ 15)).length = n + 1) := by
  induction src with
  | nil =>
    intro out ri hl hd
    exact ⟨_, 0, rfl, Nat.le_refl _, rfl, by intro ds h; cases h; exact ⟨hl, hd, .inl rfl, by simp⟩,
      by intro e h; cases h⟩
  | cons o src ih =>
    intro out ri hl hd
    by_cases hlt : out.length < n
    · -- one octet is read
      have hlo : o.toNat % 16 < 16 := by omega
      have hhi : o.toNat / 16 < 16 := by have := o.toNat_lt; omega
      have key : ∀ k, k < 16 → (∃ d, idx decodeDigits (k : Nat) = .ok d ∧ d ∈ digitChars ∧ d ≠ 0x46 ∧ k ≠ 15 ∧ digitCode d = k)
          ∨ (idx decodeDigits (k : Nat) = .ok 0x46 ∧ k = 15) := by
        intro k hk
        by_cases h : k = 15
        · right; subst h; exact ⟨by decide, rfl⟩
        · left
          obtain ⟨d, h1, h2, h3, h4⟩ := decodeDigits_lt k (by omega)
          refine ⟨d, idx_decodeDigits h1, h2, h3, h, ?_⟩
          have : ∀ k < 15, (digitChars[k]?).all (fun d => digitCode d == k) = true := by decide +kernel
          have := this k (by omega)
          rw [h4] at this; simpa using this
      have hnib : nibbles o = [o.toNat % 16, o.toNat / 16] := rfl
      simp only [decodeLoop, if_pos hlt, and_0f, shr_4]
      -- low nibble
      have low : ∃ out1, (do
          let d ← idx decodeDigits ((o.toNat % 16 : Nat) : Int)
          if d ≠ 0x46 then push n out d else .ok out) = .ok out1 ∧ out1.length ≤ n ∧ Digits out1 ∧
          out1.map digitCode = out.map digitCode ++ [o.toNat % 16].filter (· ≠ 15) ∧
          (∃ d, idx decodeDigits ((o.toNat % 16 : Nat) : Int) = .ok d) := by
        rcases key _ hlo with ⟨d, h1, h2, h3, h4, h5⟩ | ⟨h1, h2⟩
        · refine ⟨out ++ [d], ?_, by simp; omega, ?_, ?_, ⟨d, h1⟩⟩
          · rw [h1]; simp [h3, push_ok hlt]
          · intro x hx; rcases List.mem_append.mp hx with hx | hx
            · exact hd x hx
            · simp at hx; subst hx; exact h2
          · simp [h4, h5]
        · exact ⟨out, by rw [h1]; simp, hl, hd, by simp [h2], ⟨_, h1⟩⟩
      obtain ⟨out1, hlow, hl1, hd1, hm1, d0, hd0⟩ := low
      rw [hd0] at hlow ⊢
      simp only [ok_bind] at hlow ⊢
      have hK : ∀ K : Bytes → M DecodeResult, (if d0 ≠ 0x46 then push n out d0 >>= K else K out) = K out1 := by
        intro K
        split at hlow
        · rw [if_pos ‹_›, hlow, ok_bind]
        · rw [if_neg ‹_›]; cases hlow; rfl
      rw [hK]
      have hlen1 : out1.length = out.length + ([o.toNat % 16].filter (· ≠ 15)).length := by
        have := congrArg List.length hm1; simpa using this
      rcases key _ hhi with ⟨d, h1, h2, h3, h4, h5⟩ | ⟨h1, h2⟩
      · rw [h1]; simp only [ok_bind]
        by_cases hfull : out1.length = n
        · rw [if_pos ⟨hfull, h3⟩]
          refine ⟨_, 1, rfl, by simp, rfl, (by intro ds h; cases h), ?_⟩
          intro e he; cases he
          refine ⟨rfl, ?_⟩
          simp only [List.take_succ_cons, List.take_zero, List.flatMap_cons, List.flatMap_nil, List.append_nil, hnib]
          rw [show [o.toNat % 16, o.toNat / 16] = [o.toNat % 16] ++ [o.toNat / 16] from rfl, List.filter_append,
            List.length_append, show ([o.toNat / 16].filter (· ≠ 15)) = [o.toNat / 16] by simp [h4]]
          simp only [List.length_singleton]; omega
        · rw [if_neg (by simp [hfull]), if_neg h3, push_ok (by omega), ok_bind]
          have hd2 : Digits (out1 ++ [d]) := by
            intro x hx; rcases List.mem_append.mp hx with hx | hx
            · exact hd1 x hx
            · simp at hx; subst hx; exact h2
          obtain ⟨r, k, e1, e2, e3, e4, e5⟩ := ih (out1 ++ [d]) (ri + 1) (by simp; omega) hd2
          refine ⟨r, k + 1, e1, by simp; omega, by omega, ?_, ?_⟩
          · intro ds h
            obtain ⟨a, b, c, f⟩ := e4 ds h
            refine ⟨a, b, ?_, ?_⟩
            · rcases c with c | c
              · left; simp [c]
              · exact .inr c
            · rw [f, List.map_append, hm1, List.take_succ_cons, List.flatMap_cons, List.filter_append, hnib]
              simp [h4, h5, List.filter_cons]
              split <;> simp
          · intro e h
            obtain ⟨a, b⟩ := e5 e h
            refine ⟨a, ?_⟩
            rw [List.take_succ_cons, List.flatMap_cons, List.filter_append, List.length_append, hnib]
            rw [show [o.toNat % 16, o.toNat / 16] = [o.toNat % 16] ++ [o.toNat / 16] from rfl, List.filter_append,
              List.length_append, show ([o.toNat / 16].filter (· ≠ 15)) = [o.toNat / 16] by simp [h4]]
            simp only [List.length_append, List.length_singleton] at b ⊢; omega
      · rw [h1]; simp only [ok_bind]
        rw [if_neg (by simp), if_pos trivial]
        obtain ⟨r, k, e1, e2, e3, e4, e5⟩ := ih out1 (ri + 1) hl1 hd1
        refine ⟨r, k + 1, e1, by simp; omega, by omega, ?_, ?_⟩
        · intro ds h
          obtain ⟨a, b, c, f⟩ := e4 ds h
          refine ⟨a, b, ?_, ?_⟩
          · rcases c with c | c
            · left; simp [c]
            · exact .inr c
          · rw [f, hm1, List.take_succ_cons, List.flatMap_cons, List.filter_append, hnib]
            simp [h2, List.filter_cons]
        · intro e h
          obtain ⟨a, b⟩ := e5 e h
          refine ⟨a, ?_⟩
          rw [List.take_succ_cons, List.flatMap_cons, List.filter_append, List.length_append, hnib]
          rw [show [o.toNat % 16, o.toNat / 16] = [o.toNat % 16] ++ [o.toNat / 16] from rfl, List.filter_append,
            List.length_append, show ([o.toNat / 16].filter (· ≠ 15)) = [] by simp [h2]]
          simp only [List.length_nil]; omega
    · simp only [decodeLoop, if_neg hlt]
      exact ⟨_, 0, rfl, by simp, rfl, by intro ds h; cases h; exact ⟨hl, hd, .inr (by omega), by simp⟩,
        by intro e h; cases h⟩

theorem encode_length (ds p : Bytes) (h : Digits ds) (he : Encode ds = .ok p) : p.length = (ds.length + 1) / 2 := by
  obtain ⟨out, e1, e2⟩ := encodeLoop_ok ds none (by simp) h
  unfold Encode at he; rw [e1] at he; cases he
  have hl : ∀ l : Bytes, (l.flatMap nibbles).length = 2 * l.length := by
    intro l; induction l with
    | nil => rfl
    | cons a l ih => simp [ih, nibbles]; omega
  have := congrArg List.length e2
  rw [hl] at this
  simp at this
  split at this <;> simp at this <;> omega

end Verif.Proofs
