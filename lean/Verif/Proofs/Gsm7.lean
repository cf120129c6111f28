import Verif.Proofs.Tables
import Verif.Proofs.Unicode

/-! Helper lemmas for character sets and GSM 7-bit text. -/

namespace Verif.Proofs
open Verif.Model Verif.Model.Unicode

/-! Order independence of `generateEncoder`. -/

theorem lookup_insert {α β : Type} [BEq α] [LawfulBEq α] [DecidableEq α] (m : List (α × β)) (k : α) (v : β) (x : α) :
    (Charset.insert m k v).lookup x = if x = k then some v else m.lookup x := by
  unfold Charset.insert
  by_cases h : x = k
  · subst h; simp
  · rw [if_neg h, List.lookup_cons]
    have hb : (x == k) = false := by simpa using h
    rw [hb]
    simp only
    induction m with
    | nil => rfl
    | cons y m ih =>
      obtain ⟨a, b⟩ := y
      by_cases ha : a = k
      · subst ha
        simp only [List.filter_cons, beq_self_eq_true, Bool.not_true, Bool.false_eq_true, if_false]
        rw [ih, List.lookup_cons, hb]
      · have hb2 : (a == k) = false := by simpa using ha
        simp only [List.filter_cons, hb2, Bool.not_false, if_true, List.lookup_cons]
        split <;> simp_all

/-- Least of two optional septets. -/
def minOpt (a : Option UInt8) (b : UInt8) : Option UInt8 :=
  match a with
  | none => some b
  | some x => if x > b then some b else some x

theorem lookup_genStep (e : Charset.Encoder) (kv : UInt8 × Nat) (r : Nat) :
    (Charset.genStep e kv).lookup r = if r = kv.2 then minOpt (e.lookup r) kv.1 else e.lookup r := by
  unfold Charset.genStep
  split
  · rename_i h
    rw [lookup_insert]
    by_cases hr : r = kv.2
    · subst hr; simp [h, minOpt]
    · simp [hr]
  · rename_i ko h
    by_cases hr : r = kv.2
    · subst hr
      simp only [if_true, h, minOpt]
      split
      · rw [lookup_insert]; simp
      · exact h
    · rw [if_neg hr]
      split
      · rw [lookup_insert, if_neg hr]
      · rfl

theorem minOpt_comm (a : Option UInt8) (b c : UInt8) : minOpt (minOpt a b) c = minOpt (minOpt a c) b := by
  have key : ∀ (x y : UInt8), minOpt (some x) y = some (UInt8.ofNat (min x.toNat y.toNat)) := by
    intro x y
    unfold minOpt
    simp only
    split
    · rename_i h
      have h' : y.toNat < x.toNat := UInt8.lt_iff_toNat_lt.mp h
      rw [Nat.min_eq_right (by omega), UInt8.ofNat_toNat]
    · rename_i h
      have h' : ¬ y.toNat < x.toNat := fun h' => h (UInt8.lt_iff_toNat_lt.mpr h')
      rw [Nat.min_eq_left (by omega), UInt8.ofNat_toNat]
  have lt : ∀ x y : UInt8, min x.toNat y.toNat < 256 := fun x y => by
    have := x.toNat_lt; have := y.toNat_lt; omega
  cases a with
  | none =>
    show minOpt (some b) c = minOpt (some c) b
    rw [key, key, Nat.min_comm]
  | some x =>
    rw [key, key, key, key, ofNat_toNat_lt _ (lt _ _), ofNat_toNat_lt _ (lt _ _), Nat.min_assoc, Nat.min_assoc,
      Nat.min_comm b.toNat]

theorem generate_perm {l1 l2 : Charset.Decoder} (h : l1.Perm l2) (r : Nat) : ∀ e1 e2 : Charset.Encoder,
    e1.lookup r = e2.lookup r → (l1.foldl Charset.genStep e1).lookup r = (l2.foldl Charset.genStep e2).lookup r := by
  have cong : ∀ (l : Charset.Decoder) (e1 e2 : Charset.Encoder), e1.lookup r = e2.lookup r →
      (l.foldl Charset.genStep e1).lookup r = (l.foldl Charset.genStep e2).lookup r := by
    intro l
    induction l with
    | nil => intro _ _ h; exact h
    | cons x l ih =>
      intro e1 e2 h
      exact ih _ _ (by rw [lookup_genStep, lookup_genStep, h])
  induction h with
  | nil => intro _ _ h; exact h
  | cons x _ ih =>
    intro e1 e2 h
    exact ih _ _ (by rw [lookup_genStep, lookup_genStep, h])
  | swap x y l =>
    intro e1 e2 h
    refine cong l _ _ ?_
    rw [lookup_genStep, lookup_genStep, lookup_genStep, lookup_genStep, h]
    by_cases hx : r = x.2
    · by_cases hy : r = y.2
      · rw [if_pos hx, if_pos hy, if_pos hy, if_pos hx, minOpt_comm]
      · rw [if_pos hx, if_neg hy, if_neg hy, if_pos hx]
    · rw [if_neg hx, if_neg hx]
  | trans _ _ ih1 ih2 =>
    intro e1 e2 h
    exact (ih1 e1 e1 rfl).trans (ih2 e1 e2 h)

/-! Encoding and decoding loops. -/

open Gsm7

theorem encoder_loop_ok (e : Gsm7.Encoder) (us : List Nat) (g : Bytes) (h : e.loop us = .ok g) :
    ∀ u ∈ us, (e.set.lookup u).isSome ∨ (e.ext.lookup u).isSome := by
  induction us generalizing g with
  | nil => simp
  | cons u us ih =>
    intro v hv
    unfold Encoder.loop at h
    split at h
    · obtain ⟨r, hr, _⟩ := bind_eq_ok.mp h
      rcases List.mem_cons.mp hv with rfl | hv
      · simp_all
      · exact ih r hr v hv
    · split at h
      · obtain ⟨r, hr, _⟩ := bind_eq_ok.mp h
        rcases List.mem_cons.mp hv with rfl | hv
        · simp_all
        · exact ih r hr v hv
      · cases h

theorem encoder_loop_complete (e : Gsm7.Encoder) (us : List Nat)
    (h : ∀ u ∈ us, (e.set.lookup u).isSome ∨ (e.ext.lookup u).isSome) : ∃ g, e.loop us = .ok g := by
  induction us with
  | nil => exact ⟨[], rfl⟩
  | cons u us ih =>
    obtain ⟨g, hg⟩ := ih (fun v hv => h v (by simp [hv]))
    unfold Encoder.loop
    rw [hg]
    split
    · exact ⟨_, rfl⟩
    · split
      · exact ⟨_, rfl⟩
      · rename_i h1 _ h2
        have := h u (by simp)
        rw [h1, h2] at this
        simp at this

theorem encoder_loop_error (e : Gsm7.Encoder) (us : List Nat) (f : Fault) (h : e.loop us = .error f) :
    ∃ a u b, us = a ++ u :: b ∧ (∀ v ∈ a, (e.set.lookup v).isSome ∨ (e.ext.lookup v).isSome) ∧
      e.set.lookup u = none ∧ e.ext.lookup u = none ∧ f = .err (.gsm7InvalidUTF8 u) := by
  induction us with
  | nil => cases h
  | cons u us ih =>
    unfold Encoder.loop at h
    split at h
    · rename_i g hg
      cases hr : e.loop us with
      | ok r => rw [hr] at h; cases h
      | error f' =>
        rw [hr] at h; cases h
        obtain ⟨a, v, b, e1, e2, e3⟩ := ih hr
        refine ⟨u :: a, v, b, by simp [e1], ?_, e3⟩
        intro w hw; rcases List.mem_cons.mp hw with rfl | hw
        · simp [hg]
        · exact e2 w hw
    · rename_i hset
      split at h
      · rename_i g hg
        cases hr : e.loop us with
        | ok r => rw [hr] at h; cases h
        | error f' =>
          rw [hr] at h; cases h
          obtain ⟨a, v, b, e1, e2, e3⟩ := ih hr
          refine ⟨u :: a, v, b, by simp [e1], ?_, e3⟩
          intro w hw; rcases List.mem_cons.mp hw with rfl | hw
          · simp [hg]
          · exact e2 w hw
      · rename_i hext
        cases h
        exact ⟨[], u, us, rfl, by simp, hset, hext, rfl⟩

theorem encoder_loop_septets (e : Gsm7.Encoder) (hs : ∀ r g, e.set.lookup r = some g → g.toNat < 128)
    (hx : ∀ r g, e.ext.lookup r = some g → g.toNat < 128) (us : List Nat) (g : Bytes) (h : e.loop us = .ok g) :
    (∀ b ∈ g, b.toNat < 128) ∧
    g.length = us.length + (us.filter fun u => (e.set.lookup u).isNone).length := by
  induction us generalizing g with
  | nil => cases h; simp
  | cons u us ih =>
    unfold Encoder.loop at h
    split at h
    · rename_i c hc
      obtain ⟨r, hr, h⟩ := bind_eq_ok.mp h
      cases h
      obtain ⟨h1, h2⟩ := ih r hr
      refine ⟨?_, ?_⟩
      · intro b hb; rcases List.mem_cons.mp hb with rfl | hb
        · exact hs _ _ hc
        · exact h1 b hb
      · simp [hc, h2]; omega
    · rename_i hc
      split at h
      · rename_i c hc'
        obtain ⟨r, hr, h⟩ := bind_eq_ok.mp h
        cases h
        obtain ⟨h1, h2⟩ := ih r hr
        refine ⟨?_, ?_⟩
        · intro b hb; rcases List.mem_cons.mp hb with rfl | hb
          · decide
          · rcases List.mem_cons.mp hb with rfl | hb
            · exact hx _ _ hc'
            · exact h1 b hb
        · simp [hc, h2]; omega
      · cases h

theorem decode_encode_loop (e : Gsm7.Encoder) (d : Gsm7.Decoder) (hs : TablesOk e.set d.set)
    (hx : TablesOk e.ext d.ext) (us : List Nat) (g : Bytes) (h : e.loop us = .ok g) (hesc : 0x1b ∉ us) :
    d.loop g false = .ok (encodeRunes us) := by
  induction us generalizing g with
  | nil => cases h; rfl
  | cons u us ih =>
    have hu : u ≠ 0x1b := fun h => hesc (by simp [h])
    have hus : 0x1b ∉ us := fun h => hesc (by simp [h])
    unfold Encoder.loop at h
    split at h
    · rename_i c hc
      obtain ⟨r, hr, h⟩ := bind_eq_ok.mp h
      cases h
      have hd := (hs.sect _ _ hc).1
      have hne : c ≠ esc := fun h => hu ((hs.esc _ _ hd).mp h)
      simp only [Decoder.loop, if_neg hne, hd, ih r hr hus]
      rfl
    · split at h
      · rename_i c hc
        obtain ⟨r, hr, h⟩ := bind_eq_ok.mp h
        cases h
        have hd := (hx.sect _ _ hc).1
        have hne : c ≠ esc := fun h => hu ((hx.esc _ _ hd).mp h)
        simp only [Decoder.loop, if_neg hne, if_true, hd, ih r hr hus]
        rfl
      · cases h

/-- Decoded text never contains U+001B. -/
theorem decoder_loop_no_esc (d : Gsm7.Decoder) (hs : ∀ g r, d.set.lookup g = some r → (g = esc ↔ r = 0x1b))
    (hx : ∀ g r, d.ext.lookup g = some r → (g = esc ↔ r = 0x1b)) (src : Bytes) :
    ∀ (b : Bool) (out : Bytes), d.loop src b = .ok out → ∃ rs, out = encodeRunes rs ∧ 0x1b ∉ rs ∧
      ∀ r ∈ rs, isScalar r = true := by
  have spc : encodeRune 0x20 = [sp] := rfl
  have step : ∀ (m : Nat) (rest rs : Bytes) (l : List Nat), m ≠ 0x1b → rest = encodeRunes l → 0x1b ∉ l →
      (∀ r ∈ l, isScalar r = true) → ∃ rs, encodeRune m ++ rest = encodeRunes rs ∧ 0x1b ∉ rs ∧
      ∀ r ∈ rs, isScalar r = true := by
    intro m rest rs l hm hr hl hsc
    refine ⟨sanitize m :: l, ?_, ?_, ?_⟩
    · rw [encodeRune_sanitize, hr]; simp [encodeRunes]
    · simp only [List.mem_cons, not_or]
      refine ⟨?_, hl⟩
      unfold sanitize; split
      · exact fun h => hm h.symm
      · decide
    · intro r hr
      rcases List.mem_cons.mp hr with rfl | hr
      · exact sanitize_scalar m
      · exact hsc r hr
  induction src with
  | nil =>
    intro b out h
    cases h
    cases b
    · exact ⟨[], rfl, by simp, by simp⟩
    · exact ⟨[0x20], rfl, by decide, by decide⟩
  | cons g src ih =>
    intro b out h
    have sps : ∀ out, (do let rest ← d.loop src false; return sp :: rest : M Bytes) = .ok out →
        ∃ rs, out = encodeRunes rs ∧ 0x1b ∉ rs ∧ ∀ r ∈ rs, isScalar r = true := by
      intro out h
      obtain ⟨r, hr, h⟩ := bind_eq_ok.mp h
      cases h
      obtain ⟨l, hl, hl', hsc⟩ := ih false r hr
      exact step 0x20 r r l (by decide) hl hl' hsc
    have rns : ∀ m out, m ≠ 0x1b → (do let rest ← d.loop src false; return encodeRune m ++ rest : M Bytes) = .ok out →
        ∃ rs, out = encodeRunes rs ∧ 0x1b ∉ rs ∧ ∀ r ∈ rs, isScalar r = true := by
      intro m out hm h
      obtain ⟨r, hr, h⟩ := bind_eq_ok.mp h
      cases h
      obtain ⟨l, hl, hl', hsc⟩ := ih false r hr
      exact step m r r l hm hl hl' hsc
    cases b
    · unfold Decoder.loop at h
      split at h
      · exact ih true out h
      · rename_i hg
        split at h
        · rename_i m hm
          exact rns m out (fun e => hg ((hs _ _ hm).mpr e)) h
        · split at h
          · cases h
          · exact sps out h
    · unfold Decoder.loop at h
      split at h
      · exact sps out h
      · rename_i hg
        split at h
        · rename_i m hm
          exact rns m out (fun e => hg ((hx _ _ hm).mpr e)) h
        · split at h
          · cases h
          · split at h
            · rename_i m hm
              exact rns m out (fun e => hg ((hs _ _ hm).mpr e)) h
            · exact sps out h

/-- Non-strict decoding is total. -/
theorem decoder_loop_total (d : Gsm7.Decoder) (hd : d.strict = false) (src : Bytes) :
    ∀ b, ∃ rs, d.loop src b = .ok (encodeRunes rs) ∧ ∀ r ∈ rs, isScalar r = true := by
  have sps : sp :: [] = encodeRunes [0x20] := rfl
  have cons : ∀ (m : Nat) (l : List Nat), (∀ r ∈ l, isScalar r = true) →
      ∃ rs, encodeRune m ++ encodeRunes l = encodeRunes rs ∧ ∀ r ∈ rs, isScalar r = true := by
    intro m l hl
    refine ⟨sanitize m :: l, by rw [encodeRune_sanitize]; simp [encodeRunes], ?_⟩
    intro r hr; rcases List.mem_cons.mp hr with rfl | hr
    · exact sanitize_scalar m
    · exact hl r hr
  induction src with
  | nil =>
    intro b; cases b
    · exact ⟨[], rfl, by simp⟩
    · exact ⟨[0x20], rfl, by decide⟩
  | cons g src ih =>
    intro b
    obtain ⟨l, hl, hsc⟩ := ih false
    obtain ⟨l2, hl2, hsc2⟩ := ih true
    cases b
    · unfold Decoder.loop
      rw [hl, hl2]
      split
      · exact ⟨l2, rfl, hsc2⟩
      · split
        · rename_i m _
          obtain ⟨rs, e, h⟩ := cons m l hsc
          exact ⟨rs, by rw [← e]; rfl, h⟩
        · rw [hd]
          obtain ⟨rs, e, h⟩ := cons 0x20 l hsc
          exact ⟨rs, by rw [← e]; rfl, h⟩
    · unfold Decoder.loop
      rw [hl, hd]
      obtain ⟨rs0, e0, h0⟩ := cons 0x20 l hsc
      split
      · exact ⟨rs0, by rw [← e0]; rfl, h0⟩
      · split
        · rename_i m _
          obtain ⟨rs, e, h⟩ := cons m l hsc
          exact ⟨rs, by rw [← e]; rfl, h⟩
        · simp only [Bool.false_eq_true, if_false]
          split
          · rename_i m _
            obtain ⟨rs, e, h⟩ := cons m l hsc
            exact ⟨rs, by rw [← e]; rfl, h⟩
          · exact ⟨rs0, by rw [← e0]; rfl, h0⟩

/-! Text recovered from its runes. -/

theorem encodeRune_decodeRune (b0 : UInt8) (t : Bytes) (h : (decodeRune b0 t).1 ≠ 0xFFFD) :
    encodeRune (decodeRune b0 t).1 ++ t.drop ((decodeRune b0 t).2 - 1) = b0 :: t := by
  have hsc := decodeRune_scalar b0 t
  have hb := b0.toNat_lt
  unfold encodeRune
  rw [hsc]
  simp only [if_true]
  unfold decodeRune at h ⊢
  simp only at h ⊢
  have hnr : ∀ (P : Prop), (replacement ≠ 0xFFFD) → P := fun P h => absurd rfl h
  by_cases h1 : b0.toNat < 0x80
  · simp only [if_pos h1]; simp
  simp only [if_neg h1] at h ⊢
  by_cases h2 : b0.toNat < 0xC2
  · simp only [if_pos h2] at h; exact absurd rfl h
  simp only [if_neg h2] at h ⊢
  by_cases h3 : b0.toNat < 0xE0
  · simp only [if_pos h3] at h ⊢
    cases t with
    | nil => exact absurd rfl h
    | cons b1 t =>
      simp only at h ⊢
      by_cases hs : secondOk b0.toNat b1 = true
      · have hc := hs
        unfold secondOk at hc
        rw [if_neg (by omega), if_neg (by omega), if_neg (by omega), if_neg (by omega), contIn_iff] at hc
        simp only [hs, if_true]
        have := b1.toNat_lt
        rw [if_neg (by omega), if_pos (by omega)]
        have e1 : UInt8.ofNat (0xC0 + (b0.toNat % 32 * 64 + b1.toNat % 64) / 64) = b0 := by
          apply UInt8.toNat_inj.mp; simp only [UInt8.toNat_ofNat']; omega
        have e2 : UInt8.ofNat (0x80 + (b0.toNat % 32 * 64 + b1.toNat % 64) % 64) = b1 := by
          apply UInt8.toNat_inj.mp; simp only [UInt8.toNat_ofNat']; omega
        rw [e1, e2]; rfl
      · rw [if_neg hs] at h; exact absurd rfl h
  simp only [if_neg h3] at h ⊢
  by_cases h4 : b0.toNat < 0xF0
  · simp only [if_pos h4] at h ⊢
    match t, h with
    | [], h => exact absurd rfl h
    | [b1], h => exact absurd rfl h
    | b1 :: b2 :: t, h =>
      simp only at h ⊢
      by_cases hs : (secondOk b0.toNat b1 && contIn 0x80 0xBF b2) = true
      · have hc := hs
        rw [Bool.and_eq_true, contIn_iff] at hc
        simp only [hs, if_true]
        have := b1.toNat_lt
        have := b2.toNat_lt
        have hlo : 0x80 ≤ b1.toNat ∧ b1.toNat ≤ 0xBF ∧ (b0.toNat = 0xE0 → 0xA0 ≤ b1.toNat) := by
          have hc1 := hc.1
          unfold secondOk at hc1
          split at hc1 <;> (try split at hc1) <;> (try split at hc1) <;> (try split at hc1) <;>
            rw [contIn_iff] at hc1 <;> omega
        rw [if_neg (by omega), if_neg (by omega), if_pos (by omega)]
        have e1 : UInt8.ofNat (0xE0 + (b0.toNat % 16 * 4096 + b1.toNat % 64 * 64 + b2.toNat % 64) / 4096) = b0 := by
          apply UInt8.toNat_inj.mp; simp only [UInt8.toNat_ofNat']; omega
        have e2 : UInt8.ofNat (0x80 + (b0.toNat % 16 * 4096 + b1.toNat % 64 * 64 + b2.toNat % 64) / 64 % 64) = b1 := by
          apply UInt8.toNat_inj.mp; simp only [UInt8.toNat_ofNat']; omega
        have e3 : UInt8.ofNat (0x80 + (b0.toNat % 16 * 4096 + b1.toNat % 64 * 64 + b2.toNat % 64) % 64) = b2 := by
          apply UInt8.toNat_inj.mp; simp only [UInt8.toNat_ofNat']; omega
        rw [e1, e2, e3]; rfl
      · rw [if_neg hs] at h; exact absurd rfl h
  simp only [if_neg h4] at h ⊢
  by_cases h5 : b0.toNat < 0xF5
  · simp only [if_pos h5] at h ⊢
    match t, h with
    | [], h => exact absurd rfl h
    | [b1], h => exact absurd rfl h
    | [b1, b2], h => exact absurd rfl h
    | b1 :: b2 :: b3 :: t, h =>
      simp only at h ⊢
      by_cases hs : (secondOk b0.toNat b1 && contIn 0x80 0xBF b2 && contIn 0x80 0xBF b3) = true
      · have hc := hs
        rw [Bool.and_eq_true, Bool.and_eq_true, contIn_iff, contIn_iff] at hc
        simp only [hs, if_true]
        have := b1.toNat_lt
        have := b2.toNat_lt
        have := b3.toNat_lt
        have hlo : 0x80 ≤ b1.toNat ∧ b1.toNat ≤ 0xBF ∧ (b0.toNat = 0xF0 → 0x90 ≤ b1.toNat) := by
          have hc1 := hc.1.1
          unfold secondOk at hc1
          split at hc1 <;> (try split at hc1) <;> (try split at hc1) <;> (try split at hc1) <;>
            rw [contIn_iff] at hc1 <;> omega
        rw [if_neg (by omega), if_neg (by omega), if_neg (by omega)]
        have e1 : UInt8.ofNat (0xF0 + (b0.toNat % 8 * 262144 + b1.toNat % 64 * 4096 + b2.toNat % 64 * 64 + b3.toNat % 64) / 262144) = b0 := by
          apply UInt8.toNat_inj.mp; simp only [UInt8.toNat_ofNat']; omega
        have e2 : UInt8.ofNat (0x80 + (b0.toNat % 8 * 262144 + b1.toNat % 64 * 4096 + b2.toNat % 64 * 64 + b3.toNat % 64) / 4096 % 64) = b1 := by
          apply UInt8.toNat_inj.mp; simp only [UInt8.toNat_ofNat']; omega
        have e3 : UInt8.ofNat (0x80 + (b0.toNat % 8 * 262144 + b1.toNat % 64 * 4096 + b2.toNat % 64 * 64 + b3.toNat % 64) / 64 % 64) = b2 := by
          apply UInt8.toNat_inj.mp; simp only [UInt8.toNat_ofNat']; omega
        have e4 : UInt8.ofNat (0x80 + (b0.toNat % 8 * 262144 + b1.toNat % 64 * 4096 + b2.toNat % 64 * 64 + b3.toNat % 64) % 64) = b3 := by
          apply UInt8.toNat_inj.mp; simp only [UInt8.toNat_ofNat']; omega
        rw [e1, e2, e3, e4]; rfl
      · rw [if_neg hs] at h; exact absurd rfl h
  · simp only [if_neg h5] at h; exact absurd rfl h

theorem encodeRunes_decodeRunesAux (n : Nat) : ∀ p : Bytes, p.length ≤ n → 0xFFFD ∉ decodeRunesAux n p →
    encodeRunes (decodeRunesAux n p) = p := by
  induction n with
  | zero => intro p h _; have : p = [] := List.length_eq_zero_iff.mp (by omega); subst this; rfl
  | succ n ih =>
    intro p h hf
    cases p with
    | nil => rfl
    | cons b t =>
      simp only [decodeRunesAux] at hf ⊢
      simp only [List.mem_cons, not_or] at hf
      have e := encodeRune_decodeRune b t (fun h => hf.1 h.symm)
      have : encodeRunes ((decodeRune b t).1 :: decodeRunesAux n (t.drop ((decodeRune b t).2 - 1))) =
        encodeRune (decodeRune b t).1 ++ encodeRunes (decodeRunesAux n (t.drop ((decodeRune b t).2 - 1))) := by
        simp [encodeRunes]
      rw [this, ih _ (by simp at h; simp; omega) hf.2, e]

theorem encodeRunes_decodeRunes (p : Bytes) (h : 0xFFFD ∉ decodeRunes p) : encodeRunes (decodeRunes p) = p :=
  encodeRunes_decodeRunesAux _ p (Nat.le_refl _) h

end Verif.Proofs

namespace Verif.Proofs
open Verif.Model Verif.Model.Unicode Verif.Model.Gsm7

theorem plain_options (opts : List Option') (h : ∀ o ∈ opts, ∃ n, o = .charset n ∨ o = .extCharset n) :
    ∃ l s, NewEncoder opts = ⟨Charset.NewEncoder l, Charset.NewExtEncoder s⟩ ∧
      NewDecoder opts = ⟨Charset.NewDecoder l, Charset.NewExtDecoder s, false⟩ := by
  have key : ∀ (opts : List Option'), (∀ o ∈ opts, ∃ n, o = .charset n ∨ o = .extCharset n) → ∀ l s, ∃ l' s',
      opts.foldl applyEncoderOption ⟨Charset.NewEncoder l, Charset.NewExtEncoder s⟩ =
        ⟨Charset.NewEncoder l', Charset.NewExtEncoder s'⟩ ∧
      opts.foldl applyDecoderOption ⟨Charset.NewDecoder l, Charset.NewExtDecoder s, false⟩ =
        ⟨Charset.NewDecoder l', Charset.NewExtDecoder s', false⟩ := by
    intro opts
    induction opts with
    | nil => intro _ l s; exact ⟨l, s, rfl, rfl⟩
    | cons o opts ih =>
      intro h l s
      have hrest := ih (fun x hx => h x (by simp [hx]))
      obtain ⟨n, rfl | rfl⟩ := h o (by simp)
      · exact hrest n s
      · exact hrest l n
  exact key opts h 0 0

theorem encodeRune_mem_esc (r : Nat) : (0x1b : UInt8) ∈ encodeRune r ↔ r = 0x1b := by
  have big : ∀ n, 0x80 ≤ n → n < 256 → (0x1b : UInt8) ≠ UInt8.ofNat n := by
    intro n h1 h2 h
    have := congrArg UInt8.toNat h
    rw [ofNat_toNat_lt n h2] at this
    have h27 : (0x1b : UInt8).toNat = 27 := rfl
    omega
  by_cases hsc : isScalar r = true
  · have hs := (isScalar_iff r).mp hsc
    unfold encodeRune
    rw [hsc]; simp only [if_true]
    split
    · simp only [List.mem_singleton]
      constructor
      · intro h
        have := congrArg UInt8.toNat h
        rw [ofNat_toNat_lt r (by omega)] at this
        exact this.symm
      · rintro rfl; rfl
    split
    · simp only [List.mem_cons, List.not_mem_nil, or_false]
      constructor
      · rintro (h | h)
        · exact absurd h (big _ (by omega) (by omega))
        · exact absurd h (big _ (by omega) (by omega))
      · intro h; omega
    split
    · simp only [List.mem_cons, List.not_mem_nil, or_false]
      constructor
      · rintro (h | h | h)
        · exact absurd h (big _ (by omega) (by omega))
        · exact absurd h (big _ (by omega) (by omega))
        · exact absurd h (big _ (by omega) (by omega))
      · intro h; omega
    · simp only [List.mem_cons, List.not_mem_nil, or_false]
      constructor
      · rintro (h | h | h | h)
        · exact absurd h (big _ (by omega) (by omega))
        · exact absurd h (big _ (by omega) (by omega))
        · exact absurd h (big _ (by omega) (by omega))
        · exact absurd h (big _ (by omega) (by omega))
      · intro h; omega
  · rw [encodeRune_sanitize, sanitize, if_neg hsc]
    constructor
    · intro h; exact absurd h (by decide)
    · rintro rfl; exact absurd (by decide) hsc

theorem encodeRunes_mem_esc (rs : List Nat) : (0x1b : UInt8) ∈ encodeRunes rs ↔ 0x1b ∈ rs := by
  unfold encodeRunes
  rw [List.mem_flatMap]
  constructor
  · rintro ⟨r, hr, h⟩; rw [encodeRune_mem_esc] at h; subst h; exact hr
  · intro h; exact ⟨_, h, (encodeRune_mem_esc _).mpr rfl⟩

/-- Text that encodes is valid UTF-8 without U+FFFD, and is recovered from its runes. -/
theorem encode_text (l s : Int) (us : List Nat) (g : Bytes)
    (h : Encoder.loop ⟨Charset.NewEncoder l, Charset.NewExtEncoder s⟩ us = .ok g) : 0xFFFD ∉ us := by
  intro hm
  have := encoder_loop_ok _ us g h _ hm
  simp only at this
  rcases this with h | h
  · obtain ⟨c, hc⟩ := Option.isSome_iff_exists.mp h
    exact ((locking_ok l).scalar _ _ ((locking_ok l).sect _ _ hc).1).2 rfl
  · obtain ⟨c, hc⟩ := Option.isSome_iff_exists.mp h
    exact ((shift_ok s).scalar _ _ ((shift_ok s).sect _ _ hc).1).2 rfl

theorem encoder_encode_eq (e : Encoder) (src : Bytes) : e.Encode src = e.loop (decodeRunes src) := by
  unfold Encoder.Encode
  split
  · rename_i h
    have : src = [] := List.length_eq_zero_iff.mp h
    subst this; rfl
  · rfl

theorem decoder_decode_eq (d : Decoder) (src : Bytes) : d.Decode src = d.loop src false := by
  unfold Decoder.Decode
  split
  · rename_i h
    have : src = [] := List.length_eq_zero_iff.mp h
    subst this; rfl
  · rfl

/-- The main round trip, with the exact exception. -/
theorem gsm7_roundtrip (l s : Int) (strict : Bool) (text g : Bytes)
    (h : Encoder.Encode ⟨Charset.NewEncoder l, Charset.NewExtEncoder s⟩ text = .ok g) :
    Decoder.Decode ⟨Charset.NewDecoder l, Charset.NewExtDecoder s, strict⟩ g = .ok text ↔ (0x1b : UInt8) ∉ text := by
  rw [encoder_encode_eq] at h
  rw [decoder_decode_eq]
  have htext := encodeRunes_decodeRunes text (encode_text l s _ g h)
  have hiff := encodeRunes_mem_esc (decodeRunes text)
  rw [htext] at hiff
  rw [hiff]
  constructor
  · intro hd hm
    obtain ⟨rs, e, hn, hsc⟩ := decoder_loop_no_esc ⟨Charset.NewDecoder l, Charset.NewExtDecoder s, strict⟩
      (locking_ok l).esc (shift_ok s).esc g false text hd
    have : decodeRunes text = rs := by rw [e, decodeRunes_encodeRunes rs hsc]
    rw [this] at hm
    exact hn hm
  · intro hn
    rw [decode_encode_loop ⟨Charset.NewEncoder l, Charset.NewExtEncoder s⟩ _ (locking_ok l) (shift_ok s) _ g h hn, htext]

/-! Escape state. -/

/-- Flag `escaped` after a prefix. -/
def escAfter : Bytes → Bool → Bool
  | [], b => b
  | g :: src, b => escAfter src (if b then false else g == esc)

theorem escAfter_append (a c : Bytes) (b : Bool) : escAfter (a ++ c) b = escAfter c (escAfter a b) := by
  induction a generalizing b with
  | nil => rfl
  | cons g a ih => simp [escAfter, ih]

theorem escAfter_run (a : Bytes) : escAfter a false = decide ((a.reverse.takeWhile (· == esc)).length % 2 = 1) := by
  have gen : ∀ r : Bytes, escAfter r.reverse false = decide ((r.takeWhile (· == esc)).length % 2 = 1) := by
    intro r
    induction r with
    | nil => rfl
    | cons g r ih =>
      rw [List.reverse_cons, escAfter_append, ih, List.takeWhile_cons]
      simp only [escAfter]
      by_cases hg : g = esc
      · subst hg
        simp only [beq_self_eq_true, if_true, List.length_cons]
        by_cases h : (r.takeWhile (· == esc)).length % 2 = 1
        · simp [h]; omega
        · simp [h]; omega
      · have hb : (g == esc) = false := by simpa using hg
        simp [hb]
  have := gen a.reverse
  rwa [List.reverse_reverse] at this

/-- Starting with the flag `b`, after `pre` the septet `g` has no mapping in the table consulted for it. -/
def UnmappedFrom (d : Decoder) (b : Bool) (pre : Bytes) (g : UInt8) : Prop :=
  g ≠ esc ∧ if escAfter pre b then d.ext.lookup g = none else d.set.lookup g = none

theorem unmappedFrom_tail {d : Decoder} {b : Bool} {g : UInt8} {src : Bytes}
    (h : ∀ pre g' post, g :: src = pre ++ g' :: post → ¬ UnmappedFrom d b pre g') :
    ¬ UnmappedFrom d b [] g ∧
    ∀ pre g' post, src = pre ++ g' :: post → ¬ UnmappedFrom d (if b then false else g == esc) pre g' :=
  ⟨h [] g src rfl, fun pre g' post e hu => h (g :: pre) g' post (by rw [e]; rfl) hu⟩

theorem strict_clean (d : Decoder) (src : Bytes) : ∀ b, (∀ pre g post, src = pre ++ g :: post → ¬ UnmappedFrom d b pre g) →
    ({ d with strict := true }).loop src b = ({ d with strict := false }).loop src b := by
  induction src with
  | nil => intro b _; rfl
  | cons g src ih =>
    intro b h
    obtain ⟨h1, h2⟩ := unmappedFrom_tail h
    have ih := ih _ h2
    by_cases hg : g = esc
    · subst hg
      cases b
      · simp only [Decoder.loop, if_true]; exact ih
      · simp only [if_true] at ih
        simp only [Decoder.loop, if_true, ih]
    · have hb : (if b then false else g == esc) = false := by cases b <;> simp [hg]
      rw [hb] at ih
      cases b
      · cases hl : d.set.lookup g with
        | none => exact absurd ⟨hg, by simpa [escAfter] using hl⟩ h1
        | some m => simp only [Decoder.loop, if_neg hg, hl, ih]
      · cases hl : d.ext.lookup g with
        | none => exact absurd ⟨hg, by simpa [escAfter] using hl⟩ h1
        | some m => simp only [Decoder.loop, if_neg hg, hl, ih]

theorem strict_first (d : Decoder) (g : UInt8) (post : Bytes) (pre : Bytes) : ∀ b,
    (∀ pre' g' post', pre = pre' ++ g' :: post' → ¬ UnmappedFrom d b pre' g') → UnmappedFrom d b pre g →
    ({ d with strict := true }).loop (pre ++ g :: post) b = fail (.gsm7InvalidSeptet g) := by
  induction pre with
  | nil =>
    intro b _ hu
    obtain ⟨hg, hl⟩ := hu
    cases b
    · have hl : d.set.lookup g = none := by simpa [escAfter] using hl
      simp [Decoder.loop, hg, hl]
    · have hl : d.ext.lookup g = none := by simpa [escAfter] using hl
      simp [Decoder.loop, hg, hl]
  | cons a pre ih =>
    intro b h hu
    obtain ⟨h1, h2⟩ := unmappedFrom_tail h
    have ih := ih _ h2 hu
    rw [List.cons_append]
    by_cases ha : a = esc
    · subst ha
      cases b
      · simp only [Decoder.loop, if_true]; exact ih
      · simp only [if_true] at ih
        simp only [Decoder.loop, if_true, ih]
        rfl
    · have hb : (if b then false else a == esc) = false := by cases b <;> simp [ha]
      rw [hb] at ih
      cases b
      · cases hl : d.set.lookup a with
        | none => exact absurd ⟨ha, by simpa [escAfter] using hl⟩ h1
        | some m => simp only [Decoder.loop, if_neg ha, hl, ih]; rfl
      · cases hl : d.ext.lookup a with
        | none => exact absurd ⟨ha, by simpa [escAfter] using hl⟩ h1
        | some m => simp only [Decoder.loop, if_neg ha, hl, ih]; rfl

theorem strict_dichotomy (d : Decoder) (src : Bytes) : ∀ b,
    ({ d with strict := true }).loop src b = ({ d with strict := false }).loop src b ∨
    ∃ pre g post, src = pre ++ g :: post ∧ g ≠ esc ∧ ({ d with strict := true }).loop src b = fail (.gsm7InvalidSeptet g) ∧
      (if escAfter pre b then d.ext.lookup g = none else d.set.lookup g = none) := by
  induction src with
  | nil => intro b; left; rfl
  | cons g src ih =>
    intro b
    have lift : ∀ b' (F : Bytes → Bytes), b' = (if b then false else g == esc) →
        (({ d with strict := true }).loop src b' = ({ d with strict := false }).loop src b' ∨
        ∃ pre g' post, src = pre ++ g' :: post ∧ g' ≠ esc ∧ ({ d with strict := true }).loop src b' = fail (.gsm7InvalidSeptet g') ∧
          (if escAfter pre b' then d.ext.lookup g' = none else d.set.lookup g' = none)) →
        ((do let rest ← ({ d with strict := true }).loop src b'; return F rest : M Bytes) =
          (do let rest ← ({ d with strict := false }).loop src b'; return F rest) ∨
        ∃ pre g' post, g :: src = pre ++ g' :: post ∧ g' ≠ esc ∧
          (do let rest ← ({ d with strict := true }).loop src b'; return F rest : M Bytes) = fail (.gsm7InvalidSeptet g') ∧
          (if escAfter pre b then d.ext.lookup g' = none else d.set.lookup g' = none)) := by
      intro b' F hb h
      rcases h with h | ⟨pre, g', post, e1, e2, e3, e4⟩
      · left; rw [h]
      · right
        refine ⟨g :: pre, g', post, by simp [e1], e2, by rw [e3]; rfl, ?_⟩
        simp only [escAfter, ← hb]; exact e4
    cases b
    · by_cases hg : g = esc
      · subst hg
        simp only [Decoder.loop, if_true]
        rcases ih true with h | ⟨pre, g', post, e1, e2, e3, e4⟩
        · exact .inl h
        · right
          refine ⟨esc :: pre, g', post, by simp [e1], e2, e3, ?_⟩
          simpa [escAfter] using e4
      · have hb : (g == esc) = false := by simpa using hg
        simp only [Decoder.loop, if_neg hg]
        cases hl : d.set.lookup g with
        | some m => exact lift false (encodeRune m ++ ·) (by simp [hb]) (ih false)
        | none =>
          right
          exact ⟨[], g, src, rfl, hg, by simp, by simp [escAfter, hl]⟩
    · by_cases hg : g = esc
      · subst hg
        simp only [Decoder.loop, if_true]
        exact lift false (sp :: ·) (by simp) (ih false)
      · simp only [Decoder.loop, if_neg hg]
        cases hl : d.ext.lookup g with
        | some m => exact lift false (encodeRune m ++ ·) (by simp) (ih false)
        | none =>
          right
          exact ⟨[], g, src, rfl, hg, by simp, by simp [escAfter, hl]⟩

theorem decoder_loop_append (d : Decoder) (a c : Bytes) : ∀ b, escAfter a b = false →
    d.loop (a ++ c) b = (do let x ← d.loop a b; let y ← d.loop c false; return x ++ y) := by
  induction a with
  | nil =>
    intro b h
    simp only [escAfter] at h
    subst h
    simp only [List.nil_append, Decoder.loop]
    cases d.loop c false <;> rfl
  | cons g a ih =>
    intro b h
    simp only [escAfter] at h
    have e := ih _ h
    have step : ∀ (F : Bytes → Bytes), (∀ x y, F (x ++ y) = F x ++ y) → (if b = true then false else g == esc) = false →
      (do let rest ← d.loop (a ++ c) false; return F rest : M Bytes) =
        (do let x ← (do let rest ← d.loop a false; return F rest : M Bytes); let y ← d.loop c false; return x ++ y) := by
      intro F hF hb
      rw [hb] at e
      rw [e]
      cases d.loop a false with
      | error f => rfl
      | ok x =>
        cases d.loop c false with
        | error f => rfl
        | ok y => simp [hF]
    cases b
    · by_cases hg : g = esc
      · subst hg
        simp only [List.cons_append, Decoder.loop, if_true]
        simpa using e
      · have hb : (g == esc) = false := by simpa using hg
        simp only [List.cons_append, Decoder.loop, if_neg hg]
        split
        · exact step _ (by simp) (by simp [hb])
        · split
          · rfl
          · exact step (sp :: ·) (by simp) (by simp [hb])
    · by_cases hg : g = esc
      · subst hg
        simp only [List.cons_append, Decoder.loop, if_true]
        exact step (sp :: ·) (by simp) (by simp)
      · simp only [List.cons_append, Decoder.loop, if_neg hg]
        split
        · exact step _ (by simp) (by simp)
        · split
          · rfl
          · split
            · exact step _ (by simp) (by simp)
            · exact step (sp :: ·) (by simp) (by simp)

end Verif.Proofs
