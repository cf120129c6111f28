import Verif.Model.Print
import Verif.Proofs.Key
import Verif.Proofs.Time

/-! What the `String` methods print determines what was printed. -/

namespace Verif.Proofs.Print
open Verif.Model Verif.Spec Verif.Proofs Verif.Proofs.Key

/-- A decimal digit. -/
def Digit (c : UInt8) : Prop := 0x30 ≤ c ∧ c ≤ 0x39

instance (c : UInt8) : Decidable (Digit c) := by unfold Digit; infer_instance

/-- Text without an end of line. -/
def OneLine (l : Bytes) : Prop := (0x0a : UInt8) ∉ l

instance (l : Bytes) : Decidable (OneLine l) := by unfold OneLine; infer_instance

theorem OneLine.append {a b : Bytes} (ha : OneLine a) (hb : OneLine b) : OneLine (a ++ b) := by
  unfold OneLine at *
  rw [List.mem_append, not_or]
  exact ⟨ha, hb⟩

theorem digit_ofNat (n : Nat) (h : n < 10) : Digit (UInt8.ofNat (48 + n)) := by
  unfold Digit
  rw [UInt8.le_iff_toNat_le, UInt8.le_iff_toNat_le, digit_val n h]
  show 48 ≤ 48 + n ∧ 48 + n ≤ 57
  omega

theorem decimalAux_digits (fuel : Nat) : ∀ n, ∀ c ∈ decimalAux fuel n, Digit c := by
  induction fuel with
  | zero =>
    intro n c hc
    simp only [decimalAux, List.mem_singleton] at hc
    subst hc
    exact digit_ofNat _ (by omega)
  | succ fuel ih =>
    intro n c hc
    unfold decimalAux at hc
    split at hc
    · rename_i h
      rw [List.mem_singleton] at hc
      subst hc
      exact digit_ofNat _ h
    · rw [List.mem_append, List.mem_singleton] at hc
      rcases hc with hc | rfl
      · exact ih _ c hc
      · exact digit_ofNat _ (by omega)

theorem decimal_digits (n : Nat) : ∀ c ∈ decimal n, Digit c := decimalAux_digits n n

theorem decimal_value (n : Nat) : value (decimal n) = n := (decimalAux_spec n n (Nat.le_refl _)).1

theorem decimal_ne_nil (n : Nat) : decimal n ≠ [] := by
  unfold decimal
  cases n with
  | zero => simp [decimalAux]
  | succ n =>
    unfold decimalAux
    split <;> simp

theorem pad_digits (w n : Nat) : ∀ c ∈ padDecimal w n, Digit c := by
  intro c hc
  unfold padDecimal at hc
  rw [List.mem_append] at hc
  rcases hc with hc | hc
  · rw [(List.mem_replicate.1 hc).2]; decide
  · exact decimal_digits n c hc

theorem foldl_zeros (k : Nat) : (List.replicate k (0x30 : UInt8)).foldl (fun a d => 10 * a + (d.toNat - 48)) 0 = 0 := by
  induction k with
  | zero => rfl
  | succ k ih => rw [List.replicate_succ, List.foldl_cons]; exact ih

theorem pad_value (w n : Nat) : value (padDecimal w n) = n := by
  unfold padDecimal value
  rw [List.foldl_append, foldl_zeros]
  exact decimal_value n

theorem pad_inj {w m n : Nat} (h : padDecimal w m = padDecimal w n) : m = n := by
  rw [← pad_value w m, h, pad_value]

theorem decimal_short (n : Nat) (h : n < 100) : (decimal n).length ≤ 2 := by
  have : ∀ n < 100, (decimal n).length ≤ 2 := by decide +kernel
  exact this n h

theorem pad_two (n : Nat) (h : n < 100) : (padDecimal 2 n).length = 2 := by
  have := decimal_short n h
  unfold padDecimal
  rw [List.length_append, List.length_replicate]
  omega

theorem digits_line {l : Bytes} (h : ∀ c ∈ l, Digit c) : OneLine l := by
  intro hm
  have := h _ hm
  revert this
  decide

/-- Digits up to something that is no digit. -/
theorem split_digits : ∀ (a b : Bytes) (x y : UInt8) (r s : Bytes), (∀ c ∈ a, Digit c) → (∀ c ∈ b, Digit c) → ¬ Digit x → ¬ Digit y →
    a ++ x :: r = b ++ y :: s → a = b ∧ x = y ∧ r = s := by
  intro a
  induction a with
  | nil =>
    intro b x y r s _ hb hx _ h
    cases b with
    | nil => simpa using h
    | cons c b =>
      simp only [List.nil_append, List.cons_append, List.cons.injEq] at h
      exact absurd (h.1 ▸ hb c (by simp)) hx
  | cons c a ih =>
    intro b x y r s ha hb hx hy h
    cases b with
    | nil =>
      simp only [List.nil_append, List.cons_append, List.cons.injEq] at h
      exact absurd (h.1 ▸ ha c (by simp)) hy
    | cons d b =>
      simp only [List.cons_append, List.cons.injEq] at h
      obtain ⟨h1, h2, h3⟩ := ih b x y r s (fun z hz => ha z (by simp [hz])) (fun z hz => hb z (by simp [hz])) hx hy h.2
      exact ⟨by rw [h.1, h1], h2, h3⟩

/-! Flags and octets. -/

theorem showBool_inj {a b : Bool} (h : showBool a = showBool b) : a = b := by
  revert h; cases a <;> cases b <;> decide

theorem hexDig_line : ∀ n < 16, hexDig n ≠ 0x0a ∧ hexDig n ≠ 0x20 := by decide +kernel

theorem hex02_line (b : UInt8) : OneLine (hex02 b) := by
  have := b.toNat_lt
  unfold OneLine hex02
  rw [List.mem_cons, List.mem_singleton, not_or]
  exact ⟨fun h => (hexDig_line (b.toNat / 16) (by omega)).1 h.symm, fun h => (hexDig_line (b.toNat % 16) (by omega)).1 h.symm⟩

theorem showBool_line (b : Bool) : OneLine (showBool b) := by cases b <;> decide

theorem dcs_inj {a b : UInt8} (h : DCS.String a = DCS.String b) : a = b := by
  have key : ∀ d, ∃ r, DCS.String d = b!"0x" ++ hex02 d ++ r := by
    intro d
    unfold DCS.String
    simp only
    split
    · exact ⟨[], by simp⟩
    · exact ⟨_, rfl⟩
    · exact ⟨_, rfl⟩
    · exact ⟨_, rfl⟩
    · exact ⟨[], by simp⟩
  obtain ⟨r, hr⟩ := key a
  obtain ⟨s, hs⟩ := key b
  rw [hr, hs] at h
  have := (List.append_inj h (by simp [hex02])).1
  exact hex02_inj a b (List.append_cancel_left this)

theorem dcs_line (d : UInt8) : OneLine (DCS.String d) := by
  unfold OneLine
  revert d
  apply forall_u8
  decide +kernel

theorem pi_string (p : UInt8) : PI.String p = if p = 0 then b!"0" else if p &&& 7 = 0 then [] else PI.String (p &&& 7) := by
  revert p
  apply forall_u8
  decide +kernel

theorem pi_inj {a b : UInt8} (h : PI.String a = PI.String b) : a &&& 7 = b &&& 7 ∧ (a = 0 ↔ b = 0) := by
  have low : ∀ a : UInt8, ∃ i : Fin 8, a &&& 7 = UInt8.ofNat i.val := by
    apply forall_u8
    decide +kernel
  have inj : ∀ i j : Fin 8, PI.String (UInt8.ofNat i.val) = PI.String (UInt8.ofNat j.val) → i = j := by decide +kernel
  have ne : ∀ i : Fin 8, UInt8.ofNat i.val ≠ 0 → PI.String (UInt8.ofNat i.val) ≠ [] ∧ PI.String (UInt8.ofNat i.val) ≠ b!"0" := by decide +kernel
  obtain ⟨i, hi⟩ := low a
  obtain ⟨j, hj⟩ := low b
  have z : (0 : UInt8) &&& 7 = 0 := by decide
  rw [pi_string a, pi_string b] at h
  by_cases ha : a = 0
  · subst ha
    by_cases hb : b = 0
    · subst hb; simp
    · rw [if_pos rfl, if_neg hb] at h
      split at h
      · cases h
      · rename_i hb7
        rw [hj] at h hb7
        exact absurd h.symm (ne j hb7).2
  · rw [if_neg ha] at h
    by_cases hb : b = 0
    · subst hb
      rw [if_pos rfl] at h
      split at h
      · cases h
      · rename_i ha7
        rw [hi] at h ha7
        exact absurd h (ne i ha7).2
    · rw [if_neg hb] at h
      refine ⟨?_, by simp [ha, hb]⟩
      split at h
      · rename_i ha7
        split at h
        · rename_i hb7; rw [ha7, hb7]
        · rename_i hb7
          rw [hj] at h hb7
          exact absurd h.symm (ne j hb7).1
      · rename_i ha7
        split at h
        · rw [hi] at h ha7
          exact absurd h (ne i ha7).1
        · rw [hi, hj] at h ⊢
          rw [inj i j h]

theorem pi_line (p : UInt8) : OneLine (PI.String p) := by
  unfold OneLine
  revert p
  apply forall_u8
  decide +kernel

theorem vpf_line (v : UInt8) : OneLine (ValidityPeriodFormat.String v) := by
  unfold ValidityPeriodFormat.String OneLine
  repeat' split
  all_goals decide

theorem evpf_line (v : UInt8) : OneLine (EnhancedValidityPeriodFormat.String v) := by
  unfold EnhancedValidityPeriodFormat.String OneLine
  repeat' split
  all_goals decide

theorem mt_line (v : UInt8) : OneLine (MessageType.String v) := by
  unfold MessageType.String OneLine
  repeat' split
  all_goals decide

/-! Times. -/

/-- A time as it is unmarshalled: whole seconds, and a zone of whole minutes. -/
def Clean (t : GoTime) : Prop := t.nsec = 0 ∧ t.off % 60 = 0

instance (t : GoTime) : Decidable (Clean t) := by unfold Clean; infer_instance

theorem showZone_inj {a b : Int} (ha : a % 60 = 0) (hb : b % 60 = 0) (h : showZone a = showZone b) : a = b := by
  unfold showZone at h
  simp only at h
  have hs : ∀ z : Int, (if z < 0 then b!"-" else b!"+").length = 1 := by intro z; split <;> rfl
  rw [List.append_assoc, List.append_assoc] at h
  obtain ⟨h1, h2⟩ := List.append_inj h (by rw [hs, hs])
  have hl : ∀ z : Int, (padDecimal 2 (z.natAbs % 60)).length = 2 := fun z => pad_two _ (by omega)
  obtain ⟨h3, h4⟩ := List.append_inj' h2 (by rw [hl, hl])
  have e3 := pad_inj h3
  have e4 := pad_inj h4
  have e : (a.tdiv 60).natAbs = (b.tdiv 60).natAbs := by omega
  have sg : (a.tdiv 60 < 0 ↔ b.tdiv 60 < 0) := by
    by_cases x : a.tdiv 60 < 0 <;> by_cases y : b.tdiv 60 < 0
    · simp [x, y]
    · rw [if_pos x, if_neg y] at h1; cases h1
    · rw [if_neg x, if_pos y] at h1; cases h1
    · simp [x, y]
  have ma : 60 * a.tdiv 60 = a := Int.mul_tdiv_cancel' (Int.dvd_of_emod_eq_zero ha)
  have mb : 60 * b.tdiv 60 = b := Int.mul_tdiv_cancel' (Int.dvd_of_emod_eq_zero hb)
  have : a.tdiv 60 = b.tdiv 60 := by omega
  omega

theorem showZone_line (a : Int) : OneLine (showZone a) := by
  unfold showZone
  simp only
  refine .append (.append ?_ (digits_line (pad_digits _ _))) (digits_line (pad_digits _ _))
  split <;> decide

theorem showYear_split {a b : Int} {r s : Bytes} (h : showYear a ++ 0x2d :: r = showYear b ++ 0x2d :: s) : a = b ∧ r = s := by
  unfold showYear at h
  have nd : ¬ Digit 0x2d := by decide
  have head : ∀ n : Nat, ∀ r, ∃ c l, padDecimal 4 n ++ r = c :: l ∧ Digit c := by
    intro n r
    have := pad_digits 4 n
    cases hp : padDecimal 4 n with
    | nil =>
      unfold padDecimal at hp
      exact absurd (List.append_eq_nil_iff.1 hp).2 (decimal_ne_nil n)
    | cons c l => rw [hp] at this; exact ⟨c, l ++ r, rfl, this c (by simp)⟩
  by_cases x : a < 0 <;> by_cases y : b < 0
  · rw [if_pos x, if_pos y] at h
    simp only [List.cons_append, List.nil_append, List.cons.injEq, true_and] at h
    obtain ⟨h1, _, h2⟩ := split_digits _ _ _ _ _ _ (pad_digits _ _) (pad_digits _ _) nd nd h
    exact ⟨by have := pad_inj h1; omega, h2⟩
  · rw [if_pos x, if_neg y] at h
    obtain ⟨c, l, hc, hd⟩ := head b.natAbs (0x2d :: s)
    simp only [List.cons_append, List.nil_append] at h
    rw [hc] at h
    cases h
    exact absurd hd nd
  · rw [if_neg x, if_pos y] at h
    obtain ⟨c, l, hc, hd⟩ := head a.natAbs (0x2d :: r)
    simp only [List.cons_append, List.nil_append] at h
    rw [hc] at h
    cases h
    exact absurd hd nd
  · rw [if_neg x, if_neg y] at h
    simp only [List.nil_append] at h
    obtain ⟨h1, _, h2⟩ := split_digits _ _ _ _ _ _ (pad_digits _ _) (pad_digits _ _) nd nd h
    exact ⟨by have := pad_inj h1; omega, h2⟩

theorem timestamp_inj {a b : GoTime} (ha : Clean a) (hb : Clean b) (h : Timestamp.String a = Timestamp.String b) : a = b := by
  unfold Timestamp.String at h
  simp only [List.append_assoc, List.cons_append, List.nil_append] at h
  obtain ⟨hy, h⟩ := showYear_split h
  have nd1 : ¬ Digit 0x2d := by decide
  have nd2 : ¬ Digit 0x20 := by decide
  have nd3 : ¬ Digit 0x3a := by decide
  obtain ⟨hm, _, h⟩ := split_digits _ _ _ _ _ _ (pad_digits _ _) (pad_digits _ _) nd1 nd1 h
  obtain ⟨hd, _, h⟩ := split_digits _ _ _ _ _ _ (pad_digits _ _) (pad_digits _ _) nd2 nd2 h
  obtain ⟨hh, _, h⟩ := split_digits _ _ _ _ _ _ (pad_digits _ _) (pad_digits _ _) nd3 nd3 h
  obtain ⟨hmi, _, h⟩ := split_digits _ _ _ _ _ _ (pad_digits _ _) (pad_digits _ _) nd3 nd3 h
  obtain ⟨hs, _, h⟩ := split_digits _ _ _ _ _ _ (pad_digits _ _) (pad_digits _ _) nd2 nd2 h
  have ho := showZone_inj ha.2 hb.2 h
  have va := civil_valid a.localDay
  have vb := civil_valid b.localDay
  have da := days_civil a.localDay
  have db := days_civil b.localDay
  obtain ⟨a1, _, a3, _, a5, _, ca⟩ := clock_fields a
  obtain ⟨b1, _, b3, _, b5, _, cb⟩ := clock_fields b
  have em : a.Month = b.Month := by
    have := pad_inj hm
    have h1 : 1 ≤ a.Month := va.1
    have h2 : 1 ≤ b.Month := vb.1
    omega
  have ed : a.Day = b.Day := by
    have := pad_inj hd
    have h1 : 1 ≤ a.Day := va.2.2.1
    have h2 : 1 ≤ b.Day := vb.2.2.1
    omega
  have eh := pad_inj hh
  have emi := pad_inj hmi
  have es := pad_inj hs
  have el : a.localDay = b.localDay := by
    rw [← da, ← db]
    unfold GoTime.Year at hy
    unfold GoTime.Month at em
    unfold GoTime.Day at ed
    rw [hy, em, ed]
  have esec : a.sec = b.sec := by rw [el] at ca; omega
  obtain ⟨s1, n1, o1⟩ := a
  obtain ⟨s2, n2, o2⟩ := b
  have e1 : s1 = s2 := esec
  have e2 : o1 = o2 := ho
  have e3 : n1 = 0 := ha.1
  have e4 : n2 = 0 := hb.1
  rw [e1, e2, e3, e4]

theorem timestamp_line (t : GoTime) : OneLine (Timestamp.String t) := by
  unfold Timestamp.String
  have p : ∀ w n, OneLine (padDecimal w n) := fun w n => digits_line (pad_digits w n)
  have s1 : OneLine b!"-" := by decide
  have s2 : OneLine b!" " := by decide
  have s3 : OneLine b!":" := by decide
  have y : OneLine (showYear t.Year) := by
    unfold showYear
    refine .append ?_ (p _ _)
    split <;> decide
  exact (((((((((((y.append s1).append (p _ _)).append s1).append (p _ _)).append s2).append (p _ _)).append s3).append (p _ _)).append s3).append
    (p _ _)).append s2).append (showZone_line _)

/-- A duration as it is unmarshalled. -/
def Whole (d : Int) : Prop := 0 ≤ d ∧ d % 1000000000 = 0

instance (d : Int) : Decidable (Whole d) := by unfold Whole; infer_instance

theorem duration_eq (d : Int) (h : Whole d) : ∃ u : Nat, d = u * 1000000000 ∧
    Duration.String d = (if u / 3600 > 0 then decimal (u / 3600) ++ b!"h" else []) ++
      (if u / 60 > 0 then decimal (u / 60 % 60) ++ b!"m" else []) ++ decimal (u % 60) ++ b!"s" := by
  refine ⟨d.natAbs / 1000000000, ?_, ?_⟩
  · have := h.1; have := h.2; omega
  · unfold Duration.String
    have := h.1
    rw [if_neg (by omega)]
    rfl

theorem duration_inj {a b : Int} (ha : Whole a) (hb : Whole b) (h : Duration.String a = Duration.String b) : a = b := by
  obtain ⟨u, hu, eu⟩ := duration_eq a ha
  obtain ⟨v, hv, ev⟩ := duration_eq b hb
  rw [eu, ev] at h
  have nh : ¬ Digit 0x68 := by decide
  have nm : ¬ Digit 0x6d := by decide
  have ns : ¬ Digit 0x73 := by decide
  have hmin : ∀ u : Nat, u / 3600 > 0 → u / 60 > 0 := by intro u h; omega
  have key : u = v := by
    by_cases u1 : u / 3600 > 0
    · rw [if_pos u1, if_pos (hmin u u1)] at h
      by_cases v1 : v / 3600 > 0
      · rw [if_pos v1, if_pos (hmin v v1)] at h
        simp only [List.append_assoc, List.cons_append, List.nil_append] at h
        obtain ⟨h1, _, h⟩ := split_digits _ _ _ _ _ _ (decimal_digits _) (decimal_digits _) nh nh h
        obtain ⟨h2, _, h⟩ := split_digits _ _ _ _ _ _ (decimal_digits _) (decimal_digits _) nm nm h
        obtain ⟨h3, _, h⟩ := split_digits _ _ _ _ _ _ (decimal_digits _) (decimal_digits _) ns ns h
        have e1 := decimal_inj _ _ h1
        have e2 := decimal_inj _ _ h2
        have e3 := decimal_inj _ _ h3
        omega
      · rw [if_neg v1] at h
        by_cases v2 : v / 60 > 0
        · rw [if_pos v2] at h
          simp only [List.append_assoc, List.cons_append, List.nil_append] at h
          obtain ⟨_, h, _⟩ := split_digits _ _ _ _ _ _ (decimal_digits _) (decimal_digits _) nh nm h
          cases h
        · rw [if_neg v2] at h
          simp only [List.append_assoc, List.cons_append, List.nil_append] at h
          obtain ⟨_, h, _⟩ := split_digits _ _ _ _ _ _ (decimal_digits _) (decimal_digits _) nh ns h
          cases h
    · rw [if_neg u1] at h
      by_cases u2 : u / 60 > 0
      · rw [if_pos u2] at h
        by_cases v1 : v / 3600 > 0
        · rw [if_pos v1, if_pos (hmin v v1)] at h
          simp only [List.append_assoc, List.cons_append, List.nil_append] at h
          obtain ⟨_, h, _⟩ := split_digits _ _ _ _ _ _ (decimal_digits _) (decimal_digits _) nm nh h
          cases h
        · rw [if_neg v1] at h
          by_cases v2 : v / 60 > 0
          · rw [if_pos v2] at h
            simp only [List.append_assoc, List.cons_append, List.nil_append] at h
            obtain ⟨h2, _, h⟩ := split_digits _ _ _ _ _ _ (decimal_digits _) (decimal_digits _) nm nm h
            obtain ⟨h3, _, h⟩ := split_digits _ _ _ _ _ _ (decimal_digits _) (decimal_digits _) ns ns h
            have e2 := decimal_inj _ _ h2
            have e3 := decimal_inj _ _ h3
            omega
          · rw [if_neg v2] at h
            simp only [List.append_assoc, List.cons_append, List.nil_append] at h
            obtain ⟨_, h, _⟩ := split_digits _ _ _ _ _ _ (decimal_digits _) (decimal_digits _) nm ns h
            cases h
      · rw [if_neg u2] at h
        by_cases v1 : v / 3600 > 0
        · rw [if_pos v1, if_pos (hmin v v1)] at h
          simp only [List.append_assoc, List.cons_append, List.nil_append] at h
          obtain ⟨_, h, _⟩ := split_digits _ _ _ _ _ _ (decimal_digits _) (decimal_digits _) ns nh h
          cases h
        · rw [if_neg v1] at h
          by_cases v2 : v / 60 > 0
          · rw [if_pos v2] at h
            simp only [List.append_assoc, List.cons_append, List.nil_append] at h
            obtain ⟨_, h, _⟩ := split_digits _ _ _ _ _ _ (decimal_digits _) (decimal_digits _) ns nm h
            cases h
          · rw [if_neg v2] at h
            simp only [List.nil_append] at h
            obtain ⟨h3, _, h⟩ := split_digits _ _ _ _ _ _ (decimal_digits _) (decimal_digits _) ns ns h
            have e3 := decimal_inj _ _ h3
            omega
  rw [hu, hv, key]

theorem duration_line (d : Int) : OneLine (Duration.String d) := by
  unfold Duration.String
  have p : ∀ n, OneLine (decimal n) := fun n => digits_line (decimal_digits n)
  simp only
  refine .append (.append (.append (.append ?_ ?_) ?_) (p _)) (by decide)
  · split <;> decide
  · split
    · exact (p _).append (by decide)
    · decide
  · split
    · exact (p _).append (by decide)
    · decide

/-! Slices of bytes. -/

theorem join_cons (x : Bytes) (xs : List Bytes) : joinWith b!" " (x :: xs) = x ++ (if xs = [] then [] else 0x20 :: joinWith b!" " xs) := by
  cases xs with
  | nil => simp [joinWith]
  | cons y ys => simp [joinWith]

theorem join_inj : ∀ (a b : Bytes), joinWith b!" " (a.map fun o => decimal o.toNat) ++ b!"]" = joinWith b!" " (b.map fun o => decimal o.toNat) ++ b!"]" →
    a = b := by
  have ns : ¬ Digit 0x20 := by decide
  have nb : ¬ Digit 0x5d := by decide
  have tail : ∀ l : Bytes, ∃ c r, (if (l.map fun o => decimal o.toNat) = [] then [] else 0x20 :: joinWith b!" " (l.map fun o => decimal o.toNat)) ++ b!"]" = c :: r ∧
      ¬ Digit c ∧ (l = [] → c = 0x5d) ∧ (l ≠ [] → c = 0x20 ∧ r = joinWith b!" " (l.map fun o => decimal o.toNat) ++ b!"]") := by
    intro l
    cases l with
    | nil => exact ⟨0x5d, [], rfl, nb, fun _ => rfl, fun h => absurd rfl h⟩
    | cons x l => exact ⟨0x20, _, rfl, ns, fun h => absurd h (by simp), fun _ => ⟨rfl, rfl⟩⟩
  intro a
  induction a with
  | nil =>
    intro b h
    cases b with
    | nil => rfl
    | cons y b =>
      rw [List.map_cons, join_cons, List.append_assoc] at h
      cases hd : decimal y.toNat with
      | nil => exact absurd hd (decimal_ne_nil _)
      | cons c l =>
        rw [hd] at h
        have := decimal_digits y.toNat c (by rw [hd]; simp)
        simp only [List.map_nil, joinWith, List.nil_append, List.cons_append, List.cons.injEq] at h
        rw [← h.1] at this
        exact absurd this nb
  | cons x a ih =>
    intro b h
    cases b with
    | nil =>
      rw [List.map_cons, join_cons, List.append_assoc] at h
      cases hd : decimal x.toNat with
      | nil => exact absurd hd (decimal_ne_nil _)
      | cons c l =>
        rw [hd] at h
        have := decimal_digits x.toNat c (by rw [hd]; simp)
        simp only [List.map_nil, joinWith, List.nil_append, List.cons_append, List.cons.injEq] at h
        rw [h.1] at this
        exact absurd this nb
    | cons y b =>
      rw [List.map_cons, List.map_cons, join_cons, join_cons, List.append_assoc, List.append_assoc] at h
      obtain ⟨c, r, e1, n1, f1, g1⟩ := tail a
      obtain ⟨d, s, e2, n2, f2, g2⟩ := tail b
      rw [e1, e2] at h
      obtain ⟨h1, h2, h3⟩ := split_digits _ _ _ _ _ _ (decimal_digits _) (decimal_digits _) n1 n2 h
      have ex : x = y := UInt8.toNat_inj.mp (decimal_inj _ _ h1)
      by_cases ha : a = []
      · by_cases hb : b = []
        · rw [ex, ha, hb]
        · rw [f1 ha, (g2 hb).1] at h2
          cases h2
      · by_cases hb : b = []
        · rw [f2 hb, (g1 ha).1] at h2
          cases h2
        · rw [(g1 ha).2, (g2 hb).2] at h3
          rw [ex, ih b h3]

theorem showBytes_inj {a b : Bytes} (h : showBytes a = showBytes b) : a = b := by
  unfold showBytes at h
  rw [List.append_assoc, List.append_assoc] at h
  exact join_inj a b (List.append_cancel_left h)

theorem showBytes_line (a : Bytes) : OneLine (showBytes a) := by
  unfold showBytes
  refine .append (.append (by decide) ?_) (by decide)
  induction a with
  | nil => exact (by decide : OneLine [])
  | cons x a ih =>
    rw [List.map_cons, join_cons]
    refine .append (digits_line (decimal_digits _)) ?_
    split
    · exact (by decide : OneLine [])
    · exact OneLine.append (a := b!" ") (by decide) ih

end Verif.Proofs.Print
