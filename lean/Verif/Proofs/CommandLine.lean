import Verif.Spec.CommandLine
import Verif.Proofs.Fields

/-! Lemmas about command lines. -/

namespace Verif.Proofs.Cli
open Verif.Model Verif.Spec Verif.Proofs
open Verif.Model.Strconv
open Verif.Model.Flag

/-! Numbers. -/

theorem digit_iff (c : UInt8) (d : Nat) : Strconv.digit c = some d ↔ NumberDigit c d := by
  have h1 : ∀ c : UInt8, ∀ d, Strconv.digit c = some d → NumberDigit c d := by
    have : ∀ c : UInt8, ∀ d ∈ (Strconv.digit c).toList, (d < 10 ∧ c = UInt8.ofNat (0x30 + d)) ∨ (10 ≤ d ∧ d < 36 ∧ (c = UInt8.ofNat (0x61 + (d - 10)) ∨ c = UInt8.ofNat (0x41 + (d - 10)))) := by
      apply forall_u8; decide +kernel
    intro c d h
    exact this c d (by rw [h]; simp)
  refine ⟨h1 c d, ?_⟩
  have h2 : ∀ d < 36, (d < 10 → Strconv.digit (UInt8.ofNat (0x30 + d)) = some d) ∧
      (10 ≤ d → Strconv.digit (UInt8.ofNat (0x61 + (d - 10))) = some d ∧ Strconv.digit (UInt8.ofNat (0x41 + (d - 10))) = some d) := by decide +kernel
  rintro (⟨h, rfl⟩ | ⟨h, h', rfl | rfl⟩)
  · exact (h2 d (by omega)).1 h
  · exact ((h2 d h').2 h).1
  · exact ((h2 d h').2 h).2

theorem digit_underscore : Strconv.digit 0x5f = none := by decide

/-- The characters that `underscoreOK` takes for digits. -/
theorem isDigit (hex : Bool) (base : Nat) (hb : base ≤ 10 ∨ (hex = true ∧ base ≤ 16)) (c : UInt8) (d : Nat)
    (h : Strconv.digit c = some d) (hd : d < base) :
    (0x30 ≤ c ∧ c ≤ 0x39) ∨ (hex = true ∧ 0x61 ≤ lower c ∧ lower c ≤ 0x66) := by
  have : ∀ c : UInt8, ∀ d, Strconv.digit c = some d → (d < 10 → 0x30 ≤ c ∧ c ≤ 0x39) ∧ (10 ≤ d → d < 16 → 0x61 ≤ lower c ∧ lower c ≤ 0x66) := by
    have : ∀ c : UInt8, ∀ d ∈ (Strconv.digit c).toList, (d < 10 → 0x30 ≤ c ∧ c ≤ 0x39) ∧ (10 ≤ d → d < 16 → 0x61 ≤ lower c ∧ lower c ≤ 0x66) := by
      apply forall_u8; decide +kernel
    intro c d h
    exact this c d (by rw [h]; simp)
  obtain ⟨h1, h2⟩ := this c d h
  by_cases h10 : d < 10
  · exact .inl (h1 h10)
  · exact .inr ⟨by rcases hb with hb | hb; omega; exact hb.1, h2 (by omega) (by rcases hb with hb | hb <;> omega)⟩

theorem digits_iff (hex : Bool) (base : Nat) (hb : base ≤ 10 ∨ (hex = true ∧ base ≤ 16)) (s : Bytes) : ∀ n m,
    (digits base n s = some m ∧ underscores hex .digit s = true ↔ MoreDigits base n s m) ∧
    (digits base n s = some m ∧ underscores hex .underscore s = true ↔
      ∃ c d r, s = c :: r ∧ NumberDigit c d ∧ d < base ∧ MoreDigits base (n * base + d) r m) := by
  induction s with
  | nil =>
    intro n m
    refine ⟨⟨?_, ?_⟩, ⟨?_, ?_⟩⟩
    · rintro ⟨h, _⟩; cases h; exact .nil
    · intro h; cases h; exact ⟨rfl, rfl⟩
    · rintro ⟨_, h⟩; exact absurd h (by simp [underscores])
    · rintro ⟨c, d, r, h, _⟩; cases h
  | cons c s ih =>
    intro n m
    by_cases hu : c = 0x5f
    · subst hu
      have hnd : ∀ d, ¬ NumberDigit 0x5f d := fun d h => by rw [← digit_iff, digit_underscore] at h; cases h
      have e1 : digits base n (0x5f :: s) = digits base n s := by rw [digits, if_pos rfl]
      have e2 : underscores hex .digit (0x5f :: s) = underscores hex .underscore s := by
        rw [underscores, if_neg (by rintro (h | ⟨_, h⟩) <;> revert h <;> decide), if_pos rfl, if_pos rfl]
      have e3 : underscores hex .underscore (0x5f :: s) = false := by
        rw [underscores, if_neg (by rintro (h | ⟨_, h⟩) <;> revert h <;> decide), if_pos rfl, if_neg (by decide)]
      rw [e1, e2, e3, (ih n m).2]
      refine ⟨⟨?_, ?_⟩, ⟨?_, ?_⟩⟩
      · rintro ⟨c, d, r, rfl, h1, h2, h3⟩
        exact .underscore h1 h2 h3
      · intro h
        cases h with
        | digit h => exact absurd h (hnd _)
        | underscore h1 h2 h3 => exact ⟨_, _, _, rfl, h1, h2, h3⟩
      · rintro ⟨_, h⟩; cases h
      · rintro ⟨c, d, r, h, h1, _⟩
        cases h
        exact absurd h1 (hnd _)
    · have key : ∀ saw, (digits base n (c :: s) = some m ∧ underscores hex saw (c :: s) = true) ↔
          ∃ d, NumberDigit c d ∧ d < base ∧ MoreDigits base (n * base + d) s m := by
        intro saw
        rw [digits, if_neg hu]
        cases hd : Strconv.digit c with
        | none =>
          simp only
          constructor
          · rintro ⟨h, _⟩; cases h
          · rintro ⟨d, h, _⟩; rw [← digit_iff, hd] at h; cases h
        | some d =>
          simp only
          by_cases hlt : base ≤ d
          · rw [if_pos hlt]
            constructor
            · rintro ⟨h, _⟩; cases h
            · rintro ⟨d', h, h', _⟩; rw [← digit_iff, hd] at h; cases h; omega
          · rw [if_neg hlt, underscores, if_pos (isDigit hex base hb c d hd (by omega)), (ih _ _).1]
            constructor
            · intro h; exact ⟨d, (digit_iff c d).1 hd, by omega, h⟩
            · rintro ⟨d', h, h', h''⟩; rw [← digit_iff, hd] at h; cases h; exact h''
      rw [key, key]
      refine ⟨⟨?_, ?_⟩, ⟨?_, ?_⟩⟩
      · rintro ⟨d, h1, h2, h3⟩; exact .digit h1 h2 h3
      · intro h
        cases h with
        | digit h1 h2 h3 => exact ⟨_, h1, h2, h3⟩
        | underscore => exact absurd rfl hu
      · rintro ⟨d, h1, h2, h3⟩; exact ⟨c, d, s, rfl, h1, h2, h3⟩
      · rintro ⟨c', d, r, h, h1, h2, h3⟩; cases h; exact ⟨d, h1, h2, h3⟩

theorem no_underscore (hex : Bool) (base : Nat) (hb : base ≤ 10 ∨ (hex = true ∧ base ≤ 16)) (s : Bytes) (h : (0x5f : UInt8) ∉ s) : ∀ n m,
    digits base n s = some m → underscores hex .digit s = true := by
  induction s with
  | nil => intro n m _; rfl
  | cons c s ih =>
    intro n m hd
    have hc : c ≠ 0x5f := fun e => h (by simp [e])
    rw [digits, if_neg hc] at hd
    cases hg : Strconv.digit c with
    | none => rw [hg] at hd; cases hd
    | some d =>
      rw [hg] at hd
      simp only at hd
      split at hd
      · cases hd
      · rw [underscores, if_pos (isDigit hex base hb c d hg (by omega))]
        exact ih (fun e => h (by simp [e])) _ _ hd

/-- The test of the underscores and the loop together. -/
theorem checked_iff (hex : Bool) (base : Nat) (hb : base ≤ 10 ∨ (hex = true ∧ base ≤ 16)) (s : Bytes) (n m : Nat) :
    (match digits base n s with
      | none => none
      | some k => if 0x5f ∈ s ∧ underscores hex .digit s = false then none else some k) = some m ↔ MoreDigits base n s m := by
  rw [← (digits_iff hex base hb s n m).1]
  cases hd : digits base n s with
  | none => simp
  | some k =>
    simp only
    by_cases h5 : (0x5f : UInt8) ∈ s
    · by_cases hu : underscores hex .digit s = true
      · rw [if_neg (by simp [hu])]; simp [hu]
      · rw [if_pos ⟨h5, by simpa using hu⟩]; simp [hu]
    · rw [if_neg (fun h => h5 h.1), no_underscore hex base hb s h5 n k hd]
      simp

theorem lower_iff (d l u : UInt8) (h : (l, u) ∈ [(0x62, 0x42), (0x6f, 0x4f), (0x78, 0x58)]) : lower d = l ↔ d = l ∨ d = u := by
  have : ∀ d : UInt8, (lower d = 0x62 ↔ d = 0x62 ∨ d = 0x42) ∧ (lower d = 0x6f ↔ d = 0x6f ∨ d = 0x4f) ∧ (lower d = 0x78 ↔ d = 0x78 ∨ d = 0x58) := by
    apply forall_u8; decide +kernel
  obtain ⟨h1, h2, h3⟩ := this d
  simp only [List.mem_cons, Prod.mk.injEq, List.not_mem_nil, or_false] at h
  rcases h with ⟨rfl, rfl⟩ | ⟨rfl, rfl⟩ | ⟨rfl, rfl⟩ <;> assumption

theorem parseUint_iff (s : Bytes) (n : Nat) : ParseUint s = some n ↔ Magnitude s n := by
  have nd : ∀ c : UInt8, c ≠ 0x30 → Strconv.digit c ≠ some 0 := by
    apply forall_u8; decide +kernel
  have n0 : ∀ (c : UInt8) d, NumberDigit c d → d ≠ 0 → c ≠ 0x30 := by
    rintro c d h hd rfl
    rw [← digit_iff] at h
    cases h
    exact hd rfl
  match s with
  | [] =>
    constructor
    · intro h; cases h
    · intro h; cases h
  | c :: s =>
    by_cases hc : c = 0x30
    · subst hc
      -- octal behind 0
      have oct : (∀ d e r, s = d :: e :: r → lower d ≠ 0x62 ∧ lower d ≠ 0x6f ∧ lower d ≠ 0x78) →
          (ParseUint (0x30 :: s) = some n ↔ Magnitude (0x30 :: s) n) := by
        intro hs
        have hp : prefixed (0x30 :: s) = (8, s) := by
          match s with
          | [] => rfl
          | [d] => rfl
          | d :: e :: r =>
            obtain ⟨h1, h2, h3⟩ := hs d e r rfl
            rw [prefixed, if_pos rfl, if_neg h1, if_neg h2, if_neg h3]
        have hu : ∀ k, digits 8 0 s = some k → underscoreOK (0x30 :: s) = underscores false .digit s := by
          intro k hk
          match s with
          | [] => rfl
          | [d] =>
            have : ∀ d : UInt8, digits 8 0 [d] ≠ none → underscoreOK [0x30, d] = underscores false .digit [d] := by
              apply forall_u8; decide +kernel
            exact this d (by rw [hk]; simp)
          | d :: e :: r =>
            obtain ⟨h1, h2, h3⟩ := hs d e r rfl
            rw [underscoreOK, if_neg (by rintro ⟨_, h | h | h⟩ <;> contradiction), underscores, if_pos (.inl (by decide))]
        have : ParseUint (0x30 :: s) = (match digits 8 0 s with
            | none => none
            | some k => if 0x5f ∈ s ∧ underscores false .digit s = false then none else some k) := by
          unfold ParseUint
          rw [if_neg (by simp), hp]
          simp only
          cases hd : digits 8 0 s with
          | none => rfl
          | some k => simp only [hu k hd]
        rw [this, checked_iff false 8 (.inl (by omega))]
        constructor
        · exact .zero
        · intro h
          cases h with
          | decimal h1 h2 h3 h4 => exact absurd rfl (n0 _ _ h1 h3)
          | zero h => exact h
          | @binary c s _ h1 h2 h3 =>
            obtain ⟨e, r, rfl⟩ := List.exists_cons_of_ne_nil h2
            exact absurd ((lower_iff c 0x62 0x42 (by simp)).2 h1) (hs c e r rfl).1
          | @octal c s _ h1 h2 h3 =>
            obtain ⟨e, r, rfl⟩ := List.exists_cons_of_ne_nil h2
            exact absurd ((lower_iff c 0x6f 0x4f (by simp)).2 h1) (hs c e r rfl).2.1
          | @hex c s _ h1 h2 h3 =>
            obtain ⟨e, r, rfl⟩ := List.exists_cons_of_ne_nil h2
            exact absurd ((lower_iff c 0x78 0x58 (by simp)).2 h1) (hs c e r rfl).2.2
      match s with
      | [] => exact oct (by intro d e r h; cases h)
      | [d] => exact oct (by intro d e r h; cases h)
      | d :: e :: r =>
        -- what Magnitude says of a prefix
        have letter : ∀ d : UInt8, lower d = 0x62 ∨ lower d = 0x6f ∨ lower d = 0x78 → d ≠ 0x5f ∧ ∀ v < 8, Strconv.digit d ≠ some v := by
          apply forall_u8; decide +kernel
        have nozero : lower d = 0x62 ∨ lower d = 0x6f ∨ lower d = 0x78 → ¬ MoreDigits 8 0 (d :: e :: r) n := by
          intro hl h
          cases h with
          | digit h1 h2 _ => exact (letter d hl).2 _ h2 ((digit_iff _ _).2 h1)
          | underscore => exact (letter _ hl).1 rfl
        have und : lower d = 0x62 ∨ lower d = 0x6f ∨ lower d = 0x78 →
            underscoreOK (0x30 :: d :: e :: r) = underscores (lower d = 0x78) .digit (e :: r) := by
          intro hl; rw [underscoreOK, if_pos ⟨rfl, hl⟩]
        have run : ∀ base, prefixed (0x30 :: d :: e :: r) = (base, e :: r) → (base ≤ 10 ∨ (lower d = 0x78 ∧ base ≤ 16)) →
            lower d = 0x62 ∨ lower d = 0x6f ∨ lower d = 0x78 → (ParseUint (0x30 :: d :: e :: r) = some n ↔ MoreDigits base 0 (e :: r) n) := by
          intro base hp hb hl
          unfold ParseUint
          rw [if_neg (by simp), hp, und hl]
          exact checked_iff _ base (by simpa using hb) _ _ _
        by_cases h1 : lower d = 0x62
        · rw [run 2 (by rw [prefixed, if_pos rfl, if_pos h1]) (.inl (by omega)) (.inl h1)]
          constructor
          · exact fun h => .binary ((lower_iff d 0x62 0x42 (by simp)).1 h1) (by simp) h
          · intro h
            cases h with
            | decimal h1 h2 h3 h4 => exact absurd rfl (n0 _ _ h1 h3)
            | zero h => exact absurd h (nozero (.inl h1))
            | binary _ _ h => exact h
            | octal h => rw [← lower_iff d 0x6f 0x4f (by simp), h1] at h; exact absurd h (by decide)
            | hex h => rw [← lower_iff d 0x78 0x58 (by simp), h1] at h; exact absurd h (by decide)
        by_cases h2 : lower d = 0x6f
        · rw [run 8 (by rw [prefixed, if_pos rfl, if_neg h1, if_pos h2]) (.inl (by omega)) (.inr (.inl h2))]
          constructor
          · exact fun h => .octal ((lower_iff d 0x6f 0x4f (by simp)).1 h2) (by simp) h
          · intro h
            cases h with
            | decimal h1 h2 h3 h4 => exact absurd rfl (n0 _ _ h1 h3)
            | zero h => exact absurd h (nozero (.inr (.inl h2)))
            | binary h => rw [← lower_iff d 0x62 0x42 (by simp)] at h; exact absurd h h1
            | octal _ _ h => exact h
            | hex h => rw [← lower_iff d 0x78 0x58 (by simp), h2] at h; exact absurd h (by decide)
        by_cases h3 : lower d = 0x78
        · rw [run 16 (by rw [prefixed, if_pos rfl, if_neg h1, if_neg h2, if_pos h3]) (.inr ⟨h3, by omega⟩) (.inr (.inr h3))]
          constructor
          · exact fun h => .hex ((lower_iff d 0x78 0x58 (by simp)).1 h3) (by simp) h
          · intro h
            cases h with
            | decimal h1 h2 h3 h4 => exact absurd rfl (n0 _ _ h1 h3)
            | zero h => exact absurd h (nozero (.inr (.inr h3)))
            | binary h => rw [← lower_iff d 0x62 0x42 (by simp)] at h; exact absurd h h1
            | octal h => rw [← lower_iff d 0x6f 0x4f (by simp)] at h; exact absurd h h2
            | hex _ _ h => exact h
        · exact oct (by intro d' e' r' h; cases h; exact ⟨h1, h2, h3⟩)
    · -- decimal
      have hp : prefixed (c :: s) = (10, c :: s) := by
        match s with
        | [] => rw [prefixed, if_neg hc]; simp
        | [d] => rw [prefixed, if_neg hc]; simp
        | d :: e :: r => rw [prefixed, if_neg hc]
      have hu : underscoreOK (c :: s) = underscores false .start (c :: s) := by
        match s with
        | [] => rfl
        | d :: r => rw [underscoreOK, if_neg (fun h => hc h.1)]
      have e : ParseUint (c :: s) = (match digits 10 0 (c :: s) with
          | none => none
          | some k => if 0x5f ∈ c :: s ∧ underscores false .start (c :: s) = false then none else some k) := by
        unfold ParseUint
        rw [if_neg (by simp), hp, hu]
        rfl
      rw [e]
      by_cases hc5 : c = 0x5f
      · subst hc5
        have : underscores false .start (0x5f :: s) = false := by
          rw [underscores, if_neg (by rintro (h | ⟨_, h⟩) <;> revert h <;> decide), if_pos rfl, if_neg (by decide)]
        rw [this]
        constructor
        · intro h
          split at h
          · cases h
          · rw [if_pos ⟨by simp, rfl⟩] at h; cases h
        · intro h
          cases h with
          | decimal h1 => rw [← digit_iff, digit_underscore] at h1; cases h1
      · rw [digits, if_neg hc5]
        cases hd : Strconv.digit c with
        | none =>
          simp only
          constructor
          · intro h; cases h
          · intro h
            cases h with
            | decimal h1 => rw [← digit_iff, hd] at h1; cases h1
            | zero => exact absurd rfl hc
            | binary => exact absurd rfl hc
            | octal => exact absurd rfl hc
            | hex => exact absurd rfl hc
        | some d =>
          simp only
          by_cases h10 : 10 ≤ d
          · rw [if_pos h10]
            simp only
            constructor
            · intro h; cases h
            · intro h
              cases h with
              | decimal h1 h2 => rw [← digit_iff, hd] at h1; cases h1; omega
              | zero => exact absurd rfl hc
              | binary => exact absurd rfl hc
              | octal => exact absurd rfl hc
              | hex => exact absurd rfl hc
          · rw [if_neg h10]
            have hs' : underscores false .start (c :: s) = underscores false .digit s := by
              rw [underscores, if_pos (isDigit false 10 (.inl (by omega)) c d hd (by omega))]
            have h5 : (0x5f : UInt8) ∈ c :: s ↔ (0x5f : UInt8) ∈ s := by
              simp [List.mem_cons, Ne.symm hc5]
            simp only [hs', h5, Nat.zero_mul, Nat.zero_add]
            rw [checked_iff false 10 (.inl (by omega))]
            constructor
            · intro h
              exact .decimal ((digit_iff _ _).1 hd) (by omega) (by rintro rfl; exact nd c hc hd) h
            · intro h
              cases h with
              | decimal h1 h2 h3 h4 => rw [← digit_iff, hd] at h1; cases h1; exact h4
              | zero => exact absurd rfl hc
              | binary => exact absurd rfl hc
              | octal => exact absurd rfl hc
              | hex => exact absurd rfl hc

theorem magnitude_sign {c : UInt8} {s : Bytes} {n : Nat} (h : Magnitude (c :: s) n) : c ≠ 0x2d ∧ c ≠ 0x2b := by
  have : ∀ c : UInt8, ∀ d, NumberDigit c d → c ≠ 0x2d ∧ c ≠ 0x2b := by
    intro c d h
    rw [← digit_iff] at h
    constructor
    · rintro rfl; revert h; simp [show Strconv.digit 0x2d = none by decide]
    · rintro rfl; revert h; simp [show Strconv.digit 0x2b = none by decide]
  cases h with
  | decimal h => exact this _ _ h
  | zero => decide
  | binary => decide
  | octal => decide
  | hex => decide

theorem parseInt_iff (s : Bytes) (i : Int) : ParseInt s = some i ↔ Numeral s i := by
  constructor
  · intro h
    unfold ParseInt at h
    match s, h with
    | c :: r, h =>
      simp only at h
      by_cases hm : c = 0x2d
      · subst hm
        rw [if_pos rfl] at h
        cases hp : ParseUint r with
        | none => rw [hp] at h; cases h
        | some n =>
          rw [hp] at h
          simp only at h
          split at h
          · cases h
          · cases h
            exact .minus ((parseUint_iff _ _).1 hp) (by omega)
      · rw [if_neg hm] at h
        by_cases hpl : c = 0x2b
        · subst hpl
          rw [if_pos rfl] at h
          cases hp : ParseUint r with
          | none => rw [hp] at h; cases h
          | some n =>
            rw [hp] at h
            simp only at h
            split at h
            · cases h
            · cases h
              exact .plus ((parseUint_iff _ _).1 hp) (by omega)
        · rw [if_neg hpl] at h
          cases hp : ParseUint (c :: r) with
          | none => rw [hp] at h; cases h
          | some n =>
            rw [hp] at h
            simp only at h
            split at h
            · cases h
            · cases h
              exact .plain ((parseUint_iff _ _).1 hp) (by omega)
  · intro h
    cases h with
    | @plain s n h hn =>
      match s, h with
      | [], h => cases h
      | c :: r, h =>
        obtain ⟨h1, h2⟩ := magnitude_sign h
        unfold ParseInt
        simp only
        rw [if_neg h1, if_neg h2, (parseUint_iff _ _).2 h]
        simp only
        rw [if_neg (by omega)]
    | @plus s n h hn =>
      unfold ParseInt
      simp only
      rw [if_neg (by decide), if_pos trivial, (parseUint_iff _ _).2 h]
      simp only
      rw [if_neg (by omega)]
    | @minus s n h hn =>
      unfold ParseInt
      simp only
      rw [if_pos trivial, (parseUint_iff _ _).2 h]
      simp only
      rw [if_neg (by omega)]

theorem parseBool_iff (s : Bytes) (b : Bool) : ParseBool s = some b ↔ Truth s b := by
  unfold ParseBool Truth
  have ne : ∀ x ∈ [b!"1", b!"t", b!"T", b!"TRUE", b!"true", b!"True"], x ∉ [b!"0", b!"f", b!"F", b!"FALSE", b!"false", b!"False"] := by decide
  have p1 : ∀ x, x ∈ [b!"1", b!"t", b!"T", b!"TRUE", b!"true", b!"True"] ↔ x ∈ [b!"1", b!"t", b!"T", b!"true", b!"TRUE", b!"True"] := by
    intro x; simp only [List.mem_cons]; grind
  have p2 : ∀ x, x ∈ [b!"0", b!"f", b!"F", b!"FALSE", b!"false", b!"False"] ↔ x ∈ [b!"0", b!"f", b!"F", b!"false", b!"FALSE", b!"False"] := by
    intro x; simp only [List.mem_cons]; grind
  by_cases h1 : s ∈ [b!"1", b!"t", b!"T", b!"TRUE", b!"true", b!"True"]
  · rw [if_pos h1]
    have h2 := ne s h1
    rw [p2] at h2
    rw [p1] at h1
    cases b <;> simp only [h1, h2, if_true, if_false, Bool.false_eq_true] <;> simp
  · rw [if_neg h1]
    by_cases h2 : s ∈ [b!"0", b!"f", b!"F", b!"FALSE", b!"false", b!"False"]
    · rw [if_pos h2]
      rw [p2] at h2
      rw [p1] at h1
      cases b <;> simp only [h1, h2, if_true, if_false, Bool.false_eq_true] <;> simp
    · rw [if_neg h2]
      rw [p2] at h2
      rw [p1] at h1
      cases b <;> simp only [h1, h2, if_true, if_false, Bool.false_eq_true] <;> simp

theorem set_iff (v v' : Flag.Value) (s : Bytes) : v.Set s = some v' ↔ Means (kindOf v) s v' := by
  cases v with
  | bool b =>
    unfold Flag.Value.Set kindOf
    simp only [Option.map_eq_some_iff]
    constructor
    · rintro ⟨b, h, rfl⟩; exact .switch ((parseBool_iff _ _).1 h)
    · intro h; cases h with
      | switch h => exact ⟨_, (parseBool_iff _ _).2 h, rfl⟩
  | string t =>
    unfold Flag.Value.Set kindOf
    constructor
    · intro h; cases h; exact .text
    · intro h; cases h; rfl
  | int i =>
    unfold Flag.Value.Set kindOf
    simp only [Option.map_eq_some_iff]
    constructor
    · rintro ⟨b, h, rfl⟩; exact .number ((parseInt_iff _ _).1 h)
    · intro h; cases h with
      | number h => exact ⟨_, (parseInt_iff _ _).2 h, rfl⟩

theorem numberDigit_inj {c : UInt8} {d d' : Nat} (h : NumberDigit c d) (h' : NumberDigit c d') : d = d' := by
  rw [← digit_iff] at h h'
  exact Option.some.inj (h.symm.trans h')

theorem means_inj {k : FlagKind} {s : Bytes} {v v' : Flag.Value} (h : Means k s v) (h' : Means k s v') : v = v' := by
  have : ∃ w : Flag.Value, kindOf w = k := by
    cases k
    · exact ⟨.bool true, rfl⟩
    · exact ⟨.string [], rfl⟩
    · exact ⟨.int 0, rfl⟩
  obtain ⟨w, rfl⟩ := this
  rw [← set_iff] at h h'
  exact Option.some.inj (h.symm.trans h')

theorem means_kind {k : FlagKind} {s : Bytes} {v : Flag.Value} (h : Means k s v) : kindOf v = k := by cases h <;> rfl

/-! Flags. -/

theorem lookup_put (f : FlagSet) (n : Bytes) (v : Flag.Value) (m : Bytes) :
    (f.put n v).lookup m = if m = n then (f.lookup n).map (fun _ => v) else f.lookup m := by
  induction f with
  | nil => split <;> rfl
  | cons p f ih =>
    obtain ⟨a, w⟩ := p
    unfold FlagSet.put at *
    rw [List.map_cons]
    by_cases ha : a = n
    · subst ha
      simp only [if_true, List.lookup_cons]
      by_cases hm : m = a
      · subst hm; simp
      · simp only [beq_eq_false_iff_ne.2 hm, ih, if_neg hm]
    · simp only [if_neg ha, List.lookup_cons]
      by_cases hm : m = a
      · subst hm; simp [ha]
      · simp only [beq_eq_false_iff_ne.2 hm, ih]
        by_cases hmn : m = n
        · simp only [hmn, if_true, beq_eq_false_iff_ne.2 (Ne.symm ha)]
        · simp only [if_neg hmn]

theorem put_names (f : FlagSet) (n : Bytes) (v : Flag.Value) : (f.put n v).map Prod.fst = f.map Prod.fst := by
  unfold FlagSet.put
  rw [List.map_map]
  apply List.map_congr_left
  intro p _
  simp only [Function.comp]
  split <;> simp_all

theorem kinds_put (f : FlagSet) (n : Bytes) (v v' : Flag.Value) (h : f.lookup n = some v) (hk : kindOf v' = kindOf v) :
    kinds (f.put n v') = kinds f := by
  funext m
  unfold kinds
  rw [lookup_put]
  split
  · subst m; rw [h]; simp [hk]
  · rfl

/-- The flags are set one after the other. -/
def setAll : FlagSet → List (Bytes × Bytes) → Option FlagSet
  | f, [] => some f
  | f, (n, s) :: gs => match f.lookup n with
    | none => none
    | some v => match v.Set s with
      | none => none
      | some v' => setAll (f.put n v') gs

theorem setAll_cons {f f' : FlagSet} {n s : Bytes} {gs : List (Bytes × Bytes)} :
    setAll f ((n, s) :: gs) = some f' ↔ ∃ v v', f.lookup n = some v ∧ v.Set s = some v' ∧ setAll (f.put n v') gs = some f' := by
  rw [setAll]
  constructor
  · intro h
    split at h
    · cases h
    · rename_i v hv
      split at h
      · cases h
      · rename_i v' hv'
        exact ⟨v, v', hv, hv', h⟩
  · rintro ⟨v, v', h1, h2, h3⟩
    rw [h1]
    simp only
    rw [h2]
    exact h3

theorem lastOf_cons (n s : Bytes) (gs : List (Bytes × Bytes)) (m : Bytes) :
    lastOf ((n, s) :: gs) m = (lastOf gs m).or (if m = n then some s else none) := by
  unfold lastOf
  rw [List.reverse_cons, List.lookup_append]
  congr 1
  rw [List.lookup_cons]
  by_cases h : m = n
  · simp [h]
  · simp [h, beq_eq_false_iff_ne.2 h]

theorem setAll_settled (gs : List (Bytes × Bytes)) : ∀ f f', setAll f gs = some f' → Settled f gs f' := by
  induction gs with
  | nil =>
    intro f f' h
    cases h
    exact ⟨fun _ h => absurd h List.not_mem_nil, rfl, fun name v h => ⟨v, h, rfl⟩⟩
  | cons g gs ih =>
    obtain ⟨n, s⟩ := g
    intro f f' h
    obtain ⟨v, v', h1, h2, h3⟩ := setAll_cons.1 h
    obtain ⟨i1, i2, i3⟩ := ih _ _ h3
    have hm := (set_iff _ _ _).1 h2
    have hk := means_kind hm
    rw [kinds_put f n v v' h1 hk] at i1
    refine ⟨?_, i2.trans (put_names f n v'), ?_⟩
    · intro g hg
      rcases List.mem_cons.1 hg with rfl | hg
      · exact ⟨kindOf v, v', by simp [kinds, h1], hm⟩
      · exact i1 g hg
    · intro name w hw
      have hl := lookup_put f n v' name
      rw [lastOf_cons]
      by_cases hn : name = n
      · subst hn
        rw [if_pos rfl, h1] at hl
        rw [h1] at hw
        cases hw
        obtain ⟨x, hx, hx'⟩ := i3 name v' hl
        refine ⟨x, hx, ?_⟩
        cases hlast : lastOf gs name with
        | none => rw [hlast] at hx'; simp only [Option.none_or, if_true]; rw [hx']; exact hm
        | some t => rw [hlast] at hx'; simp only [Option.some_or]; rw [hk] at hx'; exact hx'
      · rw [if_neg hn] at hl
        obtain ⟨x, hx, hx'⟩ := i3 name w (hl.trans hw)
        refine ⟨x, hx, ?_⟩
        rw [if_neg hn, Option.or_none]
        exact hx'

theorem setAll_some (gs : List (Bytes × Bytes)) : ∀ f, (∀ g ∈ gs, ∃ k v, kinds f g.1 = some k ∧ Means k g.2 v) →
    ∃ f', setAll f gs = some f' := by
  induction gs with
  | nil => intro f _; exact ⟨f, rfl⟩
  | cons g gs ih =>
    obtain ⟨n, s⟩ := g
    intro f h
    obtain ⟨k, v', h1, h2⟩ := h (n, s) (by simp)
    obtain ⟨v, hv, rfl⟩ := Option.map_eq_some_iff.1 h1
    obtain ⟨f', hf⟩ := ih (f.put n v') (by
      rw [kinds_put f n v v' hv (means_kind h2)]
      exact fun g hg => h g (by simp [hg]))
    exact ⟨f', setAll_cons.2 ⟨v, v', hv, (set_iff _ _ _).2 h2, hf⟩⟩

theorem ext_lookup : ∀ (f g : FlagSet), f.map Prod.fst = g.map Prod.fst → (f.map Prod.fst).Nodup →
    (∀ name ∈ f.map Prod.fst, f.lookup name = g.lookup name) → f = g
  | [], [], _, _, _ => rfl
  | [], _ :: _, h, _, _ => by simp at h
  | _ :: _, [], h, _, _ => by simp at h
  | (a, v) :: f, (b, w) :: g, h, hn, hl => by
    simp only [List.map_cons, List.cons.injEq] at h
    obtain ⟨rfl, h⟩ := h
    simp only [List.map_cons, List.nodup_cons] at hn
    have h0 := hl a (by simp)
    simp only [List.lookup_cons, beq_self_eq_true] at h0
    cases h0
    congr 1
    refine ext_lookup f g h hn.2 ?_
    intro name hname
    have := hl name (by simp only [List.map_cons, List.mem_cons]; exact .inr hname)
    have hne : name ≠ a := by rintro rfl; exact hn.1 hname
    simpa only [List.lookup_cons, beq_eq_false_iff_ne.2 hne] using this

theorem lookup_mem (f : FlagSet) (name : Bytes) (h : name ∈ f.map Prod.fst) : ∃ v, f.lookup name = some v := by
  cases hl : f.lookup name with
  | some v => exact ⟨v, rfl⟩
  | none =>
    rw [List.lookup_eq_none_iff] at hl
    obtain ⟨p, hp, rfl⟩ := List.mem_map.1 h
    have := hl p hp
    simp at this

theorem lookup_name (f : FlagSet) (name : Bytes) (v : Flag.Value) (h : f.lookup name = some v) : name ∈ f.map Prod.fst := by
  induction f with
  | nil => cases h
  | cons p f ih =>
    rw [List.lookup_cons] at h
    by_cases hn : name = p.1
    · simp [hn]
    · rw [beq_eq_false_iff_ne.2 hn] at h
      simp only [List.map_cons, List.mem_cons]
      exact .inr (ih h)

theorem settled_unique {f a b : FlagSet} {gs : List (Bytes × Bytes)} (hn : (f.map Prod.fst).Nodup) (ha : Settled f gs a) (hb : Settled f gs b) :
    a = b := by
  refine ext_lookup a b (ha.2.1.trans hb.2.1.symm) (by rw [ha.2.1]; exact hn) ?_
  intro name hname
  rw [ha.2.1] at hname
  obtain ⟨v, hv⟩ := lookup_mem f name hname
  obtain ⟨x, hx, hx'⟩ := ha.2.2 name v hv
  obtain ⟨y, hy, hy'⟩ := hb.2.2 name v hv
  rw [hx, hy]
  congr 1
  cases hl : lastOf gs name with
  | none => rw [hl] at hx' hy'; exact hx'.trans hy'.symm
  | some s => rw [hl] at hx' hy'; exact means_inj hx' hy'

theorem setAll_iff {f f' : FlagSet} {gs : List (Bytes × Bytes)} (hn : (f.map Prod.fst).Nodup) : setAll f gs = some f' ↔ Settled f gs f' := by
  refine ⟨setAll_settled gs f f', fun h => ?_⟩
  obtain ⟨g, hg⟩ := setAll_some gs f h.1
  rw [hg, settled_unique hn (setAll_settled gs f g hg) h]

/-! The arguments. -/

theorem undash_none {a : Bytes} (h : ∀ c s, a ≠ 0x2d :: c :: s) : undash a = none := by
  unfold undash
  split
  · exact absurd rfl (h _ _)
  · exact absurd rfl (h _ _)
  · rfl

theorem undash_plain {a : Bytes} (h : undash a = none) : ∀ c s, a ≠ 0x2d :: c :: s := by
  rintro c s rfl
  unfold undash at h
  split at h
  · cases h
  · cases h
  · rename_i h1 h2
    exact h2 _ _ rfl

theorem undash_some {a : Bytes} {c : UInt8} {s : Bytes} (hc : c ≠ 0x2d) : undash a = some (c :: s) ↔ Dashed a (c :: s) := by
  constructor
  · intro h
    unfold undash at h
    split at h
    · cases h; exact .inr rfl
    · cases h; exact .inl rfl
    · cases h
  · rintro (rfl | rfl)
    · unfold undash
      split
      · rename_i h; cases h; exact absurd rfl hc
      · rename_i h; cases h; rfl
      · rename_i h1 h2; exact absurd rfl (h2 _ _)
    · rfl

theorem undash_nil {a : Bytes} (h : undash a = some []) : a = [0x2d, 0x2d] := by
  unfold undash at h
  split at h
  · cases h; rfl
  · cases h
  · cases h

theorem cut_plain {c : UInt8} {s : Bytes} (h : (0x3d : UInt8) ∉ s) : cutName (c :: s) = (c :: s, none) := by
  have hp : ∀ a ∈ s, decide (a ≠ (0x3d : UInt8)) = true := by intro x hx; simp; rintro rfl; exact h hx
  have h1 := List.takeWhile_append_of_pos (l₂ := []) hp
  have h2 := List.dropWhile_append_of_pos (l₂ := []) hp
  simp only [List.append_nil, List.takeWhile_nil, List.dropWhile_nil] at h1 h2
  rw [cutName, h1, h2]

theorem cut_equals {c : UInt8} {s v : Bytes} (h : (0x3d : UInt8) ∉ s) : cutName (c :: (s ++ b!"=" ++ v)) = (c :: s, some v) := by
  have hp : ∀ a ∈ s, decide (a ≠ (0x3d : UInt8)) = true := by intro x hx; simp; rintro rfl; exact h hx
  have h1 : (s ++ b!"=" ++ v).takeWhile (fun x => decide (x ≠ 0x3d)) = s := by
    rw [List.append_assoc, List.takeWhile_append_of_pos hp]; simp
  have h2 : (s ++ b!"=" ++ v).dropWhile (fun x => decide (x ≠ 0x3d)) = 0x3d :: v := by
    rw [List.append_assoc, List.dropWhile_append_of_pos hp]; simp
  rw [cutName, h1, h2]

theorem first_equals (s : Bytes) (h : (0x3d : UInt8) ∈ s) : ∃ n v, s = n ++ b!"=" ++ v ∧ (0x3d : UInt8) ∉ n := by
  induction s with
  | nil => cases h
  | cons x s ih =>
    by_cases hx : x = 0x3d
    · subst hx; exact ⟨[], s, rfl, by simp⟩
    · obtain ⟨n, v, e, hn⟩ := ih (by simpa [Ne.symm hx] using h)
      exact ⟨x :: n, v, by rw [e]; rfl, by simp [hn, Ne.symm hx]⟩

/-- How an argument is cut. -/
theorem cut_cases (c : UInt8) (s : Bytes) : (cutName (c :: s) = (c :: s, none) ∧ (0x3d : UInt8) ∉ s) ∨
    ∃ n v, s = n ++ b!"=" ++ v ∧ cutName (c :: s) = (c :: n, some v) ∧ (0x3d : UInt8) ∉ n := by
  by_cases h : (0x3d : UInt8) ∈ s
  · obtain ⟨n, v, rfl, hn⟩ := first_equals s h
    exact .inr ⟨n, v, rfl, cut_equals hn, hn⟩
  · exact .inl ⟨cut_plain h, h⟩

/-- The flags of a program have names that can be given. -/
def Named (f : FlagSet) : Prop := ∀ name ∈ f.map Prod.fst, FlagName name

theorem named_put {f : FlagSet} (h : Named f) (n : Bytes) (v : Flag.Value) : Named (f.put n v) := by
  unfold Named; rw [put_names]; exact h

theorem parse_says (n : Nat) : ∀ (args : List Bytes), args.length ≤ n → ∀ (f f' : FlagSet) (rest : List Bytes), Named f →
    Parse f args = .ok (f', rest) → ∃ gs, ArgsSay (kinds f) args gs rest ∧ setAll f gs = some f' := by
  induction n with
  | zero =>
    intro args hl f f' rest _ h
    have : args = [] := List.eq_nil_of_length_eq_zero (by omega)
    subst this
    cases h
    exact ⟨[], .none, rfl⟩
  | succ n ih =>
    intro args hl f f' rest hf h
    match args, hl, h with
    | [], _, h => cases h; exact ⟨[], .none, rfl⟩
    | a :: args, hl, h =>
      rw [Parse.eq_def] at h
      simp only at h
      cases hu : undash a with
      | none =>
        rw [hu] at h
        cases h
        exact ⟨[], .plain (undash_plain hu), rfl⟩
      | some s =>
        rw [hu] at h
        match s, hu, h with
        | [], hu, h =>
          cases h
          rw [undash_nil hu]
          exact ⟨[], .dashes, rfl⟩
        | c :: s, hu, h =>
          simp only at h
          split at h
          · cases h
          · rename_i hc
            have hc1 : c ≠ 0x2d := fun e => hc (.inl e)
            have hd := (undash_some hc1).1 hu
            rcases cut_cases c s with ⟨hcut, hs⟩ | ⟨m, v, rfl, hcut, hm⟩
            · rw [hcut] at h
              simp only at h
              cases hlook : f.lookup (c :: s) with
              | none => rw [hlook] at h; cases h
              | some w =>
                rw [hlook] at h
                simp only at h
                split at h
                · rename_i hb
                  have hkw : kindOf w = .switch := by cases w <;> first | rfl | cases hb
                  obtain ⟨gs, h1, h2⟩ := ih args (by simpa using hl) _ _ _ (named_put hf _ _) h
                  rw [kinds_put f _ w (.bool true) hlook hkw.symm] at h1
                  refine ⟨_, .on hd (by simp [kinds, hlook, hkw]) h1, setAll_cons.2 ⟨w, .bool true, hlook, ?_, h2⟩⟩
                  rw [set_iff, hkw]
                  exact .switch (by unfold Truth; decide)
                · rename_i hb
                  have hkw : kindOf w ≠ .switch := by cases w <;> first | exact absurd rfl hb | (intro h; cases h)
                  match args, hl, h with
                  | [], _, h => cases h
                  | v :: args, hl, h =>
                    simp only at h
                    cases hset : w.Set v with
                    | none => rw [hset] at h; cases h
                    | some w' =>
                      rw [hset] at h
                      obtain ⟨gs, h1, h2⟩ := ih args (by simp at hl; omega) _ _ _ (named_put hf _ _) h
                      rw [kinds_put f _ w _ hlook (means_kind ((set_iff _ _ _).1 hset))] at h1
                      exact ⟨_, .next hd (k := kindOf w) (by simp [kinds, hlook]) hkw h1, setAll_cons.2 ⟨w, w', hlook, hset, h2⟩⟩
            · rw [hcut] at h
              simp only at h
              cases hlook : f.lookup (c :: m) with
              | none => rw [hlook] at h; cases h
              | some w =>
                rw [hlook] at h
                simp only at h
                cases hset : w.Set v with
                | none => rw [hset] at h; cases h
                | some w' =>
                  rw [hset] at h
                  obtain ⟨gs, h1, h2⟩ := ih args (by simpa using hl) _ _ _ (named_put hf _ _) h
                  rw [kinds_put f _ w _ hlook (means_kind ((set_iff _ _ _).1 hset))] at h1
                  exact ⟨_, .equals (name := c :: m) hd (k := kindOf w) (by simp [kinds, hlook]) h1, setAll_cons.2 ⟨w, w', hlook, hset, h2⟩⟩

theorem kinds_name {f : FlagSet} {name : Bytes} {k : FlagKind} (h : kinds f name = some k) : ∃ v, f.lookup name = some v ∧ kindOf v = k :=
  Option.map_eq_some_iff.1 h

/-- What a flag without an equals sign does. -/
theorem parse_flag {f : FlagSet} (hf : Named f) {a name : Bytes} {v : Flag.Value} (hd : Dashed a name) (hl : f.lookup name = some v)
    (args : List Bytes) :
    Parse f (a :: args) = if v.isBool then Parse (f.put name (.bool true)) args
      else match args with
        | [] => .error .bad
        | s :: args => match v.Set s with
          | some v' => Parse (f.put name v') args
          | none => .error .bad := by
  obtain ⟨c, s, rfl, hc1, hc2, hs⟩ := hf name (lookup_name f name v hl)
  rw [Parse.eq_def]
  simp only
  rw [(undash_some hc1).2 hd]
  simp only
  rw [if_neg (by simp [hc1, hc2]), cut_plain hs]
  simp only
  rw [hl]
  rfl

theorem parse_equals {f : FlagSet} (hf : Named f) {a name s : Bytes} {v : Flag.Value} (hd : Dashed a (name ++ b!"=" ++ s)) (hl : f.lookup name = some v)
    (args : List Bytes) :
    Parse f (a :: args) = match v.Set s with
      | some v' => Parse (f.put name v') args
      | none => .error .bad := by
  obtain ⟨c, n, rfl, hc1, hc2, hs⟩ := hf name (lookup_name f name v hl)
  rw [Parse.eq_def]
  simp only
  rw [(undash_some (s := n ++ b!"=" ++ s) hc1).2 hd]
  simp only
  rw [if_neg (by simp [hc1, hc2]), cut_equals hs]
  simp only
  rw [hl]
  rfl

theorem says_parse {k : Bytes → Option FlagKind} {args : List Bytes} {gs : List (Bytes × Bytes)} {rest : List Bytes} (h : ArgsSay k args gs rest) :
    ∀ (f f' : FlagSet), Named f → kinds f = k → setAll f gs = some f' → Parse f args = .ok (f', rest) := by
  induction h with
  | none => intro f f' _ _ h; cases h; rfl
  | plain hp => intro f f' _ _ h; cases h; rw [Parse.eq_def]; simp only; rw [undash_none hp]
  | dashes => intro f f' _ _ h; cases h; rfl
  | on hd hk _ ih =>
    intro f f' hf hkf h
    subst hkf
    obtain ⟨v, v', h1, h2, h3⟩ := setAll_cons.1 h
    have hkv : kindOf v = .switch := by
      obtain ⟨w, hw, hw'⟩ := kinds_name hk
      rw [h1] at hw; cases hw; exact hw'
    have hb : v.isBool = true := by cases v <;> first | rfl | cases hkv
    rw [parse_flag hf hd h1, if_pos hb]
    have : v' = .bool true := by
      rw [set_iff, hkv] at h2
      exact means_inj h2 (.switch (by unfold Truth; decide))
    subst this
    exact ih _ _ (named_put hf _ _) (kinds_put f _ v _ h1 hkv.symm) h3
  | equals hd hk _ ih =>
    intro f f' hf hkf h
    subst hkf
    obtain ⟨v, v', h1, h2, h3⟩ := setAll_cons.1 h
    rw [parse_equals hf hd h1, h2]
    exact ih _ _ (named_put hf _ _) (kinds_put f _ v _ h1 (means_kind ((set_iff _ _ _).1 h2))) h3
  | next hd hk hns _ ih =>
    intro f f' hf hkf h
    subst hkf
    obtain ⟨v, v', h1, h2, h3⟩ := setAll_cons.1 h
    have hb : ¬ v.isBool = true := by
      obtain ⟨w, hw, hw'⟩ := kinds_name hk
      rw [h1] at hw; cases hw
      intro hb
      apply hns
      cases v <;> first | exact hw'.symm | cases hb
    rw [parse_flag hf hd h1, if_neg hb]
    simp only
    rw [h2]
    exact ih _ _ (named_put hf _ _) (kinds_put f _ v _ h1 (means_kind ((set_iff _ _ _).1 h2))) h3

theorem parse_iff {f f' : FlagSet} (hf : Named f) (hn : (f.map Prod.fst).Nodup) (args rest : List Bytes) :
    Parse f args = .ok (f', rest) ↔ ∃ gs, ArgsSay (kinds f) args gs rest ∧ Settled f gs f' := by
  constructor
  · intro h
    obtain ⟨gs, h1, h2⟩ := parse_says _ args (Nat.le_refl _) f f' rest hf h
    exact ⟨gs, h1, (setAll_iff hn).1 h2⟩
  · rintro ⟨gs, h1, h2⟩
    exact says_parse h1 f f' hf rfl ((setAll_iff hn).2 h2)

theorem parse_help_iff (n : Nat) : ∀ (args : List Bytes), args.length ≤ n → ∀ (f : FlagSet), Named f →
    (Parse f args = .error .help ↔ AsksHelp (kinds f) args) := by
  have hname : ∀ name, name = b!"h" ∨ name = b!"help" → FlagName name := by
    rintro name (rfl | rfl)
    · exact ⟨_, _, rfl, by decide, by decide, by decide⟩
    · exact ⟨_, _, rfl, by decide, by decide, by decide⟩
  induction n with
  | zero =>
    intro args hl f hf
    have : args = [] := List.eq_nil_of_length_eq_zero (by omega)
    subst this
    constructor
    · intro h; cases h
    · intro h; cases h
  | succ n ih =>
    intro args hl f hf
    constructor
    · intro h
      match args, hl, h with
      | a :: args, hl, h =>
        rw [Parse.eq_def] at h
        simp only at h
        cases hu : undash a with
        | none => rw [hu] at h; cases h
        | some s =>
          rw [hu] at h
          match s, hu, h with
          | c :: s, hu, h =>
            simp only at h
            split at h
            · cases h
            · rename_i hc
              have hc1 : c ≠ 0x2d := fun e => hc (.inl e)
              have hd := (undash_some hc1).1 hu
              rcases cut_cases c s with ⟨hcut, hs⟩ | ⟨m, v, rfl, hcut, hm⟩
              · rw [hcut] at h
                simp only at h
                cases hlook : f.lookup (c :: s) with
                | none =>
                  rw [hlook] at h
                  simp only at h
                  split at h
                  · rename_i hh
                    exact .ask hh.symm (by simp [kinds, hlook]) hd
                  · cases h
                | some w =>
                  rw [hlook] at h
                  simp only at h
                  split at h
                  · rename_i hb
                    have hkw : kindOf w = .switch := by cases w <;> first | rfl | cases hb
                    have h1 := (ih args (by simpa using hl) _ (named_put hf _ _)).1 h
                    rw [kinds_put f _ w (.bool true) hlook hkw.symm] at h1
                    exact .on hd (by simp [kinds, hlook, hkw]) h1
                  · rename_i hb
                    have hkw : kindOf w ≠ .switch := by cases w <;> first | exact absurd rfl hb | (intro h; cases h)
                    match args, hl, h with
                    | v :: args, hl, h =>
                      simp only at h
                      cases hset : w.Set v with
                      | none => rw [hset] at h; cases h
                      | some w' =>
                        rw [hset] at h
                        have h1 := (ih args (by simp at hl; omega) _ (named_put hf _ _)).1 h
                        rw [kinds_put f _ w _ hlook (means_kind ((set_iff _ _ _).1 hset))] at h1
                        exact .next hd (k := kindOf w) (by simp [kinds, hlook]) hkw ((set_iff _ _ _).1 hset) h1
              · rw [hcut] at h
                simp only at h
                cases hlook : f.lookup (c :: m) with
                | none =>
                  rw [hlook] at h
                  simp only at h
                  split at h
                  · rename_i hh
                    exact .askEquals (name := c :: m) hh.symm (by simp [kinds, hlook]) hd
                  · cases h
                | some w =>
                  rw [hlook] at h
                  simp only at h
                  cases hset : w.Set v with
                  | none => rw [hset] at h; cases h
                  | some w' =>
                    rw [hset] at h
                    have h1 := (ih args (by simpa using hl) _ (named_put hf _ _)).1 h
                    rw [kinds_put f _ w _ hlook (means_kind ((set_iff _ _ _).1 hset))] at h1
                    exact .equals (name := c :: m) hd (k := kindOf w) (by simp [kinds, hlook]) ((set_iff _ _ _).1 hset) h1
    · intro h
      cases h with
      | ask hh hk hd =>
        have hl : f.lookup _ = none := Option.map_eq_none_iff.1 hk
        obtain ⟨c, s, rfl, hc1, hc2, hs⟩ := hname _ hh
        rw [Parse.eq_def]
        simp only
        rw [(undash_some hc1).2 hd]
        simp only
        rw [if_neg (by simp [hc1, hc2]), cut_plain hs]
        simp only
        rw [hl]
        simp only
        rw [if_pos hh.symm]
      | @askEquals _ _ v _ hh hk hd =>
        have hl : f.lookup _ = none := Option.map_eq_none_iff.1 hk
        obtain ⟨c, s, rfl, hc1, hc2, hs⟩ := hname _ hh
        rw [Parse.eq_def]
        simp only
        rw [(undash_some (s := s ++ b!"=" ++ v) hc1).2 hd]
        simp only
        rw [if_neg (by simp [hc1, hc2]), cut_equals hs]
        simp only
        rw [hl]
        simp only
        rw [if_pos hh.symm]
      | on hd hk hr =>
        obtain ⟨v, hv, hkv⟩ := kinds_name hk
        have hb : v.isBool = true := by cases v <;> first | rfl | cases hkv
        rw [parse_flag hf hd hv, if_pos hb, ih _ (by simpa using hl) _ (named_put hf _ _), kinds_put f _ v (.bool true) hv hkv.symm]
        exact hr
      | equals hd hk hm hr =>
        obtain ⟨v, hv, rfl⟩ := kinds_name hk
        rw [parse_equals hf hd hv, (set_iff _ _ _).2 hm]
        simp only
        rw [ih _ (by simpa using hl) _ (named_put hf _ _), kinds_put f _ v _ hv (means_kind hm)]
        exact hr
      | next hd hk hns hm hr =>
        obtain ⟨v, hv, rfl⟩ := kinds_name hk
        have hb : ¬ v.isBool = true := by
          intro hb
          apply hns
          cases v <;> first | rfl | cases hb
        rw [parse_flag hf hd hv, if_neg hb]
        simp only
        rw [(set_iff _ _ _).2 hm]
        simp only
        rw [ih _ (by simp at hl; omega) _ (named_put hf _ _), kinds_put f _ v _ hv (means_kind hm)]
        exact hr

theorem parse_help {f : FlagSet} (hf : Named f) (args : List Bytes) : Parse f args = .error .help ↔ AsksHelp (kinds f) args :=
  parse_help_iff _ args (Nat.le_refl _) f hf

/-! Reading a command line in only one way. -/

/-- The flags and the rest of the arguments, read from left to right. -/
def scan (k : Bytes → Option FlagKind) : List Bytes → Option (List (Bytes × Bytes) × List Bytes)
  | [] => some ([], [])
  | a :: args => match undash a with
    | none => some ([], a :: args)
    | some [] => some ([], args)
    | some (c :: s) => match k (cutName (c :: s)).1 with
      | none => none
      | some kd => match (cutName (c :: s)).2 with
        | some v => (scan k args).map fun p => (((cutName (c :: s)).1, v) :: p.1, p.2)
        | none =>
          if kd = .switch then (scan k args).map fun p => (((cutName (c :: s)).1, b!"true") :: p.1, p.2)
          else match args with
            | [] => none
            | v :: args => (scan k args).map fun p => (((cutName (c :: s)).1, v) :: p.1, p.2)

theorem args_scan {k : Bytes → Option FlagKind} (hk : ∀ name kd, k name = some kd → FlagName name) {args : List Bytes}
    {gs : List (Bytes × Bytes)} {rest : List Bytes} (h : ArgsSay k args gs rest) : scan k args = some (gs, rest) := by
  induction h with
  | none => rfl
  | plain hp => rw [scan.eq_def]; simp only; rw [undash_none hp]
  | dashes => rfl
  | on hd hk' _ ih =>
    obtain ⟨c, s, rfl, hc1, hc2, hs⟩ := hk _ _ hk'
    rw [scan.eq_def]; simp only
    rw [(undash_some hc1).2 hd]; simp only
    rw [cut_plain hs]; simp only
    rw [hk']; simp only
    rw [if_pos trivial, ih]
    rfl
  | @equals a name v kd args gs rest hd hk' _ ih =>
    obtain ⟨c, s, rfl, hc1, hc2, hs⟩ := hk _ _ hk'
    rw [scan.eq_def]; simp only
    rw [(undash_some (s := s ++ b!"=" ++ v) hc1).2 hd]; simp only
    rw [cut_equals hs]; simp only
    rw [hk']; simp only
    rw [ih]
    rfl
  | next hd hk' hns _ ih =>
    obtain ⟨c, s, rfl, hc1, hc2, hs⟩ := hk _ _ hk'
    rw [scan.eq_def]; simp only
    rw [(undash_some hc1).2 hd]; simp only
    rw [cut_plain hs]; simp only
    rw [hk']; simp only
    rw [if_neg hns, ih]
    rfl

end Verif.Proofs.Cli
