import Verif.Model.Charsets
import Verif.Spec.Charsets
import Verif.Proofs.Print
import Verif.Proofs.Unicode

/-! Helper lemmas: what cmd/charsets prints, in characters. -/

namespace Verif.Proofs.Page
open Verif.Proofs Verif.Model Verif.Model.Charsets Verif.Model.Unicode Verif.Spec

theorem hexDig_lt : ∀ n < 16, (hexDig n).toNat < 128 := by decide +kernel
theorem hexDig_digit : ∀ n < 16, (0x30 ≤ (hexDig n).toNat ∧ (hexDig n).toNat ≤ 0x39 ∧ n = (hexDig n).toNat - 0x30) ∨
    (0x61 ≤ (hexDig n).toNat ∧ (hexDig n).toNat ≤ 0x66 ∧ n = (hexDig n).toNat - 0x57) := by decide +kernel

theorem hexDig_hex (n : Nat) (h : n < 16) : LowerHex (hexDig n).toNat n := hexDig_digit n h

/-- The value of hex digits. -/
def hexValue (ds : Bytes) : Nat := ds.foldl (fun a d => 16 * a + (if d.toNat < 0x40 then d.toNat - 48 else d.toNat - 87)) 0

theorem hexValue_dig : ∀ n < 16, (if (hexDig n).toNat < 0x40 then (hexDig n).toNat - 48 else (hexDig n).toNat - 87) = n := by
  decide +kernel

theorem hexAux_value (fuel : Nat) : ∀ n, n ≤ fuel → hexValue (hexAux fuel n) = n ∧ ∀ c ∈ hexAux fuel n, ∃ k < 16, c = hexDig k := by
  induction fuel with
  | zero =>
    intro n hn
    have : n = 0 := by omega
    subst this
    exact ⟨by decide, fun c hc => ⟨0, by omega, by simpa [hexAux] using hc⟩⟩
  | succ fuel ih =>
    intro n hn
    unfold hexAux
    by_cases h : n < 16
    · rw [if_pos h]
      refine ⟨?_, fun c hc => ⟨n, h, by simpa using hc⟩⟩
      show 16 * 0 + _ = n
      rw [hexValue_dig n h]; omega
    · rw [if_neg h]
      obtain ⟨h1, h2⟩ := ih (n / 16) (by omega)
      refine ⟨?_, ?_⟩
      · unfold hexValue at h1 ⊢
        rw [List.foldl_append, h1]
        show 16 * (n / 16) + _ = n
        rw [hexValue_dig _ (Nat.mod_lt _ (by omega))]; omega
      · intro c hc
        rcases List.mem_append.1 hc with hc | hc
        · exact h2 c hc
        · exact ⟨n % 16, Nat.mod_lt _ (by omega), by simpa using hc⟩

theorem hex04_value (n : Nat) : hexValue (hex04 n) = n := by
  unfold hex04 hexValue
  rw [List.foldl_append]
  have : ∀ k, (List.replicate k (0x30 : UInt8)).foldl
      (fun a d => 16 * a + (if d.toNat < 0x40 then d.toNat - 48 else d.toNat - 87)) 0 = 0 := by
    intro k
    induction k with
    | zero => rfl
    | succ k ih => rw [List.replicate_succ, List.foldl_cons]; exact ih
  rw [this]
  exact (hexAux_value n n (Nat.le_refl _)).1

theorem hex04_digits (n : Nat) : ∀ c ∈ hex04 n, ∃ k < 16, c = hexDig k := by
  intro c hc
  unfold hex04 at hc
  rcases List.mem_append.1 hc with hc | hc
  · exact ⟨0, by omega, (List.mem_replicate.1 hc).2⟩
  · exact (hexAux_value n n (Nat.le_refl _)).2 c hc

theorem hex04_ne_nil (n : Nat) : hex04 n ≠ [] := by
  unfold hex04 hexNat
  intro h
  have h := (List.append_eq_nil_iff.1 h).2
  cases n with
  | zero => cases h
  | succ n =>
    unfold hexAux at h
    split at h
    · cases h
    · exact absurd (List.append_eq_nil_iff.1 h).2 (by simp)

/-- A sequence of hex digits ends at the first space. -/
theorem split_hex : ∀ (a b r s : Bytes), (0x20 : UInt8) ∉ a → (0x20 : UInt8) ∉ b → a ++ 0x20 :: r = b ++ 0x20 :: s → a = b ∧ r = s
  | [], [], r, s, _, _, h => by simpa using h
  | [], y :: b, r, s, _, hb, h => by
    simp only [List.nil_append, List.cons_append, List.cons.injEq] at h
    exact absurd (by simp [h.1]) hb
  | x :: a, [], r, s, ha, _, h => by
    simp only [List.nil_append, List.cons_append, List.cons.injEq] at h
    exact absurd (by simp [h.1]) ha
  | x :: a, y :: b, r, s, ha, hb, h => by
    simp only [List.cons_append, List.cons.injEq] at h
    obtain ⟨h1, h2⟩ := split_hex a b r s (fun h => ha (by simp [h])) (fun h => hb (by simp [h])) h.2
    exact ⟨by rw [h.1, h1], h2⟩

theorem hex04_no_space (n : Nat) : (0x20 : UInt8) ∉ hex04 n := by
  intro h
  obtain ⟨k, hk, e⟩ := hex04_digits n _ h
  exact (show ∀ k < 16, hexDig k ≠ 0x20 by decide +kernel) k hk e.symm

/-- One character after another can be told apart. -/
theorem split_rune {a b : Nat} (ha : isScalar a = true) (hb : isScalar b = true) {r s : Bytes}
    (h : encodeRune a ++ r = encodeRune b ++ s) : a = b ∧ r = s := by
  obtain ⟨x, t, e1, h1⟩ := decodeRune_encodeRune a ha
  obtain ⟨y, u, e2, h2⟩ := decodeRune_encodeRune b hb
  rw [e1, e2, List.cons_append, List.cons_append, List.cons.injEq] at h
  have h1 := h1 r
  have h2 := h2 s
  rw [h.1, h.2, h2, Prod.mk.injEq] at h1
  refine ⟨h1.1.symm, ?_⟩
  exact (List.append_inj h.2 (by omega)).2

/-- The entries that have names. -/
def names : List (Nat × Bytes) := [(0x0a, b!" LF  "), (0x0d, b!" CR  "), (0x0c, b!" FF  "), (0x20, b!" SP  "), (0x1b, b!"ESC  ")]

/-- The ways an entry is printed. -/
inductive Way : Option Nat → Bytes → Prop
  | name (p : Nat × Bytes) (h : p ∈ names) : Way (some p.1) p.2
  | char (o : Option Nat) (v : Nat) (h : v < 0x400 ∨ v = 0x20ac) (hs : o = some v ∧ v ≠ 0x20 ∨ o = none ∧ v = 0x20)
      (hn : v ≠ 0x0a ∧ v ≠ 0x0d ∧ v ≠ 0x0c ∧ v ≠ 0x1b) :
      Way o (0x20 :: 0x20 :: (encodeRune v ++ [0x20, 0x20]))
  | hex (v : Nat) (h : 0x400 ≤ v) (hs : v ≠ 0x20ac) : Way (some v) (hex04 v ++ [0x20])

theorem cell_way (m : Charset.Decoder) (k : UInt8) : Way (m.lookup k) (cell m k) := by
  unfold cell
  rcases m.lookup k with _ | v
  · exact Way.char none 0x20 (by omega) (by simp) (by simp)
  · by_cases h : v ∈ [0x0a, 0x0d, 0x0c, 0x20, 0x1b, 0x20ac]
    · simp only [List.mem_cons, List.not_mem_nil, or_false] at h
      rcases h with rfl | rfl | rfl | rfl | rfl | rfl
      · exact Way.name (0x0a, b!" LF  ") (by decide)
      · exact Way.name (0x0d, b!" CR  ") (by decide)
      · exact Way.name (0x0c, b!" FF  ") (by decide)
      · exact Way.name (0x20, b!" SP  ") (by decide)
      · exact Way.name (0x1b, b!"ESC  ") (by decide)
      · exact Way.char _ 0x20ac (Or.inr rfl) (by simp) (by simp)
    · simp only [List.mem_cons, List.not_mem_nil, or_false, not_or] at h
      obtain ⟨h1, h2, h3, h4, h5, h6⟩ := h
      have hn : specials.lookup v = none := by
        simp only [specials, List.lookup, beq_eq_false_iff_ne.2 h1, beq_eq_false_iff_ne.2 h2, beq_eq_false_iff_ne.2 h3,
          beq_eq_false_iff_ne.2 h4, beq_eq_false_iff_ne.2 h5, beq_eq_false_iff_ne.2 h6]
      simp only [hn]
      by_cases h : v ≥ 0x400
      · rw [if_pos h]
        exact Way.hex v h h6
      · rw [if_neg h]
        exact Way.char _ v (Or.inl (by omega)) (Or.inl ⟨rfl, h4⟩) ⟨h1, h2, h3, h5⟩

theorem low_scalar {v : Nat} (h : v < 0x400 ∨ v = 0x20ac) : isScalar v = true := (isScalar_iff v).2 (by omega)

/-- What starts with a hex digit does not start with a space or a capital letter. -/
theorem hex_head {v : Nat} {r s : Bytes} {x : UInt8} (hx : ∀ k < 16, hexDig k ≠ x) : hex04 v ++ r ≠ x :: s := by
  intro h
  rcases e : hex04 v with _ | ⟨y, l⟩
  · exact hex04_ne_nil v e
  · rw [e, List.cons_append, List.cons.injEq] at h
    obtain ⟨k, hk, e'⟩ := hex04_digits v y (by simp [e])
    exact hx k hk (by rw [← e', h.1])

theorem not_space : ∀ k < 16, hexDig k ≠ 0x20 := by decide +kernel
theorem not_capital : ∀ k < 16, hexDig k ≠ 0x45 := by decide +kernel

theorem names_head : ∀ p ∈ names, ∃ x y l, p.2 = x :: y :: l ∧ l.length = 3 ∧ (x = 0x20 ∧ y ≠ 0x20 ∨ x = 0x45) := by
  intro p hp
  simp only [names, List.mem_cons, List.not_mem_nil, or_false] at hp
  rcases hp with rfl | rfl | rfl | rfl | rfl <;> exact ⟨_, _, _, rfl, rfl, by decide⟩

theorem names_inj : ∀ p ∈ names, ∀ q ∈ names, p.2 = q.2 → p = q := by decide

theorem name_char {p : Nat × Bytes} (hp : p ∈ names) {l x y : Bytes} (h : p.2 ++ x = 0x20 :: 0x20 :: l ++ y) : False := by
  obtain ⟨a, b, t, e, _, hh⟩ := names_head p hp
  rw [e] at h
  simp only [List.cons_append, List.cons.injEq] at h
  rcases hh with ⟨_, hb⟩ | ha
  · exact hb h.2.1
  · rw [h.1] at ha; exact absurd ha (by decide)

theorem name_hex {p : Nat × Bytes} (hp : p ∈ names) {v : Nat} {x y : Bytes} (h : p.2 ++ x = hex04 v ++ [0x20] ++ y) : False := by
  obtain ⟨a, b, t, e, _, hh⟩ := names_head p hp
  rw [e, List.append_assoc (hex04 v)] at h
  simp only [List.cons_append] at h
  rcases hh with ⟨ha, _⟩ | ha
  · exact hex_head (x := a) (by rw [ha]; exact not_space) h.symm
  · exact hex_head (x := a) (by rw [ha]; exact not_capital) h.symm

theorem char_hex {v : Nat} {l x y : Bytes} (h : 0x20 :: 0x20 :: l ++ x = hex04 v ++ [0x20] ++ y) : False := by
  rw [List.append_assoc (hex04 v)] at h
  exact hex_head not_space h.symm

theorem name_name {p q : Nat × Bytes} (hp : p ∈ names) (hq : q ∈ names) {x y : Bytes} (h : p.2 ++ x = q.2 ++ y) : p = q ∧ x = y := by
  obtain ⟨_, _, _, e, hl, _⟩ := names_head p hp
  obtain ⟨_, _, _, e', hl', _⟩ := names_head q hq
  obtain ⟨h1, h2⟩ := List.append_inj h (by rw [e, e']; simp [hl, hl'])
  exact ⟨names_inj p hp q hq h1, h2⟩

theorem hex_hex {v w : Nat} {x y : Bytes} (h : hex04 v ++ [0x20] ++ x = hex04 w ++ [0x20] ++ y) : v = w ∧ x = y := by
  rw [List.append_assoc, List.append_assoc] at h
  obtain ⟨h1, h2⟩ := split_hex _ _ x y (hex04_no_space v) (hex04_no_space w) h
  have := congrArg hexValue h1
  rw [hex04_value, hex04_value] at this
  exact ⟨this, h2⟩

theorem char_char {v w : Nat} (hv : isScalar v = true) (hw : isScalar w = true) {x y : Bytes}
    (h : 0x20 :: 0x20 :: (encodeRune v ++ [0x20, 0x20]) ++ x = 0x20 :: 0x20 :: (encodeRune w ++ [0x20, 0x20]) ++ y) :
    v = w ∧ x = y := by
  simp only [List.cons_append, List.cons.injEq, true_and, List.append_assoc] at h
  obtain ⟨h1, h2⟩ := split_rune hv hw h
  exact ⟨h1, by simpa using h2⟩

/-- No entry is printed as the beginning of another. -/
theorem way_inj {a b : Option Nat} {c d x y : Bytes} (ha : Way a c) (hb : Way b d) (h : c ++ x = d ++ y) : a = b ∧ x = y := by
  rcases ha with ⟨p, hp⟩ | ⟨_, v, hv, hs, _⟩ | ⟨v, hv, hs⟩ <;> rcases hb with ⟨q, hq⟩ | ⟨_, w, hw, hs', _⟩ | ⟨w, hw, hs'⟩
  · obtain ⟨e, h⟩ := name_name hp hq h
    exact ⟨by rw [e], h⟩
  · exact (name_char hp h).elim
  · exact (name_hex hp h).elim
  · exact (name_char hq h.symm).elim
  · obtain ⟨e, hxy⟩ := char_char (low_scalar hv) (low_scalar hw) h
    subst e
    refine ⟨?_, hxy⟩
    rcases hs with ⟨e1, n1⟩ | ⟨e1, n1⟩ <;> rcases hs' with ⟨e2, n2⟩ | ⟨e2, n2⟩
    · rw [e1, e2]
    · exact absurd n2 n1
    · exact absurd n1 n2
    · rw [e1, e2]
  · exact (char_hex h).elim
  · exact (name_hex hq h.symm).elim
  · exact (char_hex h.symm).elim
  · obtain ⟨e, h⟩ := hex_hex h
    exact ⟨by rw [e], h⟩

theorem cells_inj (m n : Charset.Decoder) (r : Nat) : ∀ (cs : List Nat) (x y : Bytes),
    cs.flatMap (fun c => cell m (byteOf ((c * 0x10 + r : Nat) : Int))) ++ x =
      cs.flatMap (fun c => cell n (byteOf ((c * 0x10 + r : Nat) : Int))) ++ y →
    (∀ c ∈ cs, m.lookup (byteOf ((c * 0x10 + r : Nat) : Int)) = n.lookup (byteOf ((c * 0x10 + r : Nat) : Int))) ∧ x = y
  | [], x, y, h => ⟨fun _ h => (by cases h), h⟩
  | c :: cs, x, y, h => by
    simp only [List.flatMap_cons, List.append_assoc] at h
    obtain ⟨h1, h2⟩ := way_inj (cell_way m _) (cell_way n _) h
    obtain ⟨h3, h4⟩ := cells_inj m n r cs x y h2
    exact ⟨fun d hd => (List.mem_cons.1 hd).elim (fun e => e ▸ h1) (h3 d), h4⟩

theorem rows_inj (m n : Charset.Decoder) : ∀ (rs : List Nat), rs.flatMap (row m) = rs.flatMap (row n) →
    ∀ r ∈ rs, ∀ c < 8, m.lookup (byteOf ((c * 0x10 + r : Nat) : Int)) = n.lookup (byteOf ((c * 0x10 + r : Nat) : Int))
  | [], _, _, h => by cases h
  | r :: rs, h, r', hr => by
    simp only [List.flatMap_cons, row, List.append_assoc] at h
    have h := List.append_cancel_left (List.append_cancel_left (List.append_cancel_left h))
    obtain ⟨h1, h2⟩ := cells_inj m n r _ _ _ h
    have h3 := rows_inj m n rs (List.append_cancel_left h2)
    rcases List.mem_cons.1 hr with rfl | hr
    · exact fun c hc => h1 c (List.mem_range.2 hc)
    · exact h3 r' hr

/-- The characters of an entry. -/
def Chars (v : Option Nat) (b : Bytes) : Prop := ∃ cs : List Nat, b = encodeRunes cs ∧ (∀ c ∈ cs, isScalar c = true) ∧
  0x0a ∉ cs ∧ cs.length = 5 ∧ Entry v cs

theorem ascii_runes : ∀ l : Bytes, (∀ c ∈ l, c.toNat < 128) → l = encodeRunes (l.map UInt8.toNat)
  | [], _ => rfl
  | c :: l, h => by
    have hc : c.toNat < 128 := h c (by simp)
    have : encodeRune c.toNat = [c] := by
      unfold encodeRune
      rw [if_pos ((isScalar_iff _).2 (by omega)), if_pos (by omega)]
      simp
    rw [List.map_cons, encodeRunes, List.flatMap_cons, this, ← encodeRunes, ← ascii_runes l (fun c hc => h c (by simp [hc]))]
    rfl

theorem hex04_four (v : Nat) (h : 0x400 ≤ v) (h' : v < 0x10000) :
    hex04 v = [hexDig (v / 4096), hexDig (v / 256 % 16), hexDig (v / 16 % 16), hexDig (v % 16)] := by
  obtain ⟨n, rfl⟩ : ∃ n, v = n + 4 := ⟨v - 4, by omega⟩
  have key : hexNat (n + 4) = (if n + 4 < 4096 then [hexDig ((n + 4) / 256)] else [hexDig ((n + 4) / 4096), hexDig ((n + 4) / 256 % 16)]) ++
      [hexDig ((n + 4) / 16 % 16), hexDig ((n + 4) % 16)] := by
    unfold hexNat
    have e : (n + 4) / 16 / 16 = (n + 4) / 256 := by omega
    have e' : (n + 4) / 256 / 16 = (n + 4) / 4096 := by omega
    rw [hexAux, if_neg (by omega), hexAux, if_neg (by omega), hexAux, e]
    by_cases h4 : n + 4 < 4096
    · rw [if_pos (by omega), if_pos h4]
      simp
    · rw [if_neg (by omega), if_neg h4, hexAux, e']
      rw [if_pos (by omega)]
      simp
  unfold hex04
  rw [key]
  by_cases h4 : n + 4 < 4096
  · rw [if_pos h4]
    have e1 : (n + 4) / 4096 = 0 := by omega
    have e2 : (n + 4) / 256 % 16 = (n + 4) / 256 := by omega
    rw [e1, e2]
    rfl
  · rw [if_neg h4]
    simp

theorem way_chars {v : Option Nat} {b : Bytes} (h : Way v b) (hv : ∀ u, v = some u → u < 0x10000) : Chars v b := by
  rcases h with ⟨p, hp⟩ | ⟨_, u, hu, hs, hn⟩ | ⟨u, hu, hs⟩
  · simp only [names, List.mem_cons, List.not_mem_nil, or_false] at hp
    rcases hp with rfl | rfl | rfl | rfl | rfl <;>
      exact ⟨_, ascii_runes _ (by decide), by decide, by decide, by decide, by simp [Entry]⟩
  · refine ⟨[0x20, 0x20, u, 0x20, 0x20], ?_, ?_, ?_, rfl, ?_⟩
    · simp only [encodeRunes, List.flatMap_cons, List.flatMap_nil, show encodeRune 0x20 = [0x20] by decide]
      simp
    · intro c hc
      simp only [List.mem_cons, List.not_mem_nil, or_false] at hc
      rcases hc with rfl | rfl | rfl | rfl | rfl <;> first | decide | exact low_scalar hu
    · simp only [List.mem_cons, List.not_mem_nil, or_false]
      omega
    · rcases hs with ⟨rfl, h20⟩ | ⟨rfl, rfl⟩
      · simp only [Entry]
        rw [if_neg hn.1, if_neg hn.2.2.1, if_neg hn.2.1, if_neg hn.2.2.2, if_neg h20, if_pos hu]
        trivial
      · simp [Entry]
  · have hlt := hv u rfl
    have e := hex04_four u hu hlt
    have h3 : u / 4096 < 16 := by omega
    have h2 : u / 256 % 16 < 16 := by omega
    have h1 : u / 16 % 16 < 16 := by omega
    have h0 : u % 16 < 16 := by omega
    have hall : ∀ c ∈ hex04 u ++ [0x20], c.toNat < 128 ∧ c.toNat ≠ 0x0a := by
      intro c hc
      rcases List.mem_append.1 hc with hc | hc
      · obtain ⟨k, hk, rfl⟩ := hex04_digits u c hc
        exact (show ∀ k < 16, (hexDig k).toNat < 128 ∧ (hexDig k).toNat ≠ 0x0a by decide +kernel) k hk
      · rw [List.mem_singleton.1 hc]; decide
    refine ⟨_, ascii_runes _ (fun c hc => (hall c hc).1), ?_, ?_, by rw [e]; rfl, ?_⟩
    · intro c hc
      obtain ⟨d, hd, rfl⟩ := List.mem_map.1 hc
      exact (isScalar_iff _).2 (by have := (hall d hd).1; omega)
    · intro hc
      obtain ⟨d, hd, e⟩ := List.mem_map.1 hc
      exact (hall d hd).2 e
    · simp only [Entry]
      rw [if_neg (by omega), if_neg (by omega), if_neg (by omega), if_neg (by omega), if_neg (by omega), if_neg (by omega)]
      refine ⟨_, _, _, _, _, _, _, _, ?_, hexDig_hex _ h3, hexDig_hex _ h2, hexDig_hex _ h1, hexDig_hex _ h0, by omega⟩
      rw [e]
      rfl

/-- The characters of the cells of a row. -/
theorem cells_chars (m : Charset.Decoder) (hm : ∀ g v, m.lookup g = some v → v < 0x10000) (k : Nat → UInt8) : ∀ cs : List Nat,
    ∃ us : List (List Nat), cs.flatMap (fun c => cell m (k c)) = encodeRunes us.flatten ∧ us.length = cs.length ∧
      (∀ u ∈ us, u.length = 5 ∧ 0x0a ∉ u ∧ ∀ c ∈ u, isScalar c = true) ∧
      ∀ (i : Nat) (hi : i < us.length) (hj : i < cs.length), Entry (m.lookup (k cs[i])) us[i]
  | [] => ⟨[], rfl, rfl, fun _ h => (by cases h), fun i hi => (by simp at hi)⟩
  | c :: cs => by
    obtain ⟨us, h1, h2, h3, h4⟩ := cells_chars m hm k cs
    obtain ⟨u, g1, g2, g3, g4, g5⟩ := way_chars (cell_way m (k c)) (fun v hv => hm _ v hv)
    refine ⟨u :: us, ?_, by simp [h2], ?_, ?_⟩
    · rw [List.flatMap_cons, h1, g1, List.flatten_cons, encodeRunes_append]
    · intro w hw
      rcases List.mem_cons.1 hw with rfl | hw
      · exact ⟨g4, g3, g2⟩
      · exact h3 w hw
    · intro i hi hj
      cases i with
      | zero => exact g5
      | succ i => exact h4 i (by simpa using hi) (by simpa using hj)

/-- A cell in a sequence of cells of five characters. -/
theorem cell_at : ∀ (us : List (List Nat)) (i : Nat) (hi : i < us.length), (∀ u ∈ us, u.length = 5) →
    (us.flatten.drop (5 * i)).take 5 = us[i]
  | [], i, hi, _ => by simp at hi
  | u :: us, 0, _, h => by
    simp only [Nat.mul_zero, List.drop_zero, List.flatten_cons, List.getElem_cons_zero]
    rw [List.take_append_of_le_length (by rw [h u (by simp)]; omega), List.take_of_length_le (by rw [h u (by simp)]; omega)]
  | u :: us, i + 1, hi, h => by
    have hu := h u (by simp)
    rw [List.flatten_cons, show 5 * (i + 1) = u.length + 5 * i by omega, ← List.drop_drop, List.drop_left]
    exact cell_at us i (by simpa using hi) (fun v hv => h v (by simp [hv]))

theorem flatten_length : ∀ us : List (List Nat), (∀ u ∈ us, u.length = 5) → us.flatten.length = 5 * us.length
  | [], _ => rfl
  | u :: us, h => by
    rw [List.flatten_cons, List.length_append, flatten_length us (fun v hv => h v (by simp [hv])), h u (by simp), List.length_cons]
    omega

/-- One row without its end, in characters. -/
theorem row_chars (m : Charset.Decoder) (hm : ∀ g v, m.lookup g = some v → v < 0x10000) (r : Nat) (hr : r < 16) :
    ∃ us : List (List Nat), us.length = 8 ∧ (∀ u ∈ us, u.length = 5 ∧ 0x0a ∉ u ∧ ∀ c ∈ u, isScalar c = true) ∧
      row m r = encodeRunes ([0x30, 0x78, 0x5f, (hexDig r).toNat, 0x3a, 0x20] ++ us.flatten) ++ b!"\n" ∧
      ∀ (c : Nat) (hc : c < us.length), Entry (m.lookup (UInt8.ofNat (16 * c + r))) us[c] := by
  obtain ⟨us, h1, h2, h3, h4⟩ := cells_chars m hm (fun c => byteOf ((c * 0x10 + r : Nat) : Int)) (List.range 8)
  refine ⟨us, h2, h3, ?_, ?_⟩
  · unfold row
    rw [h1, encodeRunes_append]
    have e : hexNat r = [hexDig r] := by
      unfold hexNat
      cases r with
      | zero => rfl
      | succ r => rw [hexAux, if_pos (by omega)]
    have hd := hexDig_lt r hr
    rw [e, show encodeRunes [0x30, 0x78, 0x5f, (hexDig r).toNat, 0x3a, 0x20] = [0x30, 0x78, 0x5f, hexDig r, 0x3a, 0x20] from
      (ascii_runes [0x30, 0x78, 0x5f, hexDig r, 0x3a, 0x20] (by
        intro c hc
        simp only [List.mem_cons, List.not_mem_nil, or_false] at hc
        rcases hc with rfl | rfl | rfl | rfl | rfl | rfl <;> first | decide | exact hd)).symm]
    simp
  · intro c hc
    have := h4 c hc (by rw [← h2]; exact hc)
    simp only [List.getElem_range] at this
    rw [show UInt8.ofNat (16 * c + r) = byteOf ((c * 0x10 + r : Nat) : Int) from ?_]
    · exact this
    · apply UInt8.toNat_inj.1
      rw [toNat_byteOf]
      simp
      omega

theorem rune_line (c : Nat) (h : c ≠ 0x0a) : (0x0a : UInt8) ∉ encodeRune c := by
  rw [encodeRune_sanitize]
  have hs := (isScalar_iff _).1 (sanitize_scalar c)
  have hn : sanitize c ≠ 0x0a := by
    unfold sanitize
    split
    · exact h
    · decide
  generalize sanitize c = r at hs hn
  unfold encodeRune
  rw [if_pos ((isScalar_iff r).2 hs)]
  have key : ∀ n : Nat, n < 256 → n ≠ 0x0a → (0x0a : UInt8) ≠ UInt8.ofNat n := by
    intro n h1 h2 e
    have := congrArg UInt8.toNat e
    rw [ofNat_toNat_lt n h1] at this
    exact h2 this.symm
  intro hm
  by_cases h1 : r < 0x80
  · rw [if_pos h1] at hm
    simp only [List.mem_cons, List.not_mem_nil, or_false] at hm
    exact key _ (by omega) hn hm
  rw [if_neg h1] at hm
  by_cases h2 : r < 0x800
  · rw [if_pos h2] at hm
    simp only [List.mem_cons, List.not_mem_nil, or_false] at hm
    rcases hm with hm | hm <;> exact key _ (by omega) (by omega) hm
  rw [if_neg h2] at hm
  by_cases h3 : r < 0x10000
  · rw [if_pos h3] at hm
    simp only [List.mem_cons, List.not_mem_nil, or_false] at hm
    rcases hm with hm | hm | hm <;> exact key _ (by omega) (by omega) hm
  rw [if_neg h3] at hm
  simp only [List.mem_cons, List.not_mem_nil, or_false] at hm
  rcases hm with hm | hm | hm | hm <;> exact key _ (by omega) (by omega) hm

theorem runes_line (cs : List Nat) (h : 0x0a ∉ cs) : (0x0a : UInt8) ∉ encodeRunes cs := by
  intro hm
  obtain ⟨c, hc, hm⟩ := List.mem_flatMap.1 hm
  exact rune_line c (fun e => h (e ▸ hc)) hm

end Verif.Proofs.Page
