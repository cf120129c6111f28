import Verif.Props.CutText

/-! C94: septets that are cut in any number of places. -/

namespace Verif.Props.CutMany
open Verif.Model Verif.Spec Verif.Proofs

/-! Helpers: runes instead of octets; `P` is the rune of a septet that is not shifted, `S` of one that is. -/

/-- The runes of septets, after an escape or not. -/
def whole (P S : UInt8 → Nat) : List UInt8 → Bool → List Nat
  | [], b => if b then [0x20] else []
  | g :: r, true => (if g = 0x1b then 0x20 else S g) :: whole P S r false
  | g :: r, false => if g = 0x1b then whole P S r true else P g :: whole P S r false

/-- The runes of septets that are cut at each `none`. -/
def pieces (P S : UInt8 → Nat) : List (Option UInt8) → Bool → List Nat
  | [], b => if b then [0x20] else []
  | none :: r, true => 0x20 :: pieces P S r false
  | none :: r, false => pieces P S r false
  | some g :: r, true => (if g = 0x1b then 0x20 else S g) :: pieces P S r false
  | some g :: r, false => if g = 0x1b then pieces P S r true else P g :: pieces P S r false

/-- The septets. -/
def joined (l : List (Option UInt8)) : List UInt8 := l.filterMap id

/-- As `SameAfterEscape`. -/
def same (P S : UInt8 → Nat) (b : List UInt8) : Prop :=
  match b.dropWhile (· == 0x1b) with
  | [] => (b.takeWhile (· == 0x1b)).length % 2 = 0
  | g :: _ => (b.takeWhile (· == 0x1b)).length % 2 = 1 ∧ S g = P g

/-- No cut matters. -/
def fine (P S : UInt8 → Nat) : List (Option UInt8) → Bool → Prop
  | [], _ => True
  | none :: l, b => (b = true → same P S (joined l)) ∧ fine P S l false
  | some g :: l, b => fine P S l (if b then false else g == 0x1b)

theorem joined_none (l : List (Option UInt8)) : joined (none :: l) = joined l := rfl
theorem joined_some (g : UInt8) (l : List (Option UInt8)) : joined (some g :: l) = g :: joined l := rfl

variable {P S : UInt8 → Nat}

theorem same_nil : same P S [] := by unfold same; simp
theorem same_esc : ¬ same P S [0x1b] := by unfold same; simp
theorem same_flip (r : List UInt8) : same P S (0x1b :: 0x1b :: r) ↔ same P S r := by
  unfold same
  have e1 : (0x1b :: 0x1b :: r : Bytes).dropWhile (· == 0x1b) = r.dropWhile (· == 0x1b) := by simp
  have e2 : ((0x1b :: 0x1b :: r : Bytes).takeWhile (· == 0x1b)).length % 2 = (r.takeWhile (· == 0x1b)).length % 2 := by
    simp; omega
  rw [e1, e2]
theorem same_other {g : UInt8} (hg : g ≠ 0x1b) (r : List UInt8) : ¬ same P S (g :: r) := by
  unfold same; simp [hg]
theorem same_esc_other {g : UInt8} (hg : g ≠ 0x1b) (r : List UInt8) : same P S (0x1b :: g :: r) ↔ S g = P g := by
  unfold same; simp [hg]
theorem same_not (r : List UInt8) : ¬ (same P S r ∧ same P S (0x1b :: r)) := by
  unfold same
  have e1 : (0x1b :: r : Bytes).dropWhile (· == 0x1b) = r.dropWhile (· == 0x1b) := by simp
  have e2 : ((0x1b :: r : Bytes).takeWhile (· == 0x1b)).length = (r.takeWhile (· == 0x1b)).length + 1 := by simp
  rw [e1, e2]
  cases r.dropWhile (· == 0x1b) with
  | nil => dsimp only; omega
  | cons g l => dsimp only; omega

/-- Cutting gives no fewer runes. -/
theorem pieces_length (l : List (Option UInt8)) :
    (whole P S (joined l) false).length ≤ (pieces P S l false).length ∧
    (whole P S (joined l) true).length ≤ (pieces P S l true).length ∧
    (whole P S (joined l) true).length ≤ (pieces P S l false).length + 1 ∧
    (whole P S (joined l) false).length ≤ (pieces P S l true).length := by
  induction l with
  | nil => simp [joined, whole, pieces]
  | cons x l ih =>
    obtain ⟨h1, h2, h3, h4⟩ := ih
    cases x with
    | none => rw [joined_none]; simp only [pieces, List.length_cons]; omega
    | some g =>
      rw [joined_some]
      simp only [whole, pieces]
      split <;> simp only [List.length_cons] <;> omega

/-- The cuts do not matter if and only if none of them does. -/
theorem pieces_iff (l : List (Option UInt8)) :
    (pieces P S l false = whole P S (joined l) false ↔ fine P S l false) ∧
    (pieces P S l true = whole P S (joined l) true ↔ fine P S l true) ∧
    (0x20 :: pieces P S l false = whole P S (joined l) true ↔ same P S (joined l) ∧ fine P S l false) ∧
    (pieces P S l true = whole P S (joined l) false ↔ same P S (0x1b :: joined l) ∧ fine P S l true) := by
  induction l with
  | nil =>
    refine ⟨by simp [joined, whole, pieces, fine], by simp [joined, whole, pieces, fine], ?_, ?_⟩
    · have : same P S (joined []) := same_nil
      simp [joined, whole, pieces, fine, same_nil]
    · simp [joined, whole, pieces, fine, same_esc]
  | cons x l ih =>
    obtain ⟨h1, h2, h3, h4⟩ := ih
    cases x with
    | none =>
      rw [joined_none]
      refine ⟨?_, ?_, ?_, ?_⟩
      · simp only [pieces, fine]; rw [h1]; simp
      · simp only [pieces, fine]; rw [h3]; simp
      · simp only [pieces, fine]; rw [h3]; simp
      · simp only [pieces, fine]
        constructor
        · intro h
          have := congrArg List.length h
          have := (pieces_length (P := P) (S := S) l).1
          simp at *; omega
        · rintro ⟨a, b, _⟩
          exact absurd ⟨b trivial, a⟩ (same_not _)
    | some g =>
      rw [joined_some]
      by_cases hg : g = 0x1b
      · subst hg
        refine ⟨?_, ?_, ?_, ?_⟩
        · simp only [pieces, whole, fine, if_true]
          simpa using h2
        · simp only [pieces, whole, fine, if_true, List.cons.injEq, true_and]
          exact h1
        · simp only [pieces, whole, fine, if_true, List.cons.injEq, true_and]
          simpa using h4
        · simp only [pieces, whole, fine, if_true]
          rw [same_flip, h3]
      · have hb : (g == 0x1b) = false := by simpa using hg
        refine ⟨?_, ?_, ?_, ?_⟩
        · simp only [pieces, whole, fine, if_neg hg, List.cons.injEq, true_and, hb]
          simpa using h1
        · simp only [pieces, whole, fine, if_neg hg, List.cons.injEq, true_and]
          exact h1
        · simp only [pieces, whole, fine, if_neg hg]
          constructor
          · intro h
            have := congrArg List.length h
            have := (pieces_length (P := P) (S := S) l).1
            simp at *; omega
          · rintro ⟨a, _⟩
            exact absurd a (same_other hg _)
        · simp only [pieces, whole, fine, if_neg hg, List.cons.injEq]
          rw [same_esc_other hg, h1]
          simp

/-- Septets with a cut after each part. -/
def marked (us : List (List UInt8)) : List (Option UInt8) := us.flatMap fun u => u.map some ++ [none]

theorem joined_marked (us : List (List UInt8)) : joined (marked us) = us.flatten := by
  induction us with
  | nil => rfl
  | cons u us ih =>
    have : marked (u :: us) = u.map some ++ none :: marked us := by simp [marked]
    rw [this]
    unfold joined at *
    rw [List.filterMap_append, List.filterMap_map, List.filterMap_cons]
    simp only [id_eq]
    rw [ih]
    simp

theorem pieces_part (u : List UInt8) (l : List (Option UInt8)) : ∀ b,
    pieces P S (u.map some ++ none :: l) b = whole P S u b ++ pieces P S l false := by
  induction u with
  | nil => intro b; cases b <;> simp [pieces, whole]
  | cons g u ih =>
    intro b
    cases b
    · simp only [List.map_cons, List.cons_append, pieces, whole]
      split
      · exact ih true
      · rw [ih false]; rfl
    · simp only [List.map_cons, List.cons_append, pieces, whole, ih false]

theorem pieces_marked (us : List (List UInt8)) : pieces P S (marked us) false = us.flatMap (fun u => whole P S u false) := by
  induction us with
  | nil => rfl
  | cons u us ih =>
    have : marked (u :: us) = u.map some ++ none :: marked us := by simp [marked]
    rw [this, pieces_part, ih]
    rfl

theorem fine_part (u : List UInt8) (l : List (Option UInt8)) : ∀ b,
    fine P S (u.map some ++ none :: l) b ↔ (escAfter u b = true → same P S (joined l)) ∧ fine P S l false := by
  induction u with
  | nil => intro b; exact Iff.rfl
  | cons g u ih =>
    intro b
    show fine P S (u.map some ++ none :: l) (if b then false else g == 0x1b) ↔ _
    rw [ih]
    rfl

theorem fine_marked (us : List (List UInt8)) : fine P S (marked us) false ↔
    ∀ a u b, us = a ++ u :: b → EscapePending u → same P S b.flatten := by
  induction us with
  | nil =>
    refine ⟨?_, fun _ => trivial⟩
    intro _ a u b h
    simp at h
  | cons u us ih =>
    have : marked (u :: us) = u.map some ++ none :: marked us := by simp [marked]
    rw [this, fine_part, ih, joined_marked]
    have hp : escAfter u false = true ↔ EscapePending u := by
      rw [escAfter_run]
      exact decide_eq_true_iff
    rw [hp]
    constructor
    · rintro ⟨h1, h2⟩ a v b h
      cases a with
      | nil => simp only [List.nil_append, List.cons.injEq] at h; obtain ⟨rfl, rfl⟩ := h; exact h1
      | cons x a => simp only [List.cons_append, List.cons.injEq] at h; exact h2 a v b h.2
    · intro h
      exact ⟨h [] u us rfl, fun a v b e => h (u :: a) v b (by rw [e]; rfl)⟩

/-! Octets. -/

/-- The rune of a septet that is not shifted. -/
def plainRune (set : List (UInt8 × Nat)) (g : UInt8) : Nat := match set.lookup g with
  | some m => sanitize m
  | none => 0x20

/-- The rune of a septet after an escape. -/
def shiftedRune (set ext : List (UInt8 × Nat)) (g : UInt8) : Nat := match ext.lookup g with
  | some m => sanitize m
  | none => plainRune set g

theorem plainRune_scalar (set : List (UInt8 × Nat)) (g : UInt8) : Unicode.isScalar (plainRune set g) = true := by
  unfold plainRune
  split
  · exact sanitize_scalar _
  · decide
theorem shiftedRune_scalar (set ext : List (UInt8 × Nat)) (g : UInt8) : Unicode.isScalar (shiftedRune set ext g) = true := by
  unfold shiftedRune
  split
  · exact sanitize_scalar _
  · exact plainRune_scalar set g

theorem plain_rune (set : List (UInt8 × Nat)) (g : UInt8) : plainText set g = Unicode.encodeRune (plainRune set g) := by
  unfold plainText plainRune
  cases set.lookup g with
  | some m => exact encodeRune_sanitize m
  | none => rfl
theorem shifted_rune (set ext : List (UInt8 × Nat)) (g : UInt8) : shiftedText set ext g = Unicode.encodeRune (shiftedRune set ext g) := by
  unfold shiftedText shiftedRune
  cases ext.lookup g with
  | some m => exact encodeRune_sanitize m
  | none => exact plain_rune set g

theorem encodeRune_inj {a b : Nat} (ha : Unicode.isScalar a = true) (hb : Unicode.isScalar b = true)
    (h : Unicode.encodeRune a = Unicode.encodeRune b) : a = b := by
  have := encodeRunes_inj [a] [b] (by simpa using ha) (by simpa using hb) (by simpa [Unicode.encodeRunes] using h)
  simpa using this

theorem whole_text (set ext : List (UInt8 × Nat)) (u : List UInt8) : ∀ b,
    septetText set ext u b = Unicode.encodeRunes (whole (plainRune set) (shiftedRune set ext) u b) := by
  induction u with
  | nil => intro b; cases b <;> rfl
  | cons g u ih =>
    intro b
    cases b
    · simp only [septetText, whole]
      split
      · exact ih true
      · rw [ih false, plain_rune]; rfl
    · simp only [septetText, whole]
      rw [ih false]
      split
      · rfl
      · rw [shifted_rune]; rfl

theorem whole_scalar (set ext : List (UInt8 × Nat)) (u : List UInt8) : ∀ b,
    ∀ r ∈ whole (plainRune set) (shiftedRune set ext) u b, Unicode.isScalar r = true := by
  induction u with
  | nil => intro b; cases b <;> simp [whole]; decide
  | cons g u ih =>
    intro b
    cases b
    · simp only [whole]
      split
      · exact ih true
      · intro r hr
        rcases List.mem_cons.1 hr with rfl | hr
        · exact plainRune_scalar set g
        · exact ih false r hr
    · simp only [whole]
      intro r hr
      rcases List.mem_cons.1 hr with rfl | hr
      · split
        · decide
        · exact shiftedRune_scalar set ext g
      · exact ih false r hr

theorem same_iff (set ext : List (UInt8 × Nat)) (b : List UInt8) :
    same (plainRune set) (shiftedRune set ext) b ↔ SameAfterEscape set ext b := by
  unfold same SameAfterEscape
  cases b.dropWhile (· == 0x1b) with
  | nil => exact Iff.rfl
  | cons g l =>
    dsimp only
    have : shiftedText set ext g = plainText set g ↔ shiftedRune set ext g = plainRune set g := by
      rw [shifted_rune, plain_rune]
      exact ⟨encodeRune_inj (shiftedRune_scalar set ext g) (plainRune_scalar set g), fun h => by rw [h]⟩
    rw [this]

theorem parts_text (set ext : List (UInt8 × Nat)) (us : List (List UInt8)) :
    us.flatMap (fun u => septetText set ext u false) = septetText set ext us.flatten false ↔
      ∀ a u b, us = a ++ u :: b → EscapePending u → SameAfterEscape set ext b.flatten := by
  have e1 : us.flatMap (fun u => septetText set ext u false) =
      Unicode.encodeRunes (us.flatMap (fun u => whole (plainRune set) (shiftedRune set ext) u false)) := by
    induction us with
    | nil => rfl
    | cons u us ih => rw [List.flatMap_cons, List.flatMap_cons, encodeRunes_append, ih, whole_text]
  rw [e1, whole_text]
  have hinj : ∀ {x y : List Nat}, (∀ r ∈ x, Unicode.isScalar r = true) → (∀ r ∈ y, Unicode.isScalar r = true) →
      (Unicode.encodeRunes x = Unicode.encodeRunes y ↔ x = y) := fun hx hy => ⟨encodeRunes_inj _ _ hx hy, fun h => by rw [h]⟩
  rw [hinj (by
    intro r hr
    obtain ⟨u, _, h⟩ := List.mem_flatMap.1 hr
    exact whole_scalar set ext u false r h) (whole_scalar set ext _ false)]
  rw [← pieces_marked, ← joined_marked, (pieces_iff (marked us)).1, fine_marked]
  simp only [same_iff]

end Verif.Props.CutMany

namespace Verif.Props
open Verif.Model Verif.Spec Verif.Proofs Verif.Model.Gsm7

/-- **C94**, any number of segments: they decode to the text of one TPDU `t` that has all the septets exactly if after
each segment that ends in a pending escape, what follows in all the segments after it is the same without the
escape. -/
theorem C94_segments_exact (segs : List TPDU) (t : TPDU) (options : List CharsetOpt)
    (ha : ∀ s ∈ segs, s.Alphabet.1 = .a7Bit) (hat : t.Alphabet.1 = .a7Bit)
    (hl : ∀ s ∈ segs, SameLanguages s t) (hud : t.UD = segs.flatMap TPDU.UD) :
    Model.Sms.Decode segs options = Model.Sms.Decode [t] options ↔
      ∀ (before : List TPDU) (s : TPDU) (after : List TPDU), segs = before ++ s :: after → EscapePending s.UD →
        SameAfterEscape (decoderOf t.UDH options).set (decoderOf t.UDH options).ext (after.flatMap TPDU.UD) := by
  rw [decode_septets segs options t.UDH (fun s hs => ⟨ha s hs, (hl s hs).decoder options⟩), decode_septets [t] options t.UDH (by simp [hat])]
  rw [Except.ok.injEq, List.flatMap_cons, List.flatMap_nil, List.append_nil, hud]
  have h := CutMany.parts_text (decoderOf t.UDH options).set (decoderOf t.UDH options).ext (segs.map TPDU.UD)
  rw [List.flatMap_map, ← List.flatMap_def] at h
  rw [h]
  constructor
  · intro h before s after e hp
    have := h (before.map TPDU.UD) s.UD (after.map TPDU.UD) (by rw [e]; simp) hp
    rwa [← List.flatMap_def] at this
  · intro h a u b e hp
    obtain ⟨before, rest, rfl, rfl, e2⟩ := List.map_eq_append_iff.1 e
    obtain ⟨s, after, rfl, rfl, rfl⟩ := List.map_eq_cons_iff.1 e2
    rw [← List.flatMap_def]
    exact h before s after rfl hp

/-- Two cuts after pending escapes, of which one matters. -/
example : (∃ before s after, [({ UD := [0x1b] } : TPDU), { UD := [0x1b] }, { UD := [0x41] }] = before ++ s :: after ∧ EscapePending s.UD ∧
      ¬ SameAfterEscape Charset.DefaultDecoder Charset.DefaultExtDecoder (after.flatMap TPDU.UD)) ∧
    Model.Sms.Decode [{ UD := [0x1b] }, { UD := [0x1b] }, { UD := [0x41] }] [] = .ok [0x20, 0x20, 0x41] ∧
    Model.Sms.Decode [{ UD := [0x1b, 0x1b, 0x41] }] [] = .ok [0x20, 0x41] :=
  ⟨⟨[{ UD := [0x1b] }], { UD := [0x1b] }, [{ UD := [0x41] }], rfl, by decide, fun h => by
    have h' : 0 % 2 = 1 := h.1
    omega⟩, by decide +kernel, by decide +kernel⟩

/-- Two cuts after pending escapes, none of which matters. -/
example : Model.Sms.Decode [{ UD := [0x1b] }, { UD := [0x1b, 0x41, 0x1b] }, { UD := [0x1b, 0x42] }] [] =
    Model.Sms.Decode [{ UD := [0x1b, 0x1b, 0x41, 0x1b, 0x1b, 0x42] }] [] := by decide +kernel

end Verif.Props
