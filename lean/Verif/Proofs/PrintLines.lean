import Verif.Proofs.Print
import Verif.Model.Dump

/-! The lines of what is printed: hex dumps, headers, and where a group of lines begins. -/

namespace Verif.Proofs.Print
open Verif.Model Verif.Spec Verif.Proofs Verif.Proofs.Key Verif.Model.SmsDecode

/-! Lines. -/

theorem splitLF_ne (s : Bytes) : splitLF s ≠ [] := by
  cases s with
  | nil => simp [splitLF]
  | cons c s =>
    unfold splitLF
    split
    · simp
    · split <;> simp

theorem splitLF_cons (c : UInt8) (s l : Bytes) (ls : List Bytes) (h : splitLF s = l :: ls) :
    splitLF (c :: s) = if c = 0x0a then [] :: l :: ls else (c :: l) :: ls := by
  rw [splitLF, h]

theorem splitLF_some (s : Bytes) : ∃ l ls, splitLF s = l :: ls := by
  cases h : splitLF s with
  | nil => exact absurd h (splitLF_ne s)
  | cons l ls => exact ⟨l, ls, rfl⟩

theorem splitLF_append (a r : Bytes) : splitLF (a ++ 0x0a :: r) = splitLF a ++ splitLF r := by
  induction a with
  | nil => simp [splitLF]
  | cons c a ih =>
    obtain ⟨l, ls, h⟩ := splitLF_some a
    rw [h] at ih
    rw [List.cons_append, splitLF_cons c _ _ _ ih, splitLF_cons c _ _ _ h]
    split <;> rfl

theorem splitLF_line {a : Bytes} (h : OneLine a) : splitLF a = [a] := by
  induction a with
  | nil => rfl
  | cons c a ih =>
    have hc : c ≠ 0x0a := fun e => h (by rw [e]; simp)
    have ha : OneLine a := fun e => h (by simp [e])
    unfold splitLF
    rw [if_neg hc, ih ha]

theorem splitLF_inj : ∀ {a b : Bytes}, splitLF a = splitLF b → a = b := by
  have nil : ∀ (c : UInt8) (s : Bytes), splitLF (c :: s) ≠ [[]] := by
    intro c s h
    obtain ⟨l, ls, hl⟩ := splitLF_some s
    rw [splitLF_cons c _ _ _ hl] at h
    split at h <;> cases h
  intro a
  induction a with
  | nil =>
    intro b h
    cases b with
    | nil => rfl
    | cons d b => exact absurd h.symm (nil d b)
  | cons c a ih =>
    intro b h
    cases b with
    | nil => exact absurd h (nil c a)
    | cons d b =>
      obtain ⟨l, ls, hl⟩ := splitLF_some a
      obtain ⟨m, ms, hm⟩ := splitLF_some b
      rw [splitLF_cons c _ _ _ hl, splitLF_cons d _ _ _ hm] at h
      by_cases hc : c = 0x0a <;> by_cases hd : d = 0x0a
      · rw [if_pos hc, if_pos hd] at h
        cases h
        rw [hc, hd, ih (hl.trans hm.symm)]
      · rw [if_pos hc, if_neg hd] at h; cases h
      · rw [if_neg hc, if_pos hd] at h; cases h
      · rw [if_neg hc, if_neg hd] at h
        cases h
        rw [ih (hl.trans hm.symm)]

/-- The text of several lines. -/
def unlines (ls : List Bytes) : Bytes := ls.flatMap fun l => l ++ b!"\n"

theorem splitLF_unlines (ls : List Bytes) (r : Bytes) : splitLF (unlines ls ++ r) = ls.flatMap splitLF ++ splitLF r := by
  induction ls with
  | nil => rfl
  | cons l ls ih =>
    have : unlines (l :: ls) ++ r = l ++ 0x0a :: (unlines ls ++ r) := by simp [unlines]
    rw [this, splitLF_append, ih, List.flatMap_cons, List.append_assoc]

theorem unlines_inj {a b : List Bytes} (h : unlines a = unlines b) : a.flatMap splitLF = b.flatMap splitLF := by
  have ha := splitLF_unlines a []
  have hb := splitLF_unlines b []
  rw [List.append_nil] at ha hb
  rw [h, hb] at ha
  exact (List.append_cancel_right ha).symm

theorem flat_lines {ls : List Bytes} (h : ∀ l ∈ ls, OneLine l) : ls.flatMap splitLF = ls := by
  induction ls with
  | nil => rfl
  | cons l ls ih =>
    rw [List.flatMap_cons, splitLF_line (h l (by simp)), ih fun m hm => h m (by simp [hm])]
    rfl

/-! The end of a list up to something that is not of a kind. -/

theorem split_first {α : Type} (P : α → Prop) : ∀ (a b : List α) (x y : α) (r s : List α), (∀ c ∈ a, P c) → (∀ c ∈ b, P c) →
    ¬ P x → ¬ P y → a ++ x :: r = b ++ y :: s → a = b ∧ x = y ∧ r = s := by
  intro a
  induction a with
  | nil =>
    intro b x y r s _ hb hx _ h
    cases b with
    | nil => simpa using h
    | cons c b =>
      simp only [List.nil_append, List.cons_append, List.cons.injEq] at h
      exact absurd (h.1 ▸ hb c (by simp)) hx
  | cons c a ih =>
    intro b x y r s ha hb hx hy h
    cases b with
    | nil =>
      simp only [List.nil_append, List.cons_append, List.cons.injEq] at h
      exact absurd (h.1 ▸ ha c (by simp)) hy
    | cons d b =>
      simp only [List.cons_append, List.cons.injEq] at h
      obtain ⟨h1, h2, h3⟩ := ih b x y r s (fun z hz => ha z (by simp [hz])) (fun z hz => hb z (by simp [hz])) hx hy h.2
      exact ⟨by rw [h.1, h1], h2, h3⟩

theorem split_last {α : Type} (P : α → Prop) {a b : List α} {x y : α} {r s : List α} (ha : ∀ c ∈ a, P c) (hb : ∀ c ∈ b, P c)
    (hx : ¬ P x) (hy : ¬ P y) (h : r ++ [x] ++ a = s ++ [y] ++ b) : r = s ∧ x = y ∧ a = b := by
  have h' := congrArg List.reverse h
  simp only [List.append_assoc, List.reverse_append, List.reverse_cons, List.nil_append, List.cons_append] at h'
  obtain ⟨h1, h2, h3⟩ := split_first P a.reverse b.reverse x y r.reverse s.reverse (by simpa using ha) (by simpa using hb) hx hy h'
  exact ⟨List.reverse_inj.1 h3, h2, List.reverse_inj.1 h1⟩

/-! Hex dumps. -/

open Hex in
/-- The rows of `hex.Dump`. -/
def rows : Nat → Nat → Bytes → List Bytes
  | 0, _, _ => []
  | _ + 1, _, [] => []
  | fuel + 1, off, c :: b => dumpRow off ((c :: b).take 16) :: rows fuel (off + 16) ((c :: b).drop 16)

theorem dumpRows_eq (fuel : Nat) : ∀ off b, Hex.dumpRows fuel off b = unlines (rows fuel off b) := by
  induction fuel with
  | zero => intro off b; rfl
  | succ fuel ih =>
    intro off b
    cases b with
    | nil => rfl
    | cons c b =>
      rw [Hex.dumpRows.eq_def]
      simp only [rows, unlines, List.flatMap_cons]
      rw [ih]
      rfl

theorem gap_length (i : Nat) : (Hex.gap i).length = if i = 7 ∨ i = 15 then 2 else 1 := by
  unfold Hex.gap; split <;> rfl

theorem cells_length (n : Nat) : ∀ i a b, (Hex.cells n i a).length = (Hex.cells n i b).length := by
  induction n with
  | zero => intro i a b; rfl
  | succ n ih =>
    intro i a b
    cases a <;> cases b <;> simp [Hex.cells, hex02, ih (i + 1) _ []]

theorem cells_inj (n : Nat) : ∀ i (a b : Bytes), a.length ≤ n → a.length = b.length → Hex.cells n i a = Hex.cells n i b → a = b := by
  induction n with
  | zero =>
    intro i a b ha hl _
    have h1 := List.length_eq_zero_iff.1 (by omega : a.length = 0)
    have h2 := List.length_eq_zero_iff.1 (by omega : b.length = 0)
    rw [h1, h2]
  | succ n ih =>
    intro i a b ha hl h
    cases a with
    | nil => exact (List.length_eq_zero_iff.1 hl.symm).symm
    | cons x a =>
      cases b with
      | nil => cases hl
      | cons y b =>
        simp only [Hex.cells] at h
        rw [List.append_assoc, List.append_assoc] at h
        obtain ⟨h1, h2⟩ := List.append_inj h (by simp [hex02])
        have h3 := List.append_cancel_left h2
        rw [hex02_inj x y h1, ih (i + 1) a b (by simpa using ha) (by simpa using hl) h3]

theorem dumpRow_inj {off : Nat} {a b : Bytes} (ha : a.length ≤ 16) (h : Hex.dumpRow off a = Hex.dumpRow off b) : a = b := by
  have hl : a.length = b.length := by
    have := congrArg List.length h
    unfold Hex.dumpRow at this
    simp only [List.length_append, List.length_map, cells_length 16 0 a b] at this
    omega
  unfold Hex.dumpRow at h
  simp only [List.append_assoc] at h
  have h1 := List.append_cancel_left (List.append_cancel_left h)
  exact cells_inj 16 0 a b ha hl (List.append_inj h1 (cells_length 16 0 a b)).1

theorem rows_inj (fuel : Nat) : ∀ (fuel' off : Nat) (a b : Bytes), a.length ≤ fuel → b.length ≤ fuel' → rows fuel off a = rows fuel' off b → a = b := by
  induction fuel with
  | zero =>
    intro fuel' off a b ha hb h
    have h1 := List.length_eq_zero_iff.1 (by omega : a.length = 0)
    subst h1
    cases fuel' with
    | zero => exact (List.length_eq_zero_iff.1 (by omega : b.length = 0)).symm
    | succ fuel' =>
      cases b with
      | nil => rfl
      | cons c b => cases h
  | succ fuel ih =>
    intro fuel' off a b ha hb h
    cases a with
    | nil =>
      cases fuel' with
      | zero => exact (List.length_eq_zero_iff.1 (by omega : b.length = 0)).symm
      | succ fuel' =>
        cases b with
        | nil => rfl
        | cons c b => cases h
    | cons x a =>
      cases fuel' with
      | zero => cases h
      | succ fuel' =>
        cases b with
        | nil => cases h
        | cons y b =>
          simp only [rows, List.cons.injEq] at h
          have h1 := dumpRow_inj (by simp; omega) h.1
          have h2 := ih fuel' (off + 16) _ _ (by simp at ha ⊢; omega) (by simp at hb ⊢; omega) h.2
          rw [← List.take_append_drop 16 (x :: a), h1, h2, List.take_append_drop]

theorem gap_line (i : Nat) : OneLine (Hex.gap i) := by unfold Hex.gap; split <;> decide

theorem cells_line (n : Nat) : ∀ i b, OneLine (Hex.cells n i b) := by
  induction n with
  | zero => intro i b; exact (by decide : OneLine [])
  | succ n ih =>
    intro i b
    cases b with
    | nil => exact .append (.append (by decide) (gap_line i)) (ih _ _)
    | cons c b => exact .append (.append (hex02_line c) (gap_line i)) (ih _ _)

theorem toChar_line (l : Bytes) : OneLine (l.map Hex.toChar) := by
  intro h
  obtain ⟨c, _, hc⟩ := List.mem_map.1 h
  revert hc
  revert c
  have : ∀ c : UInt8, Hex.toChar c ≠ 0x0a := by apply forall_u8; decide +kernel
  exact fun c _ => this c

theorem hex08_line (n : Nat) : OneLine (Hex.hex08 n) :=
  .append (.append (.append (hex02_line _) (hex02_line _)) (hex02_line _)) (hex02_line _)

theorem dumpRow_line (off : Nat) (r : Bytes) : OneLine (Hex.dumpRow off r) :=
  .append (.append (.append (.append (.append (hex08_line off) (by decide)) (cells_line _ _ _)) (by decide)) (toChar_line r)) (by decide)

theorem rows_line (fuel : Nat) : ∀ off b, ∀ l ∈ rows fuel off b, OneLine l := by
  induction fuel with
  | zero => intro off b l hl; cases hl
  | succ fuel ih =>
    intro off b l hl
    cases b with
    | nil => cases hl
    | cons c b =>
      simp only [rows, List.mem_cons] at hl
      rcases hl with rfl | hl
      · exact dumpRow_line _ _
      · exact ih _ _ l hl

theorem splitLF_dump (b : Bytes) : splitLF (Hex.Dump b) = rows b.length 0 b ++ [[]] := by
  unfold Hex.Dump
  rw [dumpRows_eq]
  have := splitLF_unlines (rows b.length 0 b) []
  rw [List.append_nil] at this
  rw [this, flat_lines (rows_line _ _ _)]
  rfl

theorem rows_shape (fuel : Nat) : ∀ off b, ∀ l ∈ rows fuel off b, ∃ o r, l = Hex.dumpRow o r := by
  induction fuel with
  | zero => intro off b l hl; cases hl
  | succ fuel ih =>
    intro off b l hl
    cases b with
    | nil => cases hl
    | cons c b =>
      simp only [rows, List.mem_cons] at hl
      rcases hl with rfl | hl
      · exact ⟨_, _, rfl⟩
      · exact ih _ _ l hl

theorem trim_eq (c : UInt8) (m : Bytes) (hc : isSpace c = false) : trimSpace (c :: m ++ [0x7c, 0x0a]) = c :: m ++ [0x7c] := by
  unfold trimSpace
  have h1 : isSpace 0x0a = true := by decide
  have h2 : isSpace 0x7c = false := by decide
  have e1 : (c :: m ++ [0x7c, 0x0a]).dropWhile isSpace = c :: m ++ [0x7c, 0x0a] := by
    rw [List.cons_append, List.dropWhile_cons, hc]; rfl
  rw [e1]
  simp only [List.reverse_append, List.reverse_cons, List.reverse_nil, List.nil_append, List.cons_append]
  rw [List.dropWhile_cons, h1, if_pos rfl, List.dropWhile_cons, h2]
  simp

theorem hexDig_space : ∀ n < 16, isSpace (hexDig n) = false := by decide +kernel

theorem dumpRow_shape (off : Nat) (r : Bytes) : ∃ c m, Hex.dumpRow off r = c :: m ++ [0x7c] ∧ isSpace c = false := by
  refine ⟨hexDig ((UInt8.ofNat (off / 0x1000000)).toNat / 16), _, rfl, hexDig_space _ ?_⟩
  have := (UInt8.ofNat (off / 0x1000000)).toNat_lt
  omega

/-- The text of some rows without the last end of line. -/
theorem trim_unlines (ls : List Bytes) (hl : ∀ l ∈ ls, ∃ c m, l = c :: m ++ [0x7c] ∧ isSpace c = false) (hne : ls ≠ []) :
    unlines ls = trimSpace (unlines ls) ++ [0x0a] := by
  obtain ⟨i, last, rfl⟩ : ∃ i last, ls = i ++ [last] := ⟨ls.dropLast, ls.getLast hne, (List.dropLast_concat_getLast hne).symm⟩
  obtain ⟨c, m, rfl, hc⟩ := hl last (by simp)
  have e : unlines (i ++ [c :: m ++ [0x7c]]) = unlines i ++ (c :: m ++ [0x7c, 0x0a]) := by simp [unlines]
  rw [e]
  cases i with
  | nil =>
    show c :: m ++ [0x7c, 0x0a] = trimSpace (c :: m ++ [0x7c, 0x0a]) ++ [0x0a]
    rw [trim_eq c m hc]; simp
  | cons l i =>
    obtain ⟨d, n, rfl, hd⟩ := hl l (by simp)
    have e2 : unlines ((d :: n ++ [0x7c]) :: i) ++ (c :: m ++ [0x7c, 0x0a]) =
        d :: (n ++ [0x7c] ++ [0x0a] ++ unlines i ++ c :: m) ++ [0x7c, 0x0a] := by simp [unlines]
    rw [e2, trim_eq d _ hd]; simp

theorem splitLF_trim (b : Bytes) : splitLF (trimSpace (Hex.Dump b)) = if b = [] then [[]] else rows b.length 0 b := by
  split
  · rename_i h; subst h; rfl
  · rename_i h
    have hne : rows b.length 0 b ≠ [] := by
      cases b with
      | nil => exact absurd rfl h
      | cons c b => simp [rows]
    have ht := trim_unlines (rows b.length 0 b)
      (fun l hl => by obtain ⟨o, r, rfl⟩ := rows_shape _ _ _ l hl; exact dumpRow_shape o r) hne
    have hs := splitLF_dump b
    unfold Hex.Dump at hs ⊢
    rw [dumpRows_eq] at hs ⊢
    rw [ht, splitLF_append] at hs
    exact List.append_cancel_right hs

/-! Groups of lines. -/

/-- A line after the first of a group. -/
def Inner (l : Bytes) : Prop := l.head? = some 0x20

instance (l : Bytes) : Decidable (Inner l) := by unfold Inner; infer_instance

theorem indented_inner (ls : List Bytes) : ∀ l ∈ indented ls, Inner l := by
  intro l hl
  obtain ⟨m, _, rfl⟩ := List.mem_map.1 hl
  rfl

theorem indented_inj {a b : List Bytes} (h : indented a = indented b) : a = b :=
  (List.map_inj_right fun _ _ hxy => List.append_cancel_left hxy).1 h

theorem indented_line {ls : List Bytes} (h : ∀ l ∈ ls, OneLine l) : ∀ l ∈ indented ls, OneLine l := by
  intro l hl
  obtain ⟨m, hm, rfl⟩ := List.mem_map.1 hl
  exact .append (by decide) (h m hm)

theorem cd_shape (ud : Bytes) : ∃ l ls, dumpCD ud = (b!"TP-CD: " ++ l) :: indented ls ∧ l :: ls = rows ud.length 0 ud ++ [[]] := by
  unfold dumpCD
  rw [splitLF_dump]
  cases h : rows ud.length 0 ud with
  | nil => exact ⟨[], [], rfl, rfl⟩
  | cons l ls => exact ⟨l, ls ++ [[]], rfl, rfl⟩

theorem ud_shape (ud : Bytes) : ∃ l ls, dumpUD ud = (b!"TP-UD: " ++ l) :: indented ls ∧
    l :: ls = if ud = [] then [[]] else rows ud.length 0 ud := by
  unfold dumpUD
  rw [splitLF_trim]
  by_cases h : ud = []
  · simp only [if_pos h]
    exact ⟨[], [], rfl, rfl⟩
  · simp only [if_neg h]
    cases hr : rows ud.length 0 ud with
    | nil =>
      cases ud with
      | nil => exact absurd rfl h
      | cons c b => cases hr
    | cons l ls => exact ⟨l, ls, rfl, rfl⟩

theorem group_line {p l : Bytes} {ls ms : List Bytes} (hp : OneLine p) (he : l :: ls = ms) (h : ∀ m ∈ ms, OneLine m) :
    ∀ m ∈ (p ++ l) :: indented ls, OneLine m := by
  subst he
  intro m hm
  rw [List.mem_cons] at hm
  rcases hm with rfl | hm
  · exact hp.append (h l (by simp))
  · exact indented_line (fun x hx => h x (by simp [hx])) m hm

theorem cd_line (ud : Bytes) : ∀ l ∈ dumpCD ud, OneLine l := by
  obtain ⟨l, ls, h, e⟩ := cd_shape ud
  rw [h]
  refine group_line (by decide) e ?_
  intro m hm
  rw [List.mem_append, List.mem_singleton] at hm
  rcases hm with hm | rfl
  · exact rows_line _ _ _ m hm
  · decide

theorem ud_line (ud : Bytes) : ∀ l ∈ dumpUD ud, OneLine l := by
  obtain ⟨l, ls, h, e⟩ := ud_shape ud
  rw [h]
  refine group_line (by decide) e ?_
  intro m hm
  split at hm
  · rw [List.mem_singleton] at hm; subst hm; decide
  · exact rows_line _ _ _ m hm

/-- Command data at the end of what is printed can be read back. -/
theorem cd_end {a b : List Bytes} {u v : Bytes} (h : a ++ dumpCD u = b ++ dumpCD v) : a = b ∧ u = v := by
  obtain ⟨l, ls, hu, eu⟩ := cd_shape u
  obtain ⟨m, ms, hv, ev⟩ := cd_shape v
  have h' : a ++ [b!"TP-CD: " ++ l] ++ indented ls = b ++ [b!"TP-CD: " ++ m] ++ indented ms := by
    rw [hu, hv] at h; simpa using h
  obtain ⟨h1, h2, h3⟩ := split_last Inner (indented_inner ls) (indented_inner ms) (by simp [Inner]) (by simp [Inner]) h'
  refine ⟨h1, ?_⟩
  have h4 : l :: ls = m :: ms := by rw [List.append_cancel_left h2, indented_inj h3]
  rw [eu, ev] at h4
  exact rows_inj _ _ _ _ _ (Nat.le_refl _) (Nat.le_refl _) (List.append_cancel_right h4)

/-- User data at the end of what is printed can be read back. -/
theorem ud_end {a b : List Bytes} {u v : Bytes} (h : a ++ dumpUD u = b ++ dumpUD v) : a = b ∧ u = v := by
  obtain ⟨l, ls, hu, eu⟩ := ud_shape u
  obtain ⟨m, ms, hv, ev⟩ := ud_shape v
  have h' : a ++ [b!"TP-UD: " ++ l] ++ indented ls = b ++ [b!"TP-UD: " ++ m] ++ indented ms := by
    rw [hu, hv] at h; simpa using h
  obtain ⟨h1, h2, h3⟩ := split_last Inner (indented_inner ls) (indented_inner ms) (by simp [Inner]) (by simp [Inner]) h'
  refine ⟨h1, ?_⟩
  have h4 : l :: ls = m :: ms := by rw [List.append_cancel_left h2, indented_inj h3]
  rw [eu, ev] at h4
  have hne : ∀ w : Bytes, w ≠ [] → rows w.length 0 w ≠ [[]] := by
    intro w hw hr
    cases w with
    | nil => exact hw rfl
    | cons c w =>
      simp only [rows, List.length_cons] at hr
      obtain ⟨d, m, hd, _⟩ := dumpRow_shape 0 ((c :: w).take 16)
      rw [hd] at hr
      cases hr
  by_cases x : u = [] <;> by_cases y : v = []
  · rw [x, y]
  · rw [if_pos x, if_neg y] at h4; exact absurd h4.symm (hne v y)
  · rw [if_neg x, if_pos y] at h4; exact absurd h4 (hne u x)
  · rw [if_neg x, if_neg y] at h4
    exact rows_inj _ _ _ _ _ (Nat.le_refl _) (Nat.le_refl _) h4

/-! Headers. -/

theorem showIE_inj {a b : IE} (h : showIE a = showIE b) : a = b := by
  unfold showIE at h
  simp only [List.append_assoc] at h
  have h1 := List.append_cancel_left h
  have nd : ¬ Digit 0x20 := by decide
  obtain ⟨h2, _, h3⟩ := split_digits _ _ _ _ _ _ (decimal_digits _) (decimal_digits _) nd nd h1
  have h4 := showBytes_inj (List.append_cancel_left h3 : showBytes a.Data = showBytes b.Data)
  have h5 : a.ID = b.ID := UInt8.toNat_inj.mp (decimal_inj _ _ h2)
  cases a; cases b
  cases h4; cases h5; rfl

theorem showIE_line (a : IE) : OneLine (showIE a) :=
  .append (.append (.append (by decide) (digits_line (decimal_digits _))) (by decide)) (showBytes_line _)

theorem udh_line (h : UDH) : ∀ l ∈ dumpUDH h, OneLine l := by
  cases h with
  | nil => intro l hl; cases hl
  | cons ie ies =>
    refine group_line (l := showIE ie) (ls := ies.map showIE) (by decide) rfl ?_
    intro m hm
    rw [← List.map_cons (f := showIE)] at hm
    obtain ⟨x, _, rfl⟩ := List.mem_map.1 hm
    exact showIE_line x

/-- A line of a header. -/
def Header (l : Bytes) : Prop := Inner l ∨ l.take 8 = b!"TP-UDH: "

instance (l : Bytes) : Decidable (Header l) := by unfold Header; infer_instance

theorem udh_header (h : UDH) : ∀ l ∈ dumpUDH h, Header l := by
  cases h with
  | nil => intro l hl; cases hl
  | cons ie ies =>
    intro l hl
    simp only [dumpUDH, List.mem_cons] at hl
    rcases hl with rfl | hl
    · exact .inr rfl
    · exact .inl (indented_inner _ l hl)

theorem udh_inj {a b : UDH} (h : dumpUDH a = dumpUDH b) : a = b := by
  cases a with
  | nil => cases b with
    | nil => rfl
    | cons y b => cases h
  | cons x a => cases b with
    | nil => cases h
    | cons y b =>
      unfold dumpUDH at h
      rw [List.cons.injEq] at h
      have h1 := showIE_inj (List.append_cancel_left h.1 : showIE x = showIE y)
      have h2 := (List.map_inj_right fun _ _ hpq => showIE_inj hpq).1 (indented_inj h.2)
      rw [h1, h2]

/-- A header and user data at the end of what is printed can be read back. -/
theorem tail_end {a b : List Bytes} {x y : Bytes} {g h : UDH} {u v : Bytes} (hx : ¬ Header x) (hy : ¬ Header y)
    (e : a ++ [x] ++ dumpUDH g ++ dumpUD u = b ++ [y] ++ dumpUDH h ++ dumpUD v) : a = b ∧ x = y ∧ g = h ∧ u = v := by
  obtain ⟨e1, e2⟩ := ud_end e
  obtain ⟨h1, h2, h3⟩ := split_last Header (udh_header g) (udh_header h) hx hy e1
  exact ⟨h1, h2, udh_inj h3, e2⟩

end Verif.Proofs.Print
