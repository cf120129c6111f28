import Verif.Spec.Rows
import Verif.Props.Dump

/-! C113: what smsdecode shows of user data. -/

namespace Verif.Props
open Verif.Model Verif.Spec Verif.Proofs Verif.Proofs.Print

/-! Helpers. -/

theorem hexDig_char : ∀ n, n < 16 → hexDig n = hexChar n := by decide

theorem gap_blank (i c : Nat) (h : c < (Hex.gap i).length) : (Hex.gap i)[c]? = some 0x20 := by
  have two : ∀ c, c < 2 → ([0x20, 0x20] : Bytes)[c]? = some 0x20 := by decide
  have one : ∀ c, c < 1 → ([0x20] : Bytes)[c]? = some 0x20 := by decide
  rw [Print.gap_length] at h
  unfold Hex.gap
  by_cases hi : i = 7 ∨ i = 15
  · rw [if_pos hi] at h ⊢
    exact two c h
  · rw [if_neg hi] at h ⊢
    exact one c h

theorem gap_len (i : Nat) (h : i < 16) : (Hex.gap i).length + i / 8 = 1 + (i + 1) / 8 := by
  rw [Print.gap_length]; split <;> omega

theorem cells_cons (n i : Nat) (b : UInt8) (bs : Bytes) : Hex.cells (n + 1) i (b :: bs) =
    hexDig (b.toNat / 16) :: hexDig (b.toNat % 16) :: (Hex.gap i ++ Hex.cells n (i + 1) bs) := by
  simp [Hex.cells, hex02]

theorem cells_nil (n i : Nat) : Hex.cells (n + 1) i [] = 0x20 :: 0x20 :: (Hex.gap i ++ Hex.cells n (i + 1) []) := by
  simp [Hex.cells]

theorem cells_len : ∀ (n i : Nat) (r : Bytes), i + n = 16 → (Hex.cells n i r).length + i / 8 = 3 * n + 2 := by
  intro n
  induction n with
  | zero => intro i r h; obtain rfl : i = 16 := by omega
            rfl
  | succ n ih =>
    intro i r h
    have hg := gap_len i (by omega)
    cases r with
    | nil =>
      have := ih (i + 1) [] (by omega)
      rw [cells_nil]; simp only [List.length_cons, List.length_append]; omega
    | cons b r =>
      have := ih (i + 1) r (by omega)
      rw [cells_cons]; simp only [List.length_cons, List.length_append]; omega

theorem after_gap (x y : UInt8) (g l : Bytes) (c : Nat) : (x :: y :: (g ++ l))[2 + g.length + c]? = l[c]? := by
  have e : 2 + g.length + c = (g.length + c) + 1 + 1 := by omega
  rw [e, List.getElem?_cons_succ, List.getElem?_cons_succ, List.getElem?_append_right (by omega), Nat.add_sub_cancel_left]

theorem cells_hex : ∀ (n i : Nat) (r : Bytes), i + n = 16 → ∀ (j : Nat) (b : UInt8), r[j]? = some b → j < n →
    (Hex.cells n i r)[3 * j + (i + j) / 8 - i / 8]? = some (hexChar (b.toNat / 16)) ∧
    (Hex.cells n i r)[3 * j + (i + j) / 8 - i / 8 + 1]? = some (hexChar (b.toNat % 16)) := by
  intro n
  induction n with
  | zero => intro i r _ j b _ hj; omega
  | succ n ih =>
    intro i r h j b hb hj
    have hg := gap_len i (by omega)
    cases r with
    | nil => cases hb
    | cons x r =>
      rw [cells_cons]
      cases j with
      | zero =>
        cases hb
        have e : 3 * 0 + (i + 0) / 8 - i / 8 = 0 := by omega
        rw [e, hexDig_char _ (by have := b.toNat_lt; omega), hexDig_char _ (by omega)]
        exact ⟨rfl, rfl⟩
      | succ j =>
        obtain ⟨h1, h2⟩ := ih (i + 1) r (by omega) j b (by simpa using hb) (by omega)
        have e : 3 * (j + 1) + (i + (j + 1)) / 8 - i / 8 = 2 + (Hex.gap i).length + (3 * j + (i + 1 + j) / 8 - (i + 1) / 8) := by omega
        rw [e]
        refine ⟨?_, ?_⟩
        · rw [after_gap]; exact h1
        · rw [Nat.add_assoc _ _ 1, after_gap]; exact h2

theorem cells_blank : ∀ (n i : Nat) (r : Bytes), i + n = 16 → ∀ c, c < (Hex.cells n i r).length →
    (∀ j, j < r.length → c ≠ 3 * j + (i + j) / 8 - i / 8 ∧ c ≠ 3 * j + (i + j) / 8 - i / 8 + 1) →
    (Hex.cells n i r)[c]? = some 0x20 := by
  intro n
  induction n with
  | zero => intro i r _ c hc; simp [Hex.cells] at hc
  | succ n ih =>
    intro i r h c hc hn
    have hg := gap_len i (by omega)
    have inner : ∀ (x y : UInt8) (r' : Bytes), 2 ≤ c → c < 2 + (Hex.gap i).length + (Hex.cells n (i + 1) r').length →
        (∀ j, j < r'.length → c ≠ 2 + (Hex.gap i).length + (3 * j + (i + 1 + j) / 8 - (i + 1) / 8) ∧
          c ≠ 2 + (Hex.gap i).length + (3 * j + (i + 1 + j) / 8 - (i + 1) / 8) + 1) →
        (x :: y :: (Hex.gap i ++ Hex.cells n (i + 1) r'))[c]? = some 0x20 := by
      intro x y r' h2 hlt hne
      by_cases hc2 : c < 2 + (Hex.gap i).length
      · obtain ⟨d, rfl⟩ : ∃ d, c = d + 1 + 1 := ⟨c - 2, by omega⟩
        rw [List.getElem?_cons_succ, List.getElem?_cons_succ, List.getElem?_append_left (by omega)]
        exact gap_blank i d (by omega)
      · obtain ⟨d, rfl⟩ : ∃ d, c = 2 + (Hex.gap i).length + d := ⟨c - (2 + (Hex.gap i).length), by omega⟩
        rw [after_gap]
        apply ih (i + 1) r' (by omega) d (by omega)
        intro j hj
        have := hne j hj
        omega
    cases r with
    | nil =>
      rw [cells_nil] at hc ⊢
      simp only [List.length_cons, List.length_append] at hc
      by_cases h2 : 2 ≤ c
      · exact inner _ _ [] h2 (by omega) (by intro j hj; simp at hj)
      · match c with
        | 0 => rfl
        | 1 => rfl
        | c + 2 => omega
    | cons x r =>
      rw [cells_cons] at hc ⊢
      simp only [List.length_cons, List.length_append] at hc
      have h0 := hn 0 (by simp)
      refine inner _ _ r (by omega) (by omega) ?_
      intro j hj
      have := hn (j + 1) (by simpa using hj)
      omega

theorem col_lt {l : Bytes} {i : Nat} {b : UInt8} (h : l[i]? = some b) : i < l.length := (List.getElem?_eq_some_iff.1 h).1

theorem hex08_length (n : Nat) : (Hex.hex08 n).length = 8 := rfl

theorem hex08_digit (n j : Nat) (hj : j < 8) : (Hex.hex08 n)[j]? = some (hexChar (n / 16 ^ (7 - j) % 16)) := by
  have key : ∀ m, hex02 (UInt8.ofNat m) = [hexChar (m / 16 % 16), hexChar (m % 16)] := by
    intro m
    unfold hex02
    rw [UInt8.toNat_ofNat', hexDig_char _ (by omega), hexDig_char _ (by omega)]
    congr 1
    · congr 1; omega
    · congr 2; omega
  unfold Hex.hex08
  rw [key, key, key, key]
  match j with
  | 0 => simp [Nat.div_div_eq_div_mul]
  | 1 => simp
  | 2 => simp [Nat.div_div_eq_div_mul]
  | 3 => simp
  | 4 => simp [Nat.div_div_eq_div_mul]
  | 5 => simp
  | 6 => simp
  | 7 => simp
  | j + 8 => omega

theorem row_of (off : Nat) (r : Bytes) (hr : r.length ≤ 16) : RowOf off r (Hex.dumpRow off r) := by
  have hc := cells_len 16 0 r rfl
  have hc : (Hex.cells 16 0 r).length = 50 := by omega
  have shape : Hex.dumpRow off r = Hex.hex08 off ++ ([0x20, 0x20] ++ (Hex.cells 16 0 r ++ ([0x7c] ++ (r.map Hex.toChar ++ [0x7c])))) := by
    unfold Hex.dumpRow
    simp only [List.append_assoc]
  have h8 := hex08_length off
  have skip : ∀ c, (Hex.dumpRow off r)[10 + c]? = (Hex.cells 16 0 r ++ ([0x7c] ++ (r.map Hex.toChar ++ [0x7c])))[c]? := by
    intro c
    rw [shape, List.getElem?_append_right (by omega), List.getElem?_append_right (by simp; omega)]
    congr 1
    simp; omega
  have skip2 : ∀ c, (Hex.dumpRow off r)[60 + c]? = ([0x7c] ++ (r.map Hex.toChar ++ [0x7c]))[c]? := by
    intro c
    have e : 60 + c = 10 + (50 + c) := by omega
    rw [e, skip, List.getElem?_append_right (by omega), hc]
    congr 1; omega
  refine ⟨?_, ?_, ?_, ?_, ⟨?_, ?_⟩, ?_⟩
  · rw [shape]; simp only [List.length_append, h8, hc, List.length_cons, List.length_nil, List.length_map]; omega
  · intro j hj
    rw [shape, List.getElem?_append_left (by omega)]
    exact hex08_digit off j hj
  · intro i b hb
    have hi := col_lt hb
    obtain ⟨h1, h2⟩ := cells_hex 16 0 r rfl i b hb (by omega)
    have e : hexColumn i = 10 + (3 * i + (0 + i) / 8 - 0 / 8) := by unfold hexColumn; rw [Nat.zero_add]; omega
    rw [e]
    refine ⟨?_, ?_⟩
    · rw [skip, List.getElem?_append_left (col_lt h1)]; exact h1
    · rw [Nat.add_assoc, skip, List.getElem?_append_left (col_lt h2)]; exact h2
  · intro i b hb
    have hi := col_lt hb
    have e : 61 + i = 60 + (1 + i) := by omega
    rw [e, skip2, List.getElem?_append_right (by simp), List.getElem?_append_left (by simp; omega)]
    have e1 : 1 + i - [(0x7c : UInt8)].length = i := by simp
    rw [e1, List.getElem?_map, hb]
    simp only [Option.map_some, Option.some.injEq]
    unfold Hex.toChar
    simp only [UInt8.lt_iff_toNat_lt, GT.gt]
    have e2 : UInt8.toNat 32 = 32 := rfl
    have e3 : UInt8.toNat 126 = 126 := rfl
    rw [e2, e3]
    by_cases hb' : 0x20 ≤ b.toNat ∧ b.toNat ≤ 0x7e
    · rw [if_pos hb', if_neg (by omega)]
    · rw [if_neg hb', if_pos (by omega)]
  · have := skip2 0
    rw [this]; rfl
  · have e : 61 + r.length = 60 + (1 + r.length) := by omega
    rw [e, skip2, List.getElem?_append_right (by simp), List.getElem?_append_right (by simp)]
    simp
  · intro c h1 h2 hne
    by_cases h10 : c < 10
    · rw [shape, List.getElem?_append_right (by omega), h8, List.getElem?_append_left (by simp; omega)]
      match c with
      | 8 => rfl
      | 9 => rfl
      | c + 10 => omega
      | 0 | 1 | 2 | 3 | 4 | 5 | 6 | 7 => omega
    · obtain ⟨d, rfl⟩ : ∃ d, c = 10 + d := ⟨c - 10, by omega⟩
      rw [skip, List.getElem?_append_left (by omega)]
      refine cells_blank 16 0 r rfl d (by omega) ?_
      intro j hj
      have := hne j hj
      unfold hexColumn at this
      rw [Nat.zero_add]
      omega

theorem rows_rows : ∀ (fuel off : Nat) (b : Bytes), b.length ≤ fuel →
    (rows fuel off b).length = (b.length + 15) / 16 ∧
    ∀ (k : Nat) (line : Bytes), (rows fuel off b)[k]? = some line → RowOf (off + 16 * k) ((b.drop (16 * k)).take 16) line := by
  intro fuel
  induction fuel with
  | zero =>
    intro off b h
    obtain rfl : b = [] := List.length_eq_zero_iff.1 (by omega)
    exact ⟨rfl, fun k line hk => by cases hk⟩
  | succ fuel ih =>
    intro off b h
    cases b with
    | nil => exact ⟨rfl, fun k line hk => by cases hk⟩
    | cons c b =>
      have hl : ((c :: b).drop 16).length = b.length - 15 := by simp
      obtain ⟨h1, h2⟩ := ih (off + 16) ((c :: b).drop 16) (by simp at h; omega)
      simp only [rows]
      refine ⟨by rw [List.length_cons, h1, hl, List.length_cons]; omega, ?_⟩
      intro k line hk
      cases k with
      | zero =>
        cases hk
        exact row_of off _ (by simp; omega)
      | succ k =>
        have := h2 k line (by simpa using hk)
        rw [List.drop_drop] at this
        have e1 : off + 16 + 16 * k = off + 16 * (k + 1) := by omega
        have e2 : 16 + 16 * k = 16 * (k + 1) := by omega
        rw [e1, e2] at this
        exact this

theorem rows_of (b : Bytes) : RowsOf b (rows b.length 0 b) := by
  obtain ⟨h1, h2⟩ := rows_rows b.length 0 b (Nat.le_refl _)
  refine ⟨h1, fun k line hk => ?_⟩
  have := h2 k line hk
  rwa [Nat.zero_add] at this

theorem labelled_lines (label l : Bytes) (ls : List Bytes) :
    unlines ((label ++ l) :: SmsDecode.indented ls) = labelled label (l :: ls) := by
  have e : b!"       " = List.replicate 7 0x20 := rfl
  have e1 : b!"\n" = [0x0a] := rfl
  unfold unlines labelled SmsDecode.indented
  rw [List.flatMap_cons, List.flatMap_map, e, e1]

theorem ud_lines (ud : Bytes) : unlines (SmsDecode.dumpUD ud) = labelled b!"TP-UD: " (rows ud.length 0 ud) := by
  unfold SmsDecode.dumpUD
  rw [splitLF_trim]
  by_cases h : ud = []
  · subst h; rfl
  · rw [if_neg h]
    cases hr : rows ud.length 0 ud with
    | nil =>
      cases ud with
      | nil => exact absurd rfl h
      | cons c b => simp [rows] at hr
    | cons l ls => exact labelled_lines _ _ _

theorem cd_lines (ud : Bytes) : unlines (SmsDecode.dumpCD ud) = labelled b!"TP-CD: " (rows ud.length 0 ud ++ [[]]) := by
  unfold SmsDecode.dumpCD
  rw [splitLF_dump]
  cases hr : rows ud.length 0 ud with
  | nil => rfl
  | cons l ls => exact labelled_lines _ _ _

theorem unlines_append (a b : List Bytes) : unlines (a ++ b) = unlines a ++ unlines b := List.flatMap_append

theorem unlines_last {a : List Bytes} (h : a ≠ []) : (unlines a).getLast? = some 0x0a := by
  obtain ⟨i, l, rfl⟩ : ∃ i l, a = i ++ [l] := ⟨_, _, (List.dropLast_concat_getLast h).symm⟩
  rw [unlines_append]
  unfold unlines
  rw [List.flatMap_cons, List.flatMap_nil, List.append_nil, ← List.append_assoc, List.getLast?_append]
  rfl

/-- C113: the end of what smsdecode prints of a TPDU that it accepts is, from the beginning of a line on, the user data
in rows of sixteen octets after the label; of a command also an empty line. -/
theorem C113_exact (s : List UInt8) (pm mo : Bool) (t : TPDU) (a : Option Address) (h : SmsDecode.decode s pm mo = .ok (t, a)) :
    ∃ before lines, before.getLast? = some 0x0a ∧ RowsOf t.UD lines ∧
      SmsDecode.text s pm mo = .ok (.ok (before ++
        if t.SmsType = SmsCommand then labelled b!"TP-CD: " (lines ++ [[]]) else labelled b!"TP-UD: " lines)) := by
  obtain ⟨i1, i2, i3, i4⟩ := decode_seen s pm mo t a h
  obtain ⟨d, hd, td⟩ := dump_known t i2
  have text : SmsDecode.text s pm mo = .ok (.ok (unlines (SmsDecode.printed a t d))) := by
    unfold SmsDecode.text SmsDecode.main
    rw [h]
    simp only [hd, ok_bind]
    rfl
  have shape : ∃ ls, ls ≠ [] ∧ SmsDecode.printed a t d = ls ++
      if t.SmsType = SmsCommand then SmsDecode.dumpCD t.UD else SmsDecode.dumpUD t.UD := by
    unfold SmsDecode.printed
    have close : ∀ (p q : List Bytes) (x : Bytes) (u v : List Bytes), q = u ++ v → ∃ ls, ls ≠ [] ∧ p ++ [x] ++ q = ls ++ v :=
      fun p q x u v e => ⟨p ++ [x] ++ u, by simp, by rw [e]; simp⟩
    cases d with
    | command => rw [← td, if_pos (by rfl)]; exact close _ _ _ _ _ rfl
    | deliver => rw [← td, if_neg (by decide)]; exact close _ _ _ _ _ rfl
    | deliverReport => rw [← td, if_neg (by decide)]; exact close _ _ _ _ _ rfl
    | statusReport => rw [← td, if_neg (by decide)]; exact close _ _ _ _ _ rfl
    | submit => rw [← td, if_neg (by decide)]; exact close _ _ _ _ _ rfl
    | submitReport => rw [← td, if_neg (by decide)]; exact close _ _ _ _ _ rfl
  obtain ⟨ls, hne, e⟩ := shape
  refine ⟨unlines ls, rows t.UD.length 0 t.UD, unlines_last hne, rows_of _, ?_⟩
  rw [text, e, unlines_append]
  split
  · rw [cd_lines]
  · rw [ud_lines]

/-- Seventeen octets take two rows. -/
example : RowsOf (List.replicate 16 0x41 ++ [0x0a])
    [b!"00000000  41 41 41 41 41 41 41 41  41 41 41 41 41 41 41 41  |AAAAAAAAAAAAAAAA|",
     b!"00000010  0a                                                |.|"] := rows_of (List.replicate 16 0x41 ++ [0x0a])

/-- A deliver report with two octets of user data. -/
example : ∃ t a, SmsDecode.decode b!"00800604026162" false true = .ok (t, a) ∧ t.UD = [0x61, 0x62] := ⟨_, _, by rfl, by rfl⟩

end Verif.Props
