import Verif.Proofs.Charsets
import Verif.Proofs.Tables
import Verif.Spec.Utf16

/-! C88: what cmd/charsets prints. -/

namespace Verif.Props
open Verif.Model Verif.Model.Charsets Verif.Model.Unicode Verif.Proofs Verif.Spec

/-- C88: `Display` prints the same for two tables if and only if they agree on the 128 septets. -/
theorem C88_exact (m n : Charset.Decoder) : Display m = Display n ↔ ∀ g : UInt8, g < 0x80 → m.lookup g = n.lookup g := by
  constructor
  · intro h g hg
    have h := Page.rows_inj m n _ (List.append_cancel_left h) (g.toNat % 16) (List.mem_range.2 (by omega)) (g.toNat / 16) (by
      have : g.toNat < 128 := UInt8.lt_iff_toNat_lt.1 hg
      omega)
    rw [show byteOf ((g.toNat / 16 * 0x10 + g.toNat % 16 : Nat) : Int) = g from ?_] at h
    · exact h
    · apply UInt8.toNat_inj.1
      rw [toNat_byteOf]
      have := g.toNat_lt
      omega
  · intro h
    unfold Display
    congr 1
    have hc : ∀ r < 16, ∀ c < 8, cell m (byteOf ((c * 0x10 + r : Nat) : Int)) = cell n (byteOf ((c * 0x10 + r : Nat) : Int)) := by
      intro r hr c hc
      unfold cell
      rw [h _ (by
        rw [UInt8.lt_iff_toNat_lt, toNat_byteOf]
        show _ < 128
        omega)]
    have hr : ∀ r < 16, row m r = row n r := by
      intro r hr
      unfold row
      simp only [List.range, List.range.loop, List.flatMap_cons, List.flatMap_nil]
      rw [hc r hr 0 (by omega), hc r hr 1 (by omega), hc r hr 2 (by omega), hc r hr 3 (by omega), hc r hr 4 (by omega),
        hc r hr 5 (by omega), hc r hr 6 (by omega), hc r hr 7 (by omega)]
    simp only [List.range, List.range.loop, List.flatMap_cons, List.flatMap_nil]
    rw [hr 0 (by omega), hr 1 (by omega), hr 2 (by omega), hr 3 (by omega), hr 4 (by omega), hr 5 (by omega), hr 6 (by omega),
      hr 7 (by omega), hr 8 (by omega), hr 9 (by omega), hr 10 (by omega), hr 11 (by omega), hr 12 (by omega), hr 13 (by omega),
      hr 14 (by omega), hr 15 (by omega)]

/-- C88: of a table without characters beyond U+FFFF `Display` prints 17 lines of 46 characters.  The entry of septet 16c + r is
in line r + 1, in the five characters from 6 + 5c on. -/
theorem C88_page (m : Charset.Decoder) (hm : ∀ g v, m.lookup g = some v → v < 0x10000) :
    ∃ lines : List (List UInt8), Display m = lines.flatMap (· ++ [0x0a]) ∧ lines.length = 17 ∧ (∀ l ∈ lines, 0x0a ∉ l) ∧
      ∀ r < 16, ∀ c < 8, ∃ chars : List Nat, lines[r + 1]? = some (encodeRunes chars) ∧ chars.length = 46 ∧
        (∀ u ∈ chars, Scalar u) ∧ Entry (m.lookup (UInt8.ofNat (16 * c + r))) ((chars.drop (6 + 5 * c)).take 5) := by
  have key : ∀ rs : List Nat, (∀ r ∈ rs, r < 16) → ∃ lines : List (List UInt8), rs.flatMap (row m) = lines.flatMap (· ++ [0x0a]) ∧
      lines.length = rs.length ∧ (∀ l ∈ lines, 0x0a ∉ l) ∧
      ∀ (i : Nat) (hi : i < rs.length), ∀ c < 8, ∃ chars : List Nat, lines[i]? = some (encodeRunes chars) ∧ chars.length = 46 ∧
        (∀ u ∈ chars, Scalar u) ∧ Entry (m.lookup (UInt8.ofNat (16 * c + rs[i]))) ((chars.drop (6 + 5 * c)).take 5) := by
    intro rs
    induction rs with
    | nil => exact fun _ => ⟨[], rfl, rfl, fun _ h => (by cases h), fun i hi => (by simp at hi)⟩
    | cons r rs ih =>
      intro hrs
      have hr := hrs r (by simp)
      obtain ⟨lines, h1, h2, h3, h4⟩ := ih (fun r hr => hrs r (by simp [hr]))
      obtain ⟨us, g1, g2, g3, g4⟩ := Page.row_chars m hm r hr
      have hd := Page.hexDig_digit r hr
      have hsc : ∀ c ∈ [0x30, 0x78, 0x5f, (hexDig r).toNat, 0x3a, 0x20] ++ us.flatten, isScalar c = true ∧ c ≠ 0x0a := by
        intro c hc
        rcases List.mem_append.1 hc with hc | hc
        · simp only [List.mem_cons, List.not_mem_nil, or_false] at hc
          rcases hc with rfl | rfl | rfl | rfl | rfl | rfl <;> first | decide | exact ⟨(isScalar_iff _).2 (by omega), by omega⟩
        · obtain ⟨u, hu, hc⟩ := List.mem_flatten.1 hc
          obtain ⟨_, k2, k3⟩ := g2 u hu
          exact ⟨k3 c hc, fun e => k2 (e ▸ hc)⟩
      refine ⟨encodeRunes ([0x30, 0x78, 0x5f, (hexDig r).toNat, 0x3a, 0x20] ++ us.flatten) :: lines, ?_, by simp [h2], ?_, ?_⟩
      · rw [List.flatMap_cons, List.flatMap_cons, g3, h1]
      · intro l hl
        rcases List.mem_cons.1 hl with rfl | hl
        · exact Page.runes_line _ (fun h => (hsc _ h).2 rfl)
        · exact h3 l hl
      · intro i hi c hc
        cases i with
        | zero =>
          refine ⟨_, rfl, ?_, fun u hu => (isScalar_iff u).1 (hsc u hu).1, ?_⟩
          · rw [List.length_append, Page.flatten_length us (fun u hu => (g2 u hu).1), g1]
            rfl
          · have e : ([0x30, 0x78, 0x5f, (hexDig r).toNat, 0x3a, 0x20] ++ us.flatten).drop (6 + 5 * c) = us.flatten.drop (5 * c) := by
              rw [← List.drop_drop]
              rfl
            rw [e, Page.cell_at us c (by omega) (fun u hu => (g2 u hu).1)]
            exact g4 c (by omega)
        | succ i => exact h4 i (by simpa using hi) c hc
  obtain ⟨lines, h1, h2, h3, h4⟩ := key (List.range 16) (fun r hr => List.mem_range.1 hr)
  refine ⟨b!"      0x0_ 0x1_ 0x2_ 0x3_ 0x4_ 0x5_ 0x6_ 0x7_ " :: lines, ?_, by simp [h2], ?_, ?_⟩
  · unfold Display
    rw [h1, List.flatMap_cons]
    rfl
  · intro l hl
    rcases List.mem_cons.1 hl with rfl | hl
    · decide
    · exact h3 l hl
  · intro r hr c hc
    obtain ⟨chars, e1, e2, e3, e4⟩ := h4 r (by simpa using hr) c hc
    rw [List.getElem_range] at e4
    exact ⟨chars, e1, e2, e3, e4⟩

/-- The tables of the package have no character beyond U+FFFF. -/
theorem low_tables : ∀ k < 14, (∀ e ∈ Charset.NewDecoder (k : Nat), e.2 < 0x10000) ∧
    ∀ e ∈ Charset.NewExtDecoder (k : Nat), e.2 < 0x10000 := by decide +kernel

theorem lookup_low {m : Charset.Decoder} (h : ∀ e ∈ m, e.2 < 0x10000) (g : UInt8) (v : Nat) (e : m.lookup g = some v) :
    v < 0x10000 := by
  induction m with
  | nil => cases e
  | cons p m ih =>
    simp only [List.lookup] at e
    split at e
    · cases e; exact h p (by simp)
    · exact ih (fun q hq => h q (by simp [hq])) e

/-- C88: so it is with the tables of the package. -/
theorem C88_package (nli : Int) (g : UInt8) (v : Nat) :
    (Charset.NewDecoder nli).lookup g = some v ∨ (Charset.NewExtDecoder nli).lookup g = some v → v < 0x10000 := by
  have key : (∀ e ∈ Charset.NewDecoder nli, e.2 < 0x10000) ∧ ∀ e ∈ Charset.NewExtDecoder nli, e.2 < 0x10000 := by
    rcases nli_cases nli with ⟨k, hk, rfl⟩ | h
    · exact low_tables k hk
    · obtain ⟨h1, h2, h3, h4⟩ := newDecoder_unknown nli h
      refine ⟨?_, ?_⟩
      · first | (rw [h1]; exact (low_tables 0 (by decide)).1) | (rw [h2]; exact (low_tables 0 (by decide)).1)
      · first | (rw [h3]; exact (low_tables 0 (by decide)).2) | (rw [h4]; exact (low_tables 0 (by decide)).2)
  rintro (h | h)
  · exact lookup_low key.1 g v h
  · exact lookup_low key.2 g v h

theorem mapM_some {α β : Type} (g : α → M β) (f : α → β) : ∀ l : List α, (∀ x ∈ l, g x = .ok (f x)) → l.mapM g = .ok (l.map f)
  | [], _ => rfl
  | x :: l, h => by
    rw [List.mapM_cons, h x (by simp), mapM_some g f l (fun y hy => h y (by simp [hy]))]
    rfl

/-- C88: the command does not fail, and prints under different names the locking and the shift table of every language from
0 to 13. -/
theorem C88_command : ∃ name : Nat → List UInt8, (∀ i < 14, charsetName[i]? = some (name i)) ∧
    (∀ i < 14, ∀ j < 14, name i = name j → i = j) ∧
    main = .ok ((List.range 14).flatMap fun nli =>
      name nli ++ b!" Locking (NLI=" ++ decimal nli ++ b!")\n" ++ Display (Charset.NewDecoder nli) ++ b!"\n" ++
      (name nli ++ b!" Shift (NLI=" ++ decimal nli ++ b!")\n" ++ Display (Charset.NewExtDecoder nli) ++ b!"\n")) := by
  have hn : ∀ i < 14, charsetName[i]? = some (charsetName[i]?.getD []) := by decide
  refine ⟨fun i => charsetName[i]?.getD [], hn, by decide, ?_⟩
  unfold main
  rw [mapM_some both (l := List.range 14) (f := fun nli => charsetName[nli]?.getD [] ++ b!" Locking (NLI=" ++ decimal nli ++ b!")\n" ++
      Display (Charset.NewDecoder nli) ++ b!"\n" ++
      (charsetName[nli]?.getD [] ++ b!" Shift (NLI=" ++ decimal nli ++ b!")\n" ++ Display (Charset.NewExtDecoder nli) ++ b!"\n"))]
  · show Except.ok _ = _
    rw [List.flatMap_def]
  · intro i hi
    unfold both
    have : idx charsetName (i : Int) = .ok (charsetName[i]?.getD []) := by
      revert i
      decide
    rw [this]
    rfl

/-- Two tables that differ in one septet, and one that has a character beyond U+FFFF, whose columns are shifted: the cell has
six characters. -/
example : Display [(0, 0x40)] ≠ Display [(1, 0x40)] ∧ (cell [(0, 0x1f600)] 0).length = 6 ∧
    Entry (some 0x0915) [0x30, 0x39, 0x31, 0x35, 0x20] := by
  refine ⟨fun h => absurd ((C88_exact _ _).1 h 0 (by decide)) (by decide), by decide +kernel, ?_⟩
  simp only [Entry]
  exact ⟨_, _, _, _, 0, 9, 1, 5, rfl, by unfold LowerHex; omega, by unfold LowerHex; omega, by unfold LowerHex; omega,
    by unfold LowerHex; omega, rfl⟩

end Verif.Props
