import Verif.Spec.Permitted
import Verif.Props.StdLanguage

/-! Helper lemmas of C124. -/

namespace Verif.Proofs.Permitted
open Verif.Model Verif.Spec Verif.Proofs Verif.Props

/-- What a header says is found by the permitted language. -/
theorem nliOf_permitted (udh : UDH) (iei : UInt8) (l : List Int) (P : Int → Prop) [DecidablePred P] (h : ∀ n, 1 ≤ n → n ≤ 13 → (n ∈ l ↔ P n)) :
    ((nliOf udh iei l).getD 0 = (permittedLanguage P udh iei).toNat) ∨
    (permittedLanguage P udh iei = 0 ∧ ((nliOf udh iei l).getD 0 < 1 ∨ 13 < (nliOf udh iei l).getD 0)) := by
  unfold nliOf permittedLanguage UDH.IE
  rw [find_last]
  generalize (udh.filter fun ie => ie.ID = iei).getLast? = o
  rcases o with _ | ⟨i, _ | ⟨n, d⟩⟩
  · exact .inl rfl
  · exact .inl rfl
  · simp only
    by_cases hr : 1 ≤ n.toNat ∧ n.toNat ≤ 13
    · have hn := h n.toNat (by omega) (by omega)
      by_cases hp : P n.toNat
      · rw [if_pos (hn.2 hp), if_pos ⟨hr.1, hr.2, hp⟩]
        exact .inl rfl
      · rw [if_neg (fun c => hp (hn.1 c)), if_neg (fun c => hp c.2.2)]
        exact .inl rfl
    · rw [if_neg (fun c : 1 ≤ n.toNat ∧ n.toNat ≤ 13 ∧ P n.toNat => hr ⟨c.1, c.2.1⟩)]
      refine .inr ⟨rfl, ?_⟩
      split
      · simp only [Option.getD_some]; omega
      · simp

theorem decoder_none (n : Int) (h : n < 1 ∨ 13 < n) :
    Charset.NewDecoder n = Charset.NewDecoder 0 ∧ Charset.NewExtDecoder n = Charset.NewExtDecoder 0 := by
  by_cases h0 : n = 0
  · subst h0; exact ⟨rfl, rfl⟩
  · have := newDecoder_unknown n (by omega)
    exact ⟨this.1, this.2.2.1⟩

theorem tables_permitted (udh : UDH) (iei : UInt8) (l : List Int) (P : Int → Prop) [DecidablePred P] (h : ∀ n, 1 ≤ n → n ≤ 13 → (n ∈ l ↔ P n)) :
    Charset.NewDecoder ((nliOf udh iei l).getD 0) = Charset.NewDecoder (permittedLanguage P udh iei).toNat ∧
    Charset.NewExtDecoder ((nliOf udh iei l).getD 0) = Charset.NewExtDecoder (permittedLanguage P udh iei).toNat := by
  rcases nliOf_permitted udh iei l P h with e | ⟨e, r⟩
  · rw [e]; exact ⟨rfl, rfl⟩
  · rw [e]; exact decoder_none _ r

theorem permitted_range (P : Int → Prop) [DecidablePred P] (udh : UDH) (iei : UInt8) : (permittedLanguage P udh iei).toNat ≤ 13 := by
  unfold permittedLanguage
  split
  · split
    · rename_i h; exact h.2.1
    · exact Nat.zero_le _
  · exact Nat.zero_le _

/-- The options that `Decode` works with permit what its options do. -/
theorem permits_cfg (options : List CharsetOpt) (n : Int) :
    (n ∈ ((Model.Sms.decodeOpts options).foldl applyDecodeOption {}).locking ↔ permitsLocking options n) ∧
    (n ∈ ((Model.Sms.decodeOpts options).foldl applyDecodeOption {}).shift ↔ permitsShift options n) := by
  have h := permitted_cfg (Model.Sms.decodeOpts options) n
  rw [h.1, h.2]
  unfold Model.Sms.decodeOpts permitsLocking permitsShift
  cases options with
  | nil =>
    simp only [List.length_nil, if_true, List.mem_singleton, exists_eq_left, offersLocking, offersShift]
    simp
    omega
  | cons o os => simp

/-- A header of one element for each table. -/
theorem nliOf_only (a b : UInt8) (iei : UInt8) (h : iei = 25 ∨ iei = 24) :
    nliOf [⟨25, [a]⟩, ⟨24, [b]⟩] iei allNlis =
      (if 1 ≤ (if iei = 25 then a else b).toNat ∧ (if iei = 25 then a else b).toNat ≤ 13 then
        some ((if iei = 25 then a else b).toNat : Int) else none) := by
  rcases h with rfl | rfl
  · unfold nliOf UDH.IE
    simp [mem_allNlis]
  · unfold nliOf UDH.IE
    simp [mem_allNlis]

theorem decodeUserData_only (ud : Bytes) (p : TPDU) (alpha : Alphabet) (options : List CharsetOpt) :
    DecodeUserData ud p.UDH alpha (Model.Sms.decodeOpts options) = DecodeUserData ud (onlyTables options p).UDH alpha [.all] := by
  by_cases h1 : alpha = .ucs2
  · subst h1; rfl
  by_cases h2 : alpha = .a8Bit
  · subst h2; rfl
  obtain ⟨t, e1, e2⟩ := Sms.decodeUserData_7bit ud p.UDH alpha (Model.Sms.decodeOpts options) h1 h2
  obtain ⟨u, f1, f2⟩ := Sms.decodeUserData_7bit ud (onlyTables options p).UDH alpha [.all] h1 h2
  rw [(tables_permitted p.UDH lockingIEI _ (permitsLocking options) (fun n _ _ => (permits_cfg options n).1)).1,
    (tables_permitted p.UDH shiftIEI _ (permitsShift options) (fun n _ _ => (permits_cfg options n).2)).2] at e2
  have g1 : ∀ (P : Int → Prop) [DecidablePred P] (iei : UInt8),
      (if 1 ≤ (permittedLanguage P p.UDH iei).toNat ∧ (permittedLanguage P p.UDH iei).toNat ≤ 13 then
        some ((permittedLanguage P p.UDH iei).toNat : Int) else none).getD 0 = (permittedLanguage P p.UDH iei).toNat := by
    intro P _ iei
    have := permitted_range P p.UDH iei
    split
    · rfl
    · simp only [Option.getD_none]; omega
  have x1 := nliOf_only (permittedLanguage (permitsLocking options) p.UDH 25) (permittedLanguage (permitsShift options) p.UDH 24) 25 (.inl rfl)
  have x2 := nliOf_only (permittedLanguage (permitsLocking options) p.UDH 25) (permittedLanguage (permitsShift options) p.UDH 24) 24 (.inr rfl)
  simp only [if_true] at x1
  simp only [show ¬ ((24 : UInt8) = 25) from by decide, if_false] at x2
  have y1 : (nliOf (onlyTables options p).UDH lockingIEI (([CharsetOpt.all].foldl applyDecodeOption {}).locking)).getD 0 =
      (permittedLanguage (permitsLocking options) p.UDH 25).toNat := by
    have : (nliOf (onlyTables options p).UDH lockingIEI (([CharsetOpt.all].foldl applyDecodeOption {}).locking)) =
      nliOf [⟨25, [permittedLanguage (permitsLocking options) p.UDH 25]⟩, ⟨24, [permittedLanguage (permitsShift options) p.UDH 24]⟩] 25 allNlis := rfl
    rw [this, x1]
    exact g1 _ _
  have y2 : (nliOf (onlyTables options p).UDH shiftIEI (([CharsetOpt.all].foldl applyDecodeOption {}).shift)).getD 0 =
      (permittedLanguage (permitsShift options) p.UDH 24).toNat := by
    have : (nliOf (onlyTables options p).UDH shiftIEI (([CharsetOpt.all].foldl applyDecodeOption {}).shift)) =
      nliOf [⟨25, [permittedLanguage (permitsLocking options) p.UDH 25]⟩, ⟨24, [permittedLanguage (permitsShift options) p.UDH 24]⟩] 24 allNlis := rfl
    rw [this, x2]
    exact g1 _ _
  rw [y1, y2] at f2
  have := Except.ok.inj (e2.symm.trans f2)
  rw [e1, f1, this]

theorem decodeLoop_only (options : List CharsetOpt) (segs : List TPDU) : ∀ d,
    Model.Sms.decodeLoop (Model.Sms.decodeOpts options) segs d =
      Model.Sms.decodeLoop [.all] (segs.map (onlyTables options)) d := by
  induction segs with
  | nil => intro d; rfl
  | cons p segs ih =>
    intro d
    rw [List.map_cons, Model.Sms.decodeLoop, Model.Sms.decodeLoop]
    simp only [decodeUserData_only _ p _ options, ih]
    rfl

end Verif.Proofs.Permitted
