import Verif.Proofs.Permitted

/-! C124: which national language tables a text is read with. -/

namespace Verif.Props
open Verif.Model Verif.Spec Verif.Proofs Verif.Proofs.Permitted

/-- C124: of the header, Decode takes the language of the last locking and of the last shift element, and the tables of
these languages are used iff there are any and the options permit them, by any of them and in any order; otherwise
the default table is used.  No TPDU is refused for its language. -/
theorem C124_tables (segs : List TPDU) (options : List CharsetOpt) :
    Model.Sms.Decode segs options = Model.Sms.Decode (segs.map (onlyTables options)) [] :=
  decodeLoop_only options segs []

/-- C124: options that permit the same of the tables that the TPDUs name give the same text or error. -/
theorem C124_same (segs : List TPDU) (options options' : List CharsetOpt)
    (h : ∀ p ∈ segs, ∀ ie ∈ p.UDH, ∀ (n : UInt8) (rest : List UInt8), ie.Data = n :: rest → 1 ≤ n.toNat → n.toNat ≤ 13 →
      (ie.ID = 25 → (permitsLocking options n.toNat ↔ permitsLocking options' n.toNat)) ∧
      (ie.ID = 24 → (permitsShift options n.toNat ↔ permitsShift options' n.toNat))) :
    Model.Sms.Decode segs options = Model.Sms.Decode segs options' := by
  rw [C124_tables, C124_tables segs options']
  congr 1
  apply List.map_congr_left
  intro p hp
  have key : ∀ (P Q : Int → Prop) [DecidablePred P] [DecidablePred Q] (iei : UInt8),
      (∀ ie ∈ p.UDH, ∀ (n : UInt8) (rest : List UInt8), ie.Data = n :: rest → 1 ≤ n.toNat → n.toNat ≤ 13 → ie.ID = iei → (P n.toNat ↔ Q n.toNat)) →
      permittedLanguage P p.UDH iei = permittedLanguage Q p.UDH iei := by
    intro P Q _ _ iei hPQ
    unfold permittedLanguage
    cases ho : (p.UDH.filter fun ie => ie.ID = iei).getLast? with
    | none => rfl
    | some ie =>
      have hm := List.mem_of_getLast? ho
      rw [List.mem_filter] at hm
      obtain ⟨i, d⟩ := ie
      cases d with
      | nil => rfl
      | cons n rest =>
        simp only
        by_cases hr : 1 ≤ n.toNat ∧ n.toNat ≤ 13
        · have := hPQ _ hm.1 n rest rfl hr.1 hr.2 (by simpa using hm.2)
          simp only [this]
        · rw [if_neg (fun c => hr ⟨c.1, c.2.1⟩), if_neg (fun c => hr ⟨c.1, c.2.1⟩)]
  unfold onlyTables
  rw [key (permitsLocking options) (permitsLocking options') 25 (fun ie hie n r h1 h2 h3 h4 => (h p hp ie hie n r h1 h2 h3).1 h4),
    key (permitsShift options) (permitsShift options') 24 (fun ie hie n r h1 h2 h3 h4 => (h p hp ie hie n r h1 h2 h3).2 h4)]

/-- C124: TPDUs that name no language are read alike with any options. -/
theorem C124_unnamed (segs : List TPDU) (h : ∀ p ∈ segs, ∀ ie ∈ p.UDH, ie.ID ≠ 24 ∧ ie.ID ≠ 25) (options : List CharsetOpt) :
    Model.Sms.Decode segs options = Model.Sms.Decode segs [] :=
  C124_same segs options [] fun p hp ie hie _ _ _ _ _ =>
    ⟨fun e => absurd e (h p hp ie hie).2, fun e => absurd e (h p hp ie hie).1⟩

/-- Not vacuous: Turkish "ğ" is read by default and if the locking table is permitted, but not if only shift tables are, or
only the table of an earlier element. -/
example : Model.Sms.Decode [{ UDH := [⟨25, [3]⟩, ⟨25, [1]⟩], UD := [0x0c] }] [] = .ok [0xc4, 0x9f] ∧
    Model.Sms.Decode [{ UDH := [⟨25, [3]⟩, ⟨25, [1]⟩], UD := [0x0c] }] [.locking [2], .locking [1]] = .ok [0xc4, 0x9f] ∧
    Model.Sms.Decode [{ UDH := [⟨25, [3]⟩, ⟨25, [1]⟩], UD := [0x0c] }] [.shift [1]] = .ok [0xc3, 0xb8] ∧
    Model.Sms.Decode [{ UDH := [⟨25, [3]⟩, ⟨25, [1]⟩], UD := [0x0c] }] [.charset [3]] = .ok [0xc3, 0xb8] := by decide +kernel

end Verif.Props
