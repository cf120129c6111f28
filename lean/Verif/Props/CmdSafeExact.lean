import Verif.Props.CmdSafe
import Verif.Proofs.Stray

/-! C67: on exactly which arguments smsdeliver panics. -/

namespace Verif.Props
open Verif.Model Verif.Model.Collector Verif.Spec Verif.Proofs Verif.Proofs.Coll

/-- The TPDUs that the arguments of smsdeliver spell.  An argument that does not spell octets ends the program,
one that spells octets that are not a TPDU is passed over. -/
inductive Fed (pm : Bool) : List (List UInt8) → List TPDU → Prop where
  | nil : Fed pm [] []
  | fatal {a args} : (∀ b, ¬ Argument pm a b) → Fed pm (a :: args) []
  | skip {a b args ts} : Argument pm a b → (∀ t, Sms.Unmarshal b MT ≠ .ok t) → Fed pm args ts → Fed pm (a :: args) ts
  | tpdu {a b t args ts} : Argument pm a b → Sms.Unmarshal b MT = .ok t → Fed pm args ts → Fed pm (a :: args) (t :: ts)

/-! Helpers. -/

theorem report_hole (d : List (Option Ptr)) (err : Option Err) (h : none ∈ d) (he : ∀ ptr, some ptr ∈ d → EvenUcs2 ptr.pdu) :
    SmsDeliver.report d err = .error (.panic .nil) := by
  have hne : d ≠ [] := by rintro rfl; simp at h
  have hsub : ∀ x ∈ (d.takeWhile Option.isSome).filterMap (fun p => p.map (·.pdu)), EvenUcs2 x := by
    intro x hx
    obtain ⟨o, ho, hox⟩ := List.mem_filterMap.1 hx
    cases o with
    | none => cases hox
    | some ptr =>
      cases hox
      exact he ptr ((List.takeWhile_sublist _).subset ho)
  have hlen : ((d.takeWhile Option.isSome).filterMap (fun p => p.map (·.pdu))).length ≠ d.length := by
    intro hl
    have h1 := List.length_filterMap_le (fun p : Option Ptr => p.map (·.pdu)) (d.takeWhile Option.isSome)
    have h2 := (List.takeWhile_sublist (p := Option.isSome) (l := d)).length_le
    have h3 : d.takeWhile Option.isSome = d := (List.takeWhile_sublist _).eq_of_length (by omega)
    have h4 : none ∈ d.takeWhile Option.isSome := by rw [h3]; exact h
    have h5 : ∀ (l : List (Option Ptr)), ∀ x ∈ l.takeWhile Option.isSome, x.isSome = true := by
      intro l
      induction l with
      | nil => simp
      | cons y l ih =>
        intro x hx
        cases y with
        | none => simp at hx
        | some y =>
          simp only [Option.isSome_some, List.takeWhile_cons_of_pos, List.mem_cons] at hx
          rcases hx with rfl | hx
          · rfl
          · exact ih x hx
    cases h5 d none h4
  have hdec : SmsDeliver.decodePtrs d = .error (.panic .nil) := by
    unfold SmsDeliver.decodePtrs
    simp only
    rw [if_neg hlen]
    generalize (d.takeWhile Option.isSome).filterMap (fun p => p.map (·.pdu)) = segs at *
    cases hh : Sms.Decode segs [] with
    | ok text => rfl
    | error f =>
      rcases C46_errors _ _ f hh with ⟨_, x, hx, hxa, hxo⟩ | ⟨_, _, _, rfl, _⟩
      · have := hsub x hx hxa
        omega
      · rfl
  unfold SmsDeliver.report
  simp only
  rw [if_neg hne, hdec]

theorem loop_exact (pm : Bool) (args : List (List UInt8)) (ts : List TPDU) (hf : Fed pm args ts) :
    ∀ (s : State) (w : Stray), Untimed s w →
      if Crashes w (ts.filterMap strayPart) then ∃ k, SmsDeliver.loop pm s args = .error (.panic k)
      else ∃ lines, SmsDeliver.loop pm s args = .ok lines := by
  induction hf with
  | nil => intro s w _; rw [if_neg (by cases w <;> simp [Crashes])]; exact ⟨_, rfl⟩
  | @fatal a args h =>
    intro s w _
    rw [if_neg (by cases w <;> simp [Crashes]), SmsDeliver.loop]
    rcases octets_cases pm a with ⟨e, he⟩ | ⟨b, hb⟩
    · rw [he]; exact ⟨_, rfl⟩
    · exact absurd (octets_argument hb) (h b)
  | @skip a b args ts ha hu _ ih =>
    intro s w hg
    have := ih s w hg
    rw [SmsDeliver.loop, argument_octets ha]
    simp only
    rcases C28_sms_no_panic b MT with ⟨t, ht⟩ | ⟨e, he⟩
    · exact absurd ht (hu t)
    rw [he]
    simp only
    split at this
    · rename_i hcr
      rw [if_pos hcr]
      obtain ⟨k, hk⟩ := this
      exact ⟨k, by rw [hk]; rfl⟩
    · rename_i hcr
      rw [if_neg hcr]
      obtain ⟨k, hk⟩ := this
      exact ⟨_, by rw [hk]; rfl⟩
  | @tpdu a b t args ts ha hu _ ih =>
    intro s w hg
    have he := unmarshal_even _ _ _ hu
    -- the rest, after a report that does not panic
    have next : ∀ (s' : State) (w' : Stray) (d : List (Option Ptr)) (err : Option Err), Untimed s' w' → (∀ x ∈ d, x ≠ none) →
        Collect s t = .ok (s', .returned d err) →
        (Crashes w ((t :: ts).filterMap strayPart) ↔ Crashes w' (ts.filterMap strayPart)) →
        if Crashes w ((t :: ts).filterMap strayPart) then ∃ k, SmsDeliver.loop pm s (a :: args) = .error (.panic k)
        else ∃ lines, SmsDeliver.loop pm s (a :: args) = .ok lines := by
      intro s' w' d err hg' hd hc hiff
      have := ih s' w' hg'
      obtain ⟨l1, h1⟩ := report_safe d err hd
      rw [SmsDeliver.loop, argument_octets ha]
      simp only [hu, hc, ok_bind, h1]
      split at this
      · rename_i hcr
        rw [if_pos (hiff.2 hcr)]
        obtain ⟨k, hk⟩ := this
        exact ⟨k, by rw [hk]; rfl⟩
      · rename_i hcr
        rw [if_neg (fun h => hcr (hiff.1 h))]
        obtain ⟨k, hk⟩ := this
        exact ⟨_, by rw [hk]; rfl⟩
    cases hp : strayPart t with
    | none =>
      obtain ⟨s', d, err, hc, hd, hg'⟩ := collect_none hg t he hp
      refine next s' w d err hg' hd hc ?_
      rw [List.filterMap_cons_none hp]
    | some x =>
      obtain ⟨n, seq⟩ := x
      have hfm : (t :: ts).filterMap strayPart = (n, seq) :: ts.filterMap strayPart := List.filterMap_cons_some hp
      cases w with
      | none =>
        obtain ⟨s', err, hc, hg'⟩ := collect_first hg t he hp
        refine next s' _ [] err hg' (by simp) hc ?_
        rw [hfm, Crashes]
      | some y =>
        obtain ⟨l, got⟩ := y
        obtain ⟨c1, c2, c3, c4⟩ := collect_later hg t he hp
        by_cases hl : l < seq
        · rw [hfm, if_pos (by rw [Crashes, if_pos hl]; trivial), SmsDeliver.loop, argument_octets ha]
          simp only [hu, c1 hl]
          exact ⟨_, rfl⟩
        by_cases hm : seq ∈ got
        · obtain ⟨s', err, hc, hg'⟩ := c2 hl hm
          refine next s' _ [] err hg' (by simp) hc ?_
          rw [hfm, Crashes, if_neg hl, if_pos hm]
        by_cases hn : got.length + 1 = n
        · obtain ⟨s', d, hc, hg', d1, d2⟩ := c4 hl hm hn
          by_cases hnl : n = l
          · refine next s' _ d none hg' (d1 hnl) hc ?_
            rw [hfm, Crashes, if_neg hl, if_neg hm, if_pos hn, if_pos hnl]
          · rw [hfm, if_pos (by rw [Crashes, if_neg hl, if_neg hm, if_pos hn, if_neg hnl]; trivial), SmsDeliver.loop, argument_octets ha]
            simp only [hu, hc, ok_bind]
            rw [report_hole d none (d2 hnl).1 (d2 hnl).2]
            exact ⟨_, rfl⟩
        · obtain ⟨s', err, hc, hg'⟩ := c3 hl hm hn
          refine next s' _ [] err hg' (by simp) hc ?_
          rw [hfm, Crashes, if_neg hl, if_neg hm, if_neg hn]

/-- C67: arguments always spell TPDUs in the sense of `Fed`. -/
theorem C67_fed (pm : Bool) (args : List (List UInt8)) : ∃ ts, Fed pm args ts := by
  induction args with
  | nil => exact ⟨[], .nil⟩
  | cons a args ih =>
    obtain ⟨ts, ih⟩ := ih
    rcases octets_cases pm a with ⟨e, he⟩ | ⟨b, hb⟩
    · refine ⟨[], .fatal ?_⟩
      intro b hb
      rw [argument_octets hb] at he
      cases he
    · rcases C28_sms_no_panic b MT with ⟨t, ht⟩ | ⟨e, he⟩
      · exact ⟨t :: ts, .tpdu (octets_argument hb) ht ih⟩
      · exact ⟨ts, .skip (octets_argument hb) (by intro t ht; rw [ht] at he; cases he) ih⟩

/-- C67, in full for smsdeliver: it panics exactly on the arguments whose TPDUs of other types than SMS-DELIVER
collide, in the one place where all their segments are kept; on all others it prints its report. -/
theorem C67_exact (pm : Bool) (args : List (List UInt8)) (ts : List TPDU) (h : Fed pm args ts) :
    ((∃ k, SmsDeliver.main pm args = .error (.panic k)) ↔ Crashes none (ts.filterMap strayPart)) ∧
    ((∃ lines, SmsDeliver.main pm args = .ok lines) ↔ ¬ Crashes none (ts.filterMap strayPart)) := by
  have := loop_exact pm args ts h _ _ good_new
  unfold SmsDeliver.main
  split at this
  · rename_i hc
    obtain ⟨k, hk⟩ := this
    rw [hk]
    refine ⟨⟨fun _ => hc, fun _ => ⟨k, rfl⟩⟩, ⟨?_, fun h => absurd hc h⟩⟩
    rintro ⟨_, h⟩; cases h
  · rename_i hc
    obtain ⟨k, hk⟩ := this
    rw [hk]
    refine ⟨⟨?_, fun h => absurd h hc⟩, ⟨fun _ => hc, fun _ => ⟨k, rfl⟩⟩⟩
    rintro ⟨_, h⟩; cases h

/-- Beside `C67_exact`: complete sets, also of the segments of different messages, do no harm; neither do
repetitions.  A segment number beyond those first announced does, and so does the announcement of fewer. -/
example : ¬ Crashes none [(2, 1), (2, 2), (3, 2), (3, 1), (3, 1), (3, 3)] ∧ ¬ Crashes none [(3, 1), (2, 1)] ∧
    Crashes none [(2, 1), (3, 3)] ∧ Crashes none [(3, 1), (2, 2)] ∧ ¬ Crashes none [(2, 1), (3, 2), (2, 1), (5, 2)] ∧
    Crashes none [(2, 1), (3, 2), (3, 3)] := by decide

/-- Beside `C67_exact`: the segments of SMS-SUBMIT-REPORTs of two messages; those complete a message together. -/
example : (Sms.Unmarshal [0x41, 0, 6, 0x11, 0x10, 0x10, 0, 0, 0, 0, 4, 7, 5, 0, 3, 1, 2, 1, 0x41] MT).toOption.bind strayPart = some (2, 1) ∧
    SmsDeliver.main false [exReportHex 1 2 1, exReportHex 2 2 2] =
      .ok [.collectError (.unsupportedSmsType SmsSubmitReport), .message [] [0x41, 0x41]] := by
  constructor <;> decide +kernel

end Verif.Props
