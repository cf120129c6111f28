import Verif.Props.Collector
import Verif.Spec.Refused

/-! C86: the errors of `Collect`. -/

namespace Verif.Props

open Verif.Model Verif.Model.Collector Verif.Spec Verif.Proofs Verif.Proofs.Coll

theorem pduKey_name (pdu : TPDU) (n ref : Nat) : (pduKey pdu n ref).1 = pipeName pdu n ref ∧
    (Supported pdu → (pduKey pdu n ref).2 = none) ∧ (¬ Supported pdu → (pduKey pdu n ref).2 = some (.unsupportedSmsType pdu.SmsType)) := by
  unfold pduKey pipeName peer Supported
  simp only
  by_cases h1 : pdu.SmsType = SmsSubmit
  · have : pdu.SmsType = SmsSubmit ∨ pdu.SmsType = SmsDeliver := .inl h1
    rw [if_pos h1, if_pos this, if_pos h1]
    exact ⟨rfl, fun _ => rfl, fun h => absurd this h⟩
  · by_cases h2 : pdu.SmsType = SmsDeliver
    · have : pdu.SmsType = SmsSubmit ∨ pdu.SmsType = SmsDeliver := .inr h2
      rw [if_neg h1, if_pos h2, if_pos this, if_neg h1]
      exact ⟨rfl, fun _ => rfl, fun h => absurd this h⟩
    · have : ¬ (pdu.SmsType = SmsSubmit ∨ pdu.SmsType = SmsDeliver) := not_or.2 ⟨h1, h2⟩
      rw [if_neg h1, if_neg h2, if_neg this]
      exact ⟨rfl, fun h => absurd h this, fun _ => rfl⟩

/-- What `place` does with a segment: it returns it with the others, or keeps it and returns the error of the key. -/
theorem place_result {s s' : State} {ptr : Ptr} {key : Bytes} {keyErr : Option Err} {n seq p : Nat} {o : Output}
    (hp : s.pipes.lookup key = some p) (h : place s ptr key keyErr n seq p = .ok (s', o)) :
    (∃ d, o = .returned d none ∧ some ptr ∈ d) ∨ (o = .returned [] keyErr ∧ Shown s' key (seq - 1) ptr) := by
  unfold place at h
  obtain ⟨pipe, hpipe, h⟩ := bind_eq_ok.1 h
  have hpl := idx_ok hpipe
  have hlt : p < s.heap.length := (List.getElem?_eq_some_iff.1 hpl).1
  split at h
  · rename_i hlen
    simp only at h
    have hset : (pipe.segments.set (seq - 1) (some ptr))[seq - 1]? = some (some ptr) := List.getElem?_set_self hlen
    split at h
    · cases h
      exact .inl ⟨_, rfl, List.mem_of_getElem? hset⟩
    split at h
    all_goals
      cases h
      refine .inr ⟨rfl, p, hp, ?_⟩
      unfold deref
      simp only [List.getElem?_set_self hlt, Option.map_some, Option.getD_some]
      exact hset
  · cases h

theorem placeNew_result {s s' : State} {ptr : Ptr} {key : Bytes} {keyErr : Option Err} {n seq : Nat} {o : Output}
    (h : placeNew s ptr key keyErr n seq = .ok (s', o)) :
    (∃ d, o = .returned d none ∧ some ptr ∈ d) ∨ (o = .returned [] keyErr ∧ Shown s' key (seq - 1) ptr) := by
  refine place_result ?_ h
  show (mapSet s.pipes key s.heap.length).lookup key = _
  rw [lookup_set, if_pos rfl]

/-- The ways in which a call of `Collect` can end. -/
inductive Ends (s : State) (pdu : TPDU) (s' : State) (d : List (Option Ptr)) : Option Err → Prop
  | closed : s.closed = true → s' = { s with calls := s.calls + 1 } → d = [] → Ends s pdu s' d (some .closed)
  | single : s.closed = false → ¬ MultiPart pdu → s' = { s with calls := s.calls + 1 } → d = [some ⟨s.calls, pdu⟩] → Ends s pdu s' d none
  | impossible : s.closed = false → Impossible pdu → s' = { s with calls := s.calls + 1 } → d = [] → Ends s pdu s' d (some .reassemblyInconsistency)
  | repeated : s.closed = false → Repeated s pdu → s' = { s with calls := s.calls + 1 } → d = [] → Ends s pdu s' d (some .duplicateSegment)
  | complete (n seq ref : Nat) : s.closed = false → Segment pdu n seq ref → ¬ Repeated s pdu → some ⟨s.calls, pdu⟩ ∈ d → Ends s pdu s' d none
  | kept (n seq ref : Nat) (err : Option Err) : s.closed = false → Segment pdu n seq ref → ¬ Repeated s pdu → d = [] →
      Shown s' (pipeName pdu n ref) (seq - 1) ⟨s.calls, pdu⟩ → (Supported pdu → err = none) →
      (¬ Supported pdu → err = some (.unsupportedSmsType pdu.SmsType)) → Ends s pdu s' d err

theorem segment_unique {pdu : TPDU} {n seq ref n' seq' ref' : Nat} (h : Segment pdu n seq ref) (h' : Segment pdu n' seq' ref') :
    n = n' ∧ seq = seq' ∧ ref = ref' := by
  have := h.info.symm.trans h'.info
  cases this
  exact ⟨rfl, rfl, rfl⟩

theorem collect_ends {s s' : State} {pdu : TPDU} {d : List (Option Ptr)} {err : Option Err}
    (h : Collect s pdu = .ok (s', .returned d err)) : Ends s pdu s' d err := by
  unfold Collect at h
  simp only at h
  split at h
  · rename_i hc
    cases h
    exact .closed hc rfl rfl
  rename_i hc
  have hc : s.closed = false := by simpa using hc
  split at h
  · rename_i hci
    cases h
    refine .single hc ?_ rfl rfl
    rintro ⟨c, h1, _⟩
    rw [hci] at h1; cases h1
  rename_i ci hci
  split at h
  · rename_i hn
    cases h
    refine .single hc ?_ rfl rfl
    rintro ⟨c, h1, h2⟩
    rw [hci] at h1; cases h1
    omega
  rename_i hn
  split at h
  · rename_i hseq
    cases h
    exact .impossible hc ⟨ci, hci, by omega, hseq⟩ rfl rfl
  rename_i hseq
  have hseg : Segment pdu ci.segments ci.seqno ci.mref := ⟨by rw [hci], by omega, by omega, by omega⟩
  obtain ⟨k1, k2, k3⟩ := pduKey_name pdu ci.segments ci.mref
  -- what follows once the segment is put in its place
  have fin : ¬ Repeated s pdu → ((∃ d', Output.returned d err = .returned d' none ∧ some ⟨s.calls, pdu⟩ ∈ d') ∨
      (Output.returned d err = .returned [] (pduKey pdu ci.segments ci.mref).2 ∧
        Shown s' (pduKey pdu ci.segments ci.mref).1 (ci.seqno - 1) ⟨s.calls, pdu⟩)) → Ends s pdu s' d err := by
    rintro hr (⟨d', e, hm⟩ | ⟨e, hs⟩)
    · cases e
      exact .complete _ _ _ hc hseg hr hm
    · rw [k1] at hs
      cases e
      exact .kept _ _ _ _ hc hseg hr rfl hs k2 k3
  split at h
  · rename_i hl
    refine fin ?_ (placeNew_result h)
    rintro ⟨n', seq', ref', ptr, h1, p, h2, _⟩
    obtain ⟨rfl, rfl, rfl⟩ := segment_unique hseg h1
    rw [← k1] at h2
    exact absurd (hl.symm.trans h2) nofun
  · rename_i p hl
    obtain ⟨pipe, hpipe, h⟩ := bind_eq_ok.1 h
    obtain ⟨cur, hcur, h⟩ := bind_eq_ok.1 h
    have hpl := idx_ok hpipe
    have hcl := idx_ok hcur
    split at h
    · rename_i hsome
      cases h
      obtain ⟨ptr, hptr⟩ := Option.isSome_iff_exists.1 hsome
      refine .repeated hc ⟨_, _, _, ptr, hseg, p, ?_, ?_⟩ rfl rfl
      · rw [← k1]; exact hl
      · rw [deref_of hpl, hcl, hptr]
    · rename_i hnone
      have hr : ¬ Repeated s pdu := by
        rintro ⟨n', seq', ref', ptr, h1, p', h2, h3⟩
        obtain ⟨rfl, rfl, rfl⟩ := segment_unique hseg h1
        rw [← k1] at h2
        have : p = p' := Option.some_inj.1 (hl.symm.trans h2)
        subst this
        rw [deref_of hpl, hcl] at h3
        cases h3
        exact hnone rfl
      split at h
      · refine fin hr (place_result ?_ h)
        exact hl
      · split at h
        · refine fin hr (place_result ?_ h)
          exact hl
        · exact fin hr (placeNew_result h)

/-- C86: which error a call of `Collect` returns, in any state: that it is closed, that the segment number is impossible, that `Pipes`
shows another TPDU in the place of the segment, that the type is not supported — but the last only if the TPDU is none of the former
and does not complete its reassembly. -/
theorem C86_errors (s s' : State) (pdu : TPDU) (d : List (Option Ptr)) (err : Option Err) (h : Collect s pdu = .ok (s', .returned d err)) :
    (err = some .closed ↔ s.closed = true) ∧
    (err = some .reassemblyInconsistency ↔ s.closed = false ∧ Impossible pdu) ∧
    (err = some .duplicateSegment ↔ s.closed = false ∧ Repeated s pdu) ∧
    (∀ st, err = some (.unsupportedSmsType st) ↔ s.closed = false ∧ st = pdu.SmsType ∧ ¬ Supported pdu ∧
      (∃ n seq ref, Segment pdu n seq ref) ∧ ¬ Repeated s pdu ∧ d = []) ∧
    (∀ e, err = some e → d = [] ∧
      (e = .closed ∨ e = .reassemblyInconsistency ∨ e = .duplicateSegment ∨ e = .unsupportedSmsType pdu.SmsType)) := by
  have ss : ∀ {n seq ref}, Segment pdu n seq ref → ¬ Impossible pdu := by
    rintro n seq ref h1 ⟨c, h2, h3, h4⟩
    have := h1.info.symm.trans h2
    cases this
    have := h1.pos
    have := h1.le
    simp only at h4
    omega
  have sm : ∀ {n seq ref}, Segment pdu n seq ref → MultiPart pdu := fun h1 => ⟨_, h1.info, h1.multi⟩
  have im : Impossible pdu → MultiPart pdu := fun ⟨c, h1, h2, _⟩ => ⟨c, h1, h2⟩
  have rs : Repeated s pdu → ∃ n seq ref, Segment pdu n seq ref := fun ⟨n, seq, ref, _, h1, _⟩ => ⟨n, seq, ref, h1⟩
  cases collect_ends h with
  | closed h1 h2 h3 => simp [h1, h3]
  | single h1 h2 h3 h4 =>
    have n1 : ¬ Impossible pdu := fun x => h2 (im x)
    have n2 : ¬ ∃ n seq ref, Segment pdu n seq ref := fun ⟨_, _, _, x⟩ => h2 (sm x)
    have n3 : ¬ Repeated s pdu := fun x => n2 (rs x)
    simp [h1, n1, n3, h4]
  | impossible h1 h2 h3 h4 =>
    have n2 : ¬ ∃ n seq ref, Segment pdu n seq ref := fun ⟨_, _, _, x⟩ => ss x h2
    have n3 : ¬ Repeated s pdu := fun x => n2 (rs x)
    refine ⟨by simp [h1], by simp [h1, h2], by simp [n3], fun st => ⟨nofun, fun x => absurd x.2.2.2.1 n2⟩, ?_⟩
    rintro e ⟨⟩
    exact ⟨h4, .inr (.inl rfl)⟩
  | repeated h1 h2 h3 h4 =>
    obtain ⟨_, _, _, hs⟩ := rs h2
    refine ⟨by simp [h1], by simp [ss hs], by simp [h1, h2], fun st => ⟨nofun, fun x => absurd h2 x.2.2.2.2.1⟩, ?_⟩
    rintro e ⟨⟩
    exact ⟨h4, .inr (.inr (.inl rfl))⟩
  | complete n seq ref h1 h2 h3 h4 =>
    refine ⟨by simp [h1], by simp [ss h2], by simp [h3], fun st => ⟨nofun, fun x => ?_⟩, nofun⟩
    rw [x.2.2.2.2.2] at h4
    cases h4
  | kept n seq ref err h1 h2 h3 h4 h5 h6 h7 =>
    by_cases hsup : Supported pdu
    · cases h6 hsup
      exact ⟨by simp [h1], by simp [ss h2], by simp [h3], fun st => ⟨nofun, fun x => absurd hsup x.2.2.1⟩, nofun⟩
    · cases h7 hsup
      refine ⟨by simp [h1], by simp [ss h2], by simp [h3], fun st => ⟨?_, ?_⟩, ?_⟩
      · rintro ⟨⟩
        exact ⟨h1, rfl, hsup, ⟨n, seq, ref, h2⟩, h3, h4⟩
      · rintro ⟨_, rfl, _⟩; rfl
      · rintro e ⟨⟩
        exact ⟨h4, .inr (.inr (.inr rfl))⟩

/-- Every TPDU that the Collector holds came with an earlier call. -/
def Fresh (s : State) : Prop := ∀ pipe ∈ s.heap, ∀ ptr, some ptr ∈ pipe.segments → ptr.id < s.calls

theorem place_fresh {s s' : State} {pdu : TPDU} {key : Bytes} {keyErr : Option Err} {n seq p c : Nat} {o : Output}
    (hf : ∀ pipe ∈ s.heap, ∀ ptr, some ptr ∈ pipe.segments → ptr.id < c) (hs : s.calls = c + 1)
    (h : place s ⟨c, pdu⟩ key keyErr n seq p = .ok (s', o)) : Fresh s' := by
  unfold place at h
  obtain ⟨pipe, hpipe, h⟩ := bind_eq_ok.1 h
  have hpl := List.mem_of_getElem? (idx_ok hpipe)
  have key : ∀ x : Pipe, x.segments = pipe.segments.set (seq - 1) (some ⟨c, pdu⟩) → ∀ q ∈ s.heap.set p x,
      ∀ ptr, some ptr ∈ q.segments → ptr.id < c + 1 := by
    intro x hx q hq ptr hptr
    rcases List.mem_or_eq_of_mem_set hq with hq | rfl
    · have := hf q hq ptr hptr; omega
    · rw [hx] at hptr
      rcases List.mem_or_eq_of_mem_set hptr with hptr | e
      · have := hf pipe hpl ptr hptr; omega
      · cases e; exact Nat.lt_succ_self c
  split at h
  · simp only at h
    split at h
    · cases h
      intro q hq ptr hptr
      show ptr.id < s.calls
      rw [hs]
      exact key _ (by rfl) q hq ptr hptr
    split at h
    all_goals
      cases h
      intro q hq ptr hptr
      show ptr.id < s.calls
      rw [hs]
      exact key _ (by rfl) q hq ptr hptr
  · cases h

theorem placeNew_fresh {s s' : State} {pdu : TPDU} {key : Bytes} {keyErr : Option Err} {n seq c : Nat} {o : Output}
    (hf : ∀ pipe ∈ s.heap, ∀ ptr, some ptr ∈ pipe.segments → ptr.id < c) (hs : s.calls = c + 1)
    (h : placeNew s ⟨c, pdu⟩ key keyErr n seq = .ok (s', o)) : Fresh s' := by
  unfold placeNew at h
  refine place_fresh (c := c) ?_ (by exact hs) h
  intro pipe hp ptr hptr
  rcases List.mem_append.1 hp with hp | hp
  · exact hf pipe hp ptr hptr
  · rw [List.mem_singleton] at hp
    subst hp
    have := List.eq_of_mem_replicate hptr
    cases this

theorem collect_fresh {s s' : State} {pdu : TPDU} {o : Output} (hf : Fresh s) (h : Collect s pdu = .ok (s', o)) : Fresh s' := by
  have same : Fresh { s with calls := s.calls + 1 } := fun pipe hp ptr hptr => Nat.lt_succ_of_lt (hf pipe hp ptr hptr)
  unfold Collect at h
  simp only at h
  split at h
  · cases h; exact same
  split at h
  · cases h; exact same
  split at h
  · cases h; exact same
  split at h
  · cases h; exact same
  split at h
  · refine placeNew_fresh (c := s.calls) ?_ rfl h
    exact hf
  · obtain ⟨pipe, hpipe, h⟩ := bind_eq_ok.1 h
    obtain ⟨cur, hcur, h⟩ := bind_eq_ok.1 h
    split at h
    · cases h; exact same
    split at h
    · refine place_fresh (c := s.calls) ?_ rfl h
      exact hf
    · split at h
      · refine place_fresh (c := s.calls) ?_ rfl h
        exact hf
      · refine placeNew_fresh (c := s.calls) ?_ rfl h
        exact hf

theorem step_fresh {s s' : State} {e : Event} {o : Output} (hf : Fresh s) (h : step s e = .ok (s', o)) : Fresh s' := by
  cases e with
  | collect pdu => exact collect_fresh hf h
  | fire i =>
    cases h
    unfold fire
    split
    · split <;> exact hf
    · exact hf
  | expire i =>
    cases h
    unfold expire
    split
    · split <;> exact hf
    · exact hf
  | handle i =>
    simp only [step] at h
    unfold handle at h
    split at h
    · split at h <;> (cases h; exact hf)
    · cases h; exact hf
  | close =>
    cases h
    unfold Close
    split <;> exact hf

theorem run_fresh : ∀ (es : List Event) {s s' : State} {os : List Output}, Fresh s → run s es = .ok (s', os) → Fresh s' := by
  intro es
  induction es with
  | nil => intro s s' os hf h; cases h; exact hf
  | cons e es ih =>
    intro s s' os hf h
    unfold run at h
    obtain ⟨⟨s1, o⟩, h1, h⟩ := bind_eq_ok.1 h
    obtain ⟨⟨s2, os'⟩, h2, h⟩ := bind_eq_ok.1 h
    cases h
    exact ih (step_fresh hf h1) h2

theorem not_shown {s : State} (hf : Fresh s) (name : Bytes) (j : Nat) (pdu : TPDU) : ¬ Shown s name j ⟨s.calls, pdu⟩ := by
  rintro ⟨p, _, h⟩
  unfold deref at h
  cases hp : s.heap[p]? with
  | none => rw [hp] at h; simp at h
  | some pipe =>
    rw [hp] at h
    have := hf pipe (List.mem_of_getElem? hp) _ (List.mem_of_getElem? h)
    exact Nat.lt_irrefl _ this

/-- C86, for all but TPDUs of a type that is not supported: after any history, a call of `Collect` returns no error exactly if it
returns the TPDU or keeps it, and if it returns an error the Collector is as before.  Missing: the TPDUs for which `Collect` returns
`ErrUnsupportedSmsType` (`C86_counterexample`). -/
theorem C86_partial (timeout handler : Bool) (es : List Event) (os : List Output) (s s' : State) (pdu : TPDU) (d : List (Option Ptr))
    (err : Option Err) (hr : run (New timeout handler) es = .ok (s, os)) (h : Collect s pdu = .ok (s', .returned d err))
    (hn : ∀ st, err ≠ some (.unsupportedSmsType st)) :
    (err = none ↔ Accepted s s' pdu d) ∧ (err ≠ none → s' = { s with calls := s.calls + 1 }) := by
  have hf : Fresh s := run_fresh es (s := New timeout handler) (by intro _ h; cases h) hr
  have no : s' = { s with calls := s.calls + 1 } → d = [] → ¬ Accepted s s' pdu d := by
    rintro rfl rfl (hm | ⟨n, seq, ref, _, hs⟩)
    · cases hm
    · exact not_shown hf _ _ pdu hs
  cases collect_ends h with
  | closed h1 h2 h3 => exact ⟨⟨nofun, fun x => absurd x (no h2 h3)⟩, fun _ => h2⟩
  | single h1 h2 h3 h4 => exact ⟨⟨fun _ => .inl (by rw [h4]; exact List.mem_singleton.2 rfl), fun _ => rfl⟩, fun x => absurd rfl x⟩
  | impossible h1 h2 h3 h4 => exact ⟨⟨nofun, fun x => absurd x (no h3 h4)⟩, fun _ => h3⟩
  | repeated h1 h2 h3 h4 => exact ⟨⟨nofun, fun x => absurd x (no h3 h4)⟩, fun _ => h3⟩
  | complete n seq ref h1 h2 h3 h4 => exact ⟨⟨fun _ => .inl h4, fun _ => rfl⟩, fun x => absurd rfl x⟩
  | kept n seq ref err h1 h2 h3 h4 h5 h6 h7 =>
    by_cases hsup : Supported pdu
    · cases h6 hsup
      exact ⟨⟨fun _ => .inr ⟨n, seq, ref, h2, h5⟩, fun _ => rfl⟩, fun x => absurd rfl x⟩
    · exact absurd (h7 hsup) (hn _)

/-- C86, exactly: the error tells whether the TPDU was taken unless it is `ErrUnsupportedSmsType`; a TPDU with that error was
always kept. -/
theorem C86_exact (timeout handler : Bool) (es : List Event) (os : List Output) (s s' : State) (pdu : TPDU) (d : List (Option Ptr))
    (err : Option Err) (hr : run (New timeout handler) es = .ok (s, os)) (h : Collect s pdu = .ok (s', .returned d err)) :
    (err = none ↔ Accepted s s' pdu d) ↔ ∀ st, err ≠ some (.unsupportedSmsType st) := by
  refine ⟨?_, fun hn => (C86_partial timeout handler es os s s' pdu d err hr h hn).1⟩
  rintro hx st rfl
  cases collect_ends h with
  | kept n seq ref err h1 h2 h3 h4 h5 h6 h7 => exact absurd (hx.2 (.inr ⟨n, seq, ref, h2, h5⟩)) nofun

/-- A status report in two parts. -/
def refusedReport (seq : UInt8) : TPDU := { Direction := MT, FirstOctet := 0x42, UDH := [⟨0, [7, 2, seq]⟩], UD := [seq] }

/-- C86 is false: the first part of a status report gets an error, and is kept; with the second part both are returned, without an
error. -/
theorem C86_counterexample : ∃ s1 s2, run (New false false) [.collect (refusedReport 1)] = .ok (s1, [.returned [] (some (.unsupportedSmsType SmsStatusReport))]) ∧
    Accepted (New false false) s1 (refusedReport 1) [] ∧
    Collect s1 (refusedReport 2) = .ok (s2, .returned [some ⟨0, refusedReport 1⟩, some ⟨1, refusedReport 2⟩] none) := by
  refine ⟨_, _, rfl, .inr ⟨2, 1, 7, ⟨by decide, by decide, by decide, by decide⟩, ?_⟩, rfl⟩
  rw [← (pduKey_name _ _ _).1]
  exact ⟨0, rfl, rfl⟩

/-- Beside C86: each of the errors, and none, occurs. -/
example : ∃ s os, run (New true true) [.collect (exSeg 7 3 3), .collect (exSeg 7 3 3), .collect (exSeg 7 3 4), .collect (refusedReport 1),
      .collect exSingle, .close, .collect exSingle] = .ok (s, os) ∧
    os = [.returned [] none, .returned [] (some .duplicateSegment), .returned [] (some .reassemblyInconsistency),
      .returned [] (some (.unsupportedSmsType SmsStatusReport)), .returned [some ⟨4, exSingle⟩] none, .silent, .returned [] (some .closed)] :=
  ⟨_, _, rfl, rfl⟩

end Verif.Props
