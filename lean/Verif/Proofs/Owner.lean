import Verif.Spec.Owner
import Verif.Proofs.CollClose

/-! What is written to an array the Collector has let go of does not matter to it. -/

namespace Verif.Proofs.Coll
open Verif.Model Verif.Model.Collector Verif.Spec Verif.Proofs

/-- The Collector has let go of the array. -/
structure Gone (p : Nat) (s : State) : Prop where
  lt : p < s.heap.length
  out : ∀ k, s.pipes.lookup k ≠ some p
  tim : ∀ (i : Nat) (t : Timer), s.timers[i]? = some t → t.pipe = p → t.state = .stopped ∨ t.state = .done

/-- Result of a step of the overwritten state, given that of the state. -/
def overwritten (p : Nat) (d : List (Option Ptr)) (r : M (State × Output)) : M (State × Output) :=
  match r with
  | .ok (s, o) => .ok (overwrite s p d, o)
  | .error e => .error e

theorem overwrite_get (s : State) {p q : Nat} (d : List (Option Ptr)) (h : q ≠ p) : (overwrite s p d).heap[q]? = s.heap[q]? := by
  show (s.heap.modify p _)[q]? = _
  rw [List.getElem?_modify]
  simp [Ne.symm h]

theorem overwrite_idx (s : State) {p q : Nat} (d : List (Option Ptr)) (h : q ≠ p) :
    idx (overwrite s p d).heap (q : Int) = idx s.heap (q : Int) := by
  unfold idx
  rw [if_pos (by omega), if_pos (by omega), Int.toNat_natCast, overwrite_get s d h]

theorem modify_set {α : Type} (l : List α) (f : α → α) {p q : Nat} (x : α) (h : q ≠ p) :
    (l.modify p f).set q x = (l.set q x).modify p f := by
  apply List.ext_getElem?
  intro i
  simp only [List.getElem?_set, List.getElem?_modify, List.length_modify]
  by_cases h1 : q = i
  · subst h1
    simp only [if_true, if_neg (Ne.symm h)]
    split <;> rfl
  · rw [if_neg h1, if_neg h1]

theorem modify_snoc {α : Type} (l : List α) (f : α → α) {p : Nat} (x : α) (h : p < l.length) :
    l.modify p f ++ [x] = (l ++ [x]).modify p f := by
  apply List.ext_getElem?
  intro i
  simp only [List.getElem?_append, List.getElem?_modify, List.length_modify]
  by_cases h1 : i < l.length
  · rw [if_pos h1, if_pos h1]
  · have hp : p ≠ i := by omega
    simp only [if_neg h1, if_neg hp]
    simp

theorem overwrite_place {s : State} {p q : Nat} (d : List (Option Ptr)) (h : q ≠ p) (ptr : Ptr) (key : Bytes) (ke : Option Err) (n seq : Nat) :
    place (overwrite s p d) ptr key ke n seq q = overwritten p d (place s ptr key ke n seq q) := by
  unfold place
  rw [overwrite_idx s d h]
  cases idx s.heap (q : Int) with
  | error e => rfl
  | ok pipe =>
    rw [ok_bind, ok_bind]
    split
    · simp only
      split
      · show Except.ok _ = Except.ok _
        simp only [overwrite, modify_set _ _ _ h]
      · show (if s.timeout then _ else _) = _
        split
        · show Except.ok _ = Except.ok _
          simp only [overwrite, modify_set _ _ _ h]
        · show Except.ok _ = Except.ok _
          simp only [overwrite, modify_set _ _ _ h]
    · rfl

theorem overwrite_placeNew {s : State} {p : Nat} (d : List (Option Ptr)) (h : p < s.heap.length) (ptr : Ptr) (key : Bytes) (ke : Option Err)
    (n seq : Nat) : placeNew (overwrite s p d) ptr key ke n seq = overwritten p d (placeNew s ptr key ke n seq) := by
  unfold placeNew
  rw [← overwrite_place d (by omega)]
  have e : (overwrite s p d).heap.length = s.heap.length := by simp [overwrite]
  rw [e]
  congr 1
  simp only [overwrite]
  rw [modify_snoc _ _ _ h]

theorem overwrite_collect {s : State} {p : Nat} (d : List (Option Ptr)) (hg : Gone p s) (pdu : TPDU) :
    Collect (overwrite s p d) pdu = overwritten p d (Collect s pdu) := by
  unfold Collect
  simp only
  have e1 : (overwrite s p d).closed = s.closed := rfl
  have e2 : (overwrite s p d).pipes = s.pipes := rfl
  have e3 : (overwrite s p d).timers = s.timers := rfl
  rw [e1, e2, e3]
  split
  · rfl
  split
  · rfl
  rename_i c hc
  split
  · rfl
  split
  · rfl
  generalize pduKey pdu c.segments c.mref = kk
  obtain ⟨key, ke⟩ := kk
  simp only
  cases hl : s.pipes.lookup key with
  | none =>
    simp only
    exact overwrite_placeNew (s := { s with calls := s.calls + 1 }) d hg.lt _ _ _ _ _
  | some q =>
    have hq : q ≠ p := by rintro rfl; exact hg.out key hl
    simp only
    rw [overwrite_idx s d hq]
    cases idx s.heap (q : Int) with
    | error e => rfl
    | ok pipe =>
      rw [ok_bind, ok_bind]
      cases idx pipe.segments ((c.seqno - 1 : Nat) : Int) with
      | error e => rfl
      | ok cur =>
        rw [ok_bind, ok_bind]
        split
        · rfl
        split
        · exact overwrite_place (s := { s with calls := s.calls + 1 }) d hq _ _ _ _ _
        · rename_i tid hcl
          split
          · exact overwrite_place (s := { s with calls := s.calls + 1, timers := (stopTimer s.timers tid).2 }) d hq _ _ _ _ _
          · exact overwrite_placeNew (s := { s with calls := s.calls + 1, timers := (stopTimer s.timers tid).2 }) d hg.lt _ _ _ _ _

theorem overwrite_stopAll (heap : List Pipe) (p : Nat) (d : List (Option Ptr)) : ∀ (l : List (Bytes × Nat)) (timers : List Timer),
    stopAll (heap.modify p (fun pipe => { pipe with segments := d })) l timers = stopAll heap l timers
  | [], _ => rfl
  | (k, q) :: l, timers => by
    simp only [stopAll]
    rw [List.getElem?_modify]
    cases heap[q]? with
    | none => exact overwrite_stopAll heap p d l timers
    | some pipe =>
      by_cases hp : p = q
      · simp only [hp, if_true, Option.map_eq_map, Option.map_some]
        split <;> (subst hp; exact overwrite_stopAll heap p d l _)
      · simp only [if_neg hp, Option.map_eq_map, Option.map_some]
        split <;> exact overwrite_stopAll heap p d l _

theorem overwrite_step {s : State} {p : Nat} (d : List (Option Ptr)) (hg : Gone p s) (e : Event) :
    step (overwrite s p d) e = overwritten p d (step s e) := by
  cases e with
  | collect pdu => exact overwrite_collect d hg pdu
  | fire i =>
    show Except.ok _ = Except.ok _
    have e3 : (overwrite s p d).timers = s.timers := rfl
    unfold fire
    rw [e3]
    cases s.timers[i]? with
    | none => rfl
    | some t =>
      simp only
      split <;> rfl
  | expire i =>
    show Except.ok _ = Except.ok _
    have e3 : (overwrite s p d).timers = s.timers := rfl
    unfold expire
    rw [e3]
    cases s.timers[i]? with
    | none => rfl
    | some t =>
      simp only
      split <;> rfl
  | handle i =>
    show Except.ok (handle _ i) = Except.ok (_, (handle s i).2)
    unfold handle
    have e3 : (overwrite s p d).timers = s.timers := rfl
    have e4 : (overwrite s p d).handler = s.handler := rfl
    rw [e3, e4]
    cases ht : s.timers[i]? with
    | none => rfl
    | some t =>
      simp only
      by_cases hs : t.state = .expired
      · rw [if_pos hs, if_pos hs]
        have hp : t.pipe ≠ p := by
          intro e
          rcases hg.tim i t ht e with h | h <;> rw [hs] at h <;> cases h
        have e5 : deref (overwrite s p d) t.pipe = deref s t.pipe := by
          unfold deref; rw [overwrite_get s d hp]
        rw [e5]
        rfl
      · rw [if_neg hs, if_neg hs]
  | close =>
    show Except.ok _ = Except.ok _
    unfold Close
    have e1 : (overwrite s p d).closed = s.closed := rfl
    rw [e1]
    split
    · rfl
    · simp only [overwrite, overwrite_stopAll]

/-! What the Collector has let go of it does not take back. -/

theorem gone_place {s s' : State} {o : Output} {p q : Nat} {ptr : Ptr} {key : Bytes} {ke : Option Err} {n seq : Nat} (hq : q ≠ p)
    (hg : Gone p s) (h : place s ptr key ke n seq q = .ok (s', o)) : Gone p s' ∧ s'.heap[p]? = s.heap[p]? := by
  unfold place at h
  obtain ⟨pipe, h1, h⟩ := bind_eq_ok.1 h
  split at h
  · simp only at h
    split at h
    · cases h
      refine ⟨⟨by simpa using hg.lt, fun k hk => ?_, hg.tim⟩, List.getElem?_set_ne hq⟩
      simp only at hk
      rw [lookup_delete] at hk
      split at hk
      · cases hk
      · exact hg.out k hk
    · split at h
      · cases h
        refine ⟨⟨by simpa using hg.lt, hg.out, fun i t g1 g2 => ?_⟩, List.getElem?_set_ne hq⟩
        rcases get_snoc.1 g1 with ⟨rfl, rfl⟩ | g1
        · exact absurd g2 hq
        · exact hg.tim i t g1 g2
      · cases h
        exact ⟨⟨by simpa using hg.lt, hg.out, hg.tim⟩, List.getElem?_set_ne hq⟩
  · cases h

theorem gone_placeNew {s s' : State} {o : Output} {p : Nat} {ptr : Ptr} {key : Bytes} {ke : Option Err} {n seq : Nat}
    (hg : Gone p s) (h : placeNew s ptr key ke n seq = .ok (s', o)) : Gone p s' ∧ s'.heap[p]? = s.heap[p]? := by
  unfold placeNew at h
  have hlt := hg.lt
  have hg' : Gone p { s with
      pipes := mapSet s.pipes key s.heap.length
      heap := s.heap ++ [⟨none, List.replicate n none, 0⟩] } := by
    refine ⟨by simp; omega, fun k hk => ?_, hg.tim⟩
    simp only at hk
    rw [lookup_set] at hk
    split at hk
    · cases hk; omega
    · exact hg.out k hk
  have hne : s.heap.length ≠ p := by omega
  obtain ⟨h1, h2⟩ := gone_place hne hg' h
  refine ⟨h1, h2.trans ?_⟩
  exact List.getElem?_append_left hlt

theorem gone_stop {s : State} {p : Nat} (hg : Gone p s) (tid : Nat) : Gone p { s with timers := (stopTimer s.timers tid).2 } := by
  refine ⟨hg.lt, hg.out, fun i t g1 g2 => ?_⟩
  obtain ⟨t0, h3, h4⟩ := (stopTimer_get _ _ _ _).1 g1
  split at h4
  · left; rw [h4]
  · subst h4; exact hg.tim i t h3 g2

theorem gone_stopAll {p : Nat} (heap : List Pipe) : ∀ (l : List (Bytes × Nat)) {s : State}, Gone p s →
    Gone p { s with timers := stopAll heap l s.timers }
  | [], s, hg => hg
  | (k, q) :: l, s, hg => by
    simp only [stopAll]
    split
    · split
      · exact gone_stopAll heap l (gone_stop hg _)
      · exact gone_stopAll heap l hg
    · exact gone_stopAll heap l hg

theorem gone_collect {s s' : State} {o : Output} {p : Nat} {pdu : TPDU} (hg : Gone p s) (h : Collect s pdu = .ok (s', o)) :
    Gone p s' ∧ s'.heap[p]? = s.heap[p]? := by
  have hg1 : Gone p { s with calls := s.calls + 1 } := ⟨hg.lt, hg.out, hg.tim⟩
  unfold Collect at h
  simp only at h
  split at h
  · cases h; exact ⟨hg1, rfl⟩
  split at h
  · cases h; exact ⟨hg1, rfl⟩
  rename_i c hc
  split at h
  · cases h; exact ⟨hg1, rfl⟩
  split at h
  · cases h; exact ⟨hg1, rfl⟩
  generalize pduKey pdu c.segments c.mref = kk at h
  obtain ⟨key, ke⟩ := kk
  simp only at h
  cases hl : s.pipes.lookup key with
  | none =>
    rw [hl] at h
    have := gone_placeNew hg1 h
    exact ⟨this.1, this.2⟩
  | some q =>
    have hq : q ≠ p := by rintro rfl; exact hg.out key hl
    rw [hl] at h
    simp only at h
    obtain ⟨pipe, h1, h⟩ := bind_eq_ok.1 h
    obtain ⟨cur, _, h⟩ := bind_eq_ok.1 h
    split at h
    · cases h; exact ⟨hg1, rfl⟩
    split at h
    · have := gone_place hq hg1 h
      exact ⟨this.1, this.2⟩
    · rename_i tid hcl
      split at h
      · have := gone_place hq (gone_stop hg1 tid) h
        exact ⟨this.1, this.2⟩
      · have := gone_placeNew (gone_stop hg1 tid) h
        exact ⟨this.1, this.2⟩

theorem gone_step {s s' : State} {o : Output} {p : Nat} {e : Event} (hg : Gone p s) (h : step s e = .ok (s', o)) :
    Gone p s' ∧ s'.heap[p]? = s.heap[p]? := by
  cases e with
  | collect pdu => exact gone_collect hg h
  | fire i =>
    cases h
    unfold fire
    split
    · rename_i t ht
      split
      · rename_i ha
        refine ⟨⟨hg.lt, hg.out, fun j u g1 g2 => ?_⟩, rfl⟩
        rcases get_set.1 g1 with ⟨rfl, _, rfl⟩ | ⟨_, g1⟩
        · rcases hg.tim i t ht g2 with h | h <;> rw [ha] at h <;> cases h
        · exact hg.tim j u g1 g2
      · exact ⟨hg, rfl⟩
    · exact ⟨hg, rfl⟩
  | expire i =>
    cases h
    unfold expire
    split
    · rename_i t ht
      split
      · rename_i ha
        refine ⟨⟨hg.lt, fun k hk => ?_, fun j u g1 g2 => ?_⟩, rfl⟩
        · simp only at hk
          split at hk
          · rw [lookup_delete] at hk
            split at hk
            · cases hk
            · exact hg.out k hk
          · exact hg.out k hk
        · rcases get_set.1 g1 with ⟨rfl, _, rfl⟩ | ⟨_, g1⟩
          · rcases hg.tim i t ht g2 with h | h <;> rw [ha] at h <;> cases h
          · exact hg.tim j u g1 g2
      · exact ⟨hg, rfl⟩
    · exact ⟨hg, rfl⟩
  | handle i =>
    replace h : handle s i = (s', o) := Except.ok.inj h
    unfold handle at h
    split at h
    · rename_i t ht
      split at h
      · rename_i ha
        cases h
        refine ⟨⟨hg.lt, hg.out, fun j u g1 g2 => ?_⟩, rfl⟩
        rcases get_set.1 g1 with ⟨rfl, _, rfl⟩ | ⟨_, g1⟩
        · exact .inr rfl
        · exact hg.tim j u g1 g2
      · cases h; exact ⟨hg, rfl⟩
    · cases h; exact ⟨hg, rfl⟩
  | close =>
    cases h
    unfold Close
    split
    · exact ⟨hg, rfl⟩
    · have := gone_stopAll s.heap s.pipes hg
      exact ⟨⟨this.lt, this.out, this.tim⟩, rfl⟩

theorem overwrite_twice (s : State) (p : Nat) (d d' : List (Option Ptr)) : overwrite (overwrite s p d) p d' = overwrite s p d' := by
  unfold overwrite
  simp only [List.modify_modify_eq]
  rfl

theorem overwrite_self {s : State} {p : Nat} (h : p < s.heap.length) : overwrite s p (deref s p) = s := by
  have e : s.heap.modify p (fun pipe => { pipe with segments := deref s p }) = s.heap := by
    apply List.ext_getElem?
    intro i
    rw [List.getElem?_modify]
    by_cases hp : p = i
    · subst hp
      unfold deref
      rw [List.getElem?_eq_getElem h]
      simp
    · simp [hp]
  unfold overwrite
  rw [e]

/-- Whatever is written to an array the Collector has let go of, all that happens later is the same. -/
theorem overwrite_run {p : Nat} : ∀ (l : Writing) {s s' : State} {os : List Output} (d : List (Option Ptr)), Gone p s →
    run s l.events = .ok (s', os) →
    runWriting p (overwrite s p d) l = .ok (overwrite s' p (l.writes.getLast?.getD d), os)
  | [], s, s', os, d, _, h => by cases h; rfl
  | .inl e :: l, s, s', os, d, hg, h => by
    have he : Writing.events (.inl e :: l) = e :: Writing.events l := rfl
    have hw : Writing.writes (.inl e :: l) = Writing.writes l := rfl
    rw [he] at h
    simp only [run] at h
    simp only [runWriting]
    obtain ⟨⟨s1, o1⟩, h1, h⟩ := bind_eq_ok.1 h
    obtain ⟨⟨s2, os2⟩, h2, h⟩ := bind_eq_ok.1 h
    cases h
    rw [overwrite_step d hg, h1, hw]
    show (runWriting p (overwrite s1 p d) l >>= _) = _
    rw [overwrite_run l d (gone_step hg h1).1 h2]
    rfl
  | .inr d' :: l, s, s', os, d, hg, h => by
    have he : Writing.events (.inr d' :: l) = Writing.events l := rfl
    have hw : Writing.writes (.inr d' :: l) = d' :: Writing.writes l := rfl
    rw [he] at h
    rw [hw, List.getLast?_cons]
    simp only [runWriting, overwrite_twice]
    rw [overwrite_run l d' hg h]
    rfl

theorem gone_run {p : Nat} : ∀ (es : List Event) {s s' : State} {os : List Output}, Gone p s →
    run s es = .ok (s', os) → Gone p s' ∧ s'.heap[p]? = s.heap[p]?
  | [], s, s', os, hg, h => by cases h; exact ⟨hg, rfl⟩
  | e :: es, s, s', os, hg, h => by
    simp only [run] at h
    obtain ⟨⟨s1, o1⟩, h1, h⟩ := bind_eq_ok.1 h
    obtain ⟨⟨s2, os2⟩, h2, h⟩ := bind_eq_ok.1 h
    cases h
    obtain ⟨a, b⟩ := gone_step hg h1
    obtain ⟨a', b'⟩ := gone_run es a h2
    exact ⟨a', b'.trans b⟩

/-! From when a timer fires on, nothing is written to the array its callback holds. -/

/-- The timer `i`, the last one set for the array, has fired. -/
def Ran (i p : Nat) (s : State) : Prop :=
  (∃ pipe, s.heap[p]? = some pipe ∧ pipe.cleanup = some i) ∧
  ∃ t, s.timers[i]? = some t ∧ t.state ≠ .armed ∧ t.state ≠ .stopped ∧ t.pipe = p

theorem ran_place {s s' : State} {o : Output} {i p q : Nat} {ptr : Ptr} {key : Bytes} {ke : Option Err} {n seq : Nat} (hq : q ≠ p)
    (hr : Ran i p s) (h : place s ptr key ke n seq q = .ok (s', o)) : Ran i p s' ∧ s'.heap[p]? = s.heap[p]? := by
  obtain ⟨⟨pp, r1, r2⟩, t, r3, r4, r5⟩ := hr
  unfold place at h
  obtain ⟨pipe, h1, h⟩ := bind_eq_ok.1 h
  split at h
  · simp only at h
    split at h
    · cases h
      exact ⟨⟨⟨pp, by simp only; rw [List.getElem?_set_ne hq]; exact r1, r2⟩, t, r3, r4, r5⟩, List.getElem?_set_ne hq⟩
    · split at h
      · cases h
        exact ⟨⟨⟨pp, by simp only; rw [List.getElem?_set_ne hq]; exact r1, r2⟩, t, get_snoc.2 (.inr r3), r4, r5⟩, List.getElem?_set_ne hq⟩
      · cases h
        exact ⟨⟨⟨pp, by simp only; rw [List.getElem?_set_ne hq]; exact r1, r2⟩, t, r3, r4, r5⟩, List.getElem?_set_ne hq⟩
  · cases h

theorem ran_placeNew {s s' : State} {o : Output} {i p : Nat} {ptr : Ptr} {key : Bytes} {ke : Option Err} {n seq : Nat}
    (hr : Ran i p s) (h : placeNew s ptr key ke n seq = .ok (s', o)) : Ran i p s' ∧ s'.heap[p]? = s.heap[p]? := by
  unfold placeNew at h
  obtain ⟨⟨pp, r1, r2⟩, r3⟩ := hr
  have hlt := get_lt r1
  have hr' : Ran i p { s with
      pipes := mapSet s.pipes key s.heap.length
      heap := s.heap ++ [⟨none, List.replicate n none, 0⟩] } := ⟨⟨pp, get_snoc.2 (.inr r1), r2⟩, r3⟩
  have hne : s.heap.length ≠ p := by omega
  obtain ⟨h1, h2⟩ := ran_place hne hr' h
  refine ⟨h1, h2.trans ?_⟩
  exact List.getElem?_append_left hlt

theorem ran_stop {s : State} {i p : Nat} (hr : Ran i p s) (tid : Nat) : Ran i p { s with timers := (stopTimer s.timers tid).2 } := by
  obtain ⟨r0, t, r3, r4, r5⟩ := hr
  refine ⟨r0, t, (stopTimer_get _ _ _ _).2 ⟨t, r3, ?_⟩, r4, r5⟩
  rw [if_neg (fun h => r4 h.2)]

theorem ran_stopAll {i p : Nat} (heap : List Pipe) : ∀ (l : List (Bytes × Nat)) {s : State}, Ran i p s →
    Ran i p { s with timers := stopAll heap l s.timers }
  | [], s, hr => hr
  | (k, q) :: l, s, hr => by
    simp only [stopAll]
    split
    · split
      · exact ran_stopAll heap l (ran_stop hr _)
      · exact ran_stopAll heap l hr
    · exact ran_stopAll heap l hr

theorem ran_collect {s s' : State} {o : Output} {i p : Nat} {pdu : TPDU} (hr : Ran i p s) (h : Collect s pdu = .ok (s', o)) :
    Ran i p s' ∧ s'.heap[p]? = s.heap[p]? := by
  have hr1 : Ran i p { s with calls := s.calls + 1 } := hr
  unfold Collect at h
  simp only at h
  split at h
  · cases h; exact ⟨hr1, rfl⟩
  split at h
  · cases h; exact ⟨hr1, rfl⟩
  rename_i c hc
  split at h
  · cases h; exact ⟨hr1, rfl⟩
  split at h
  · cases h; exact ⟨hr1, rfl⟩
  generalize pduKey pdu c.segments c.mref = kk at h
  obtain ⟨key, ke⟩ := kk
  simp only at h
  cases hl : s.pipes.lookup key with
  | none =>
    rw [hl] at h
    have := ran_placeNew hr1 h
    exact ⟨this.1, this.2⟩
  | some q =>
    rw [hl] at h
    simp only at h
    obtain ⟨pipe, h1, h⟩ := bind_eq_ok.1 h
    have hp := idx_ok h1
    obtain ⟨cur, _, h⟩ := bind_eq_ok.1 h
    split at h
    · cases h; exact ⟨hr1, rfl⟩
    obtain ⟨⟨pp, r1, r2⟩, t, r3, r4, r5⟩ := id hr
    split at h
    · rename_i hcl
      have hq : q ≠ p := by
        rintro rfl
        rw [hp] at r1; cases r1
        rw [hcl] at r2; cases r2
      have := ran_place hq hr1 h
      exact ⟨this.1, this.2⟩
    · rename_i tid hcl
      split at h
      · rename_i hst
        have hq : q ≠ p := by
          rintro rfl
          rw [hp] at r1; cases r1
          rw [hcl] at r2; cases r2
          obtain ⟨t0, k1, k2⟩ := stopTimer_true hst
          rw [r3] at k1; cases k1
          exact r4 k2
        have := ran_place hq (ran_stop hr1 tid) h
        exact ⟨this.1, this.2⟩
      · have := ran_placeNew (ran_stop hr1 tid) h
        exact ⟨this.1, this.2⟩

theorem ran_set {s : State} {i p j : Nat} {u : Timer} (pipes : List (Bytes × Nat)) {st : TimerState} (hr : Ran i p s) (hu : s.timers[j]? = some u)
    (h1 : st ≠ .armed) (h2 : st ≠ .stopped) : Ran i p { s with pipes := pipes, timers := s.timers.set j { u with state := st } } := by
  obtain ⟨r0, t, r3, r4, r5⟩ := hr
  by_cases hij : j = i
  · subst hij
    rw [hu] at r3; cases r3
    exact ⟨r0, _, get_set.2 (.inl ⟨rfl, get_lt hu, rfl⟩), h1, h2, r5.2⟩
  · exact ⟨r0, t, get_set.2 (.inr ⟨hij, r3⟩), r4, r5⟩

theorem ran_step {s s' : State} {o : Output} {i p : Nat} {e : Event} (hr : Ran i p s) (h : step s e = .ok (s', o)) :
    Ran i p s' ∧ s'.heap[p]? = s.heap[p]? := by
  cases e with
  | collect pdu => exact ran_collect hr h
  | fire j =>
    cases h
    unfold fire
    split
    · rename_i t ht
      split
      · exact ⟨ran_set s.pipes hr ht (by decide) (by decide), rfl⟩
      · exact ⟨hr, rfl⟩
    · exact ⟨hr, rfl⟩
  | expire j =>
    cases h
    unfold expire
    split
    · rename_i t ht
      split
      · exact ⟨ran_set _ hr ht (by decide) (by decide), rfl⟩
      · exact ⟨hr, rfl⟩
    · exact ⟨hr, rfl⟩
  | handle j =>
    replace h : handle s j = (s', o) := Except.ok.inj h
    unfold handle at h
    split at h
    · rename_i t ht
      split at h
      · cases h
        exact ⟨ran_set s.pipes hr ht (by decide) (by decide), rfl⟩
      · cases h; exact ⟨hr, rfl⟩
    · cases h; exact ⟨hr, rfl⟩
  | close =>
    cases h
    unfold Close
    split
    · exact ⟨hr, rfl⟩
    · exact ⟨ran_stopAll s.heap s.pipes hr, rfl⟩

theorem ran_run {i p : Nat} : ∀ (es : List Event) {s s' : State} {os : List Output}, Ran i p s →
    run s es = .ok (s', os) → Ran i p s' ∧ s'.heap[p]? = s.heap[p]?
  | [], s, s', os, hr, h => by cases h; exact ⟨hr, rfl⟩
  | e :: es, s, s', os, hr, h => by
    simp only [run] at h
    obtain ⟨⟨s1, o1⟩, h1, h⟩ := bind_eq_ok.1 h
    obtain ⟨⟨s2, os2⟩, h2, h⟩ := bind_eq_ok.1 h
    cases h
    obtain ⟨a, b⟩ := ran_step hr h1
    obtain ⟨a', b'⟩ := ran_run es a h2
    exact ⟨a', b'.trans b⟩

end Verif.Proofs.Coll
