import Verif.Spec.Ignored

namespace Verif.Proofs.Ignored
open Verif.Model Verif.Model.Collector Verif.Spec

/-! ### The header -/

theorem find_filter {α : Type} (p q : α → Bool) (h : ∀ x, q x = true → p x = true) (l : List α) :
    (l.filter p).find? q = l.find? q := by
  induction l with
  | nil => rfl
  | cons x l ih =>
    by_cases hp : p x = true
    · rw [List.filter_cons_of_pos hp, List.find?_cons, List.find?_cons, ih]
    · rw [List.filter_cons_of_neg hp, ih, List.find?_cons]
      have : q x = false := by
        cases hq : q x
        · rfl
        · exact absurd (h x hq) hp
      rw [this]

theorem ie_same {u u' : UDH} (h : u.filter Heeded = u'.filter Heeded) (id : UInt8) (hid : id = 0 ∨ id = 8 ∨ id = 24 ∨ id = 25) :
    UDH.IE u id = UDH.IE u' id := by
  have key : ∀ v : UDH, UDH.IE v id = UDH.IE (v.filter Heeded) id := by
    intro v
    unfold UDH.IE
    rw [← List.filter_reverse, find_filter]
    intro x hx
    have hx : x.ID = id := by simpa using hx
    unfold Heeded
    rcases hid with rfl | rfl | rfl | rfl <;> simp [hx]
  rw [key u, key u', h]

theorem concat_eq (u : UDH) : UDH.ConcatInfo u = (match UDH.ConcatInfo8 u with | some c => some c | none => UDH.ConcatInfo16 u) := by
  unfold UDH.ConcatInfo
  cases u with
  | nil => rfl
  | cons x u => rfl

theorem concat_same {u u' : UDH} (h : u.filter Heeded = u'.filter Heeded) : UDH.ConcatInfo u = UDH.ConcatInfo u' := by
  rw [concat_eq, concat_eq]
  unfold UDH.ConcatInfo8 UDH.ConcatInfo16
  rw [ie_same h 0 (by simp), ie_same h 8 (by simp)]

theorem userData_same {u u' : UDH} (h : u.filter Heeded = u'.filter Heeded) (ud : Bytes) (a : Alphabet) (o : List CharsetOpt) :
    DecodeUserData ud u a o = DecodeUserData ud u' a o := by
  have h1 : ∀ p, nliOf u lockingIEI p = nliOf u' lockingIEI p := by
    intro p; unfold nliOf; rw [ie_same h lockingIEI (by decide)]
  have h2 : ∀ p, nliOf u shiftIEI p = nliOf u' shiftIEI p := by
    intro p; unfold nliOf; rw [ie_same h shiftIEI (by decide)]
  unfold DecodeUserData
  simp only [h1, h2]

theorem decodeLoop_same (opts : List CharsetOpt) {l l' : List TPDU} (h : Both SameUse l l') :
    ∀ d, Model.Sms.decodeLoop opts l d = Model.Sms.decodeLoop opts l' d := by
  induction h with
  | nil => intro d; rfl
  | cons h1 _ ih =>
    intro d
    rw [Model.Sms.decodeLoop, Model.Sms.decodeLoop]
    simp only [h1.alphabet, h1.ud, userData_same h1.udh, ih]

theorem completeLoop_same (n r : Nat) {l l' : List TPDU} (h : Both SameUse l l') :
    ∀ i, Model.Sms.completeLoop n r l i = Model.Sms.completeLoop n r l' i := by
  induction h with
  | nil => intro i; rfl
  | cons h1 _ ih =>
    intro i
    rw [Model.Sms.completeLoop, Model.Sms.completeLoop]
    unfold TPDU.ConcatInfo
    simp only [concat_same h1.udh, ih]

theorem both_length {α β : Type} {R : α → β → Prop} {l : List α} {l' : List β} (h : Both R l l') : l.length = l'.length := by
  induction h with
  | nil => rfl
  | cons _ _ ih => simp [ih]

/-! ### The Collector -/

/-- A number for each alphabet. -/
def code (a : Alphabet) : UInt8 :=
  match a with
  | .a7Bit => 0
  | .a8Bit => 1
  | .ucs2 => 2
  | .reserved => 3

theorem code_inj {a b : Alphabet} (h : code a = code b) : a = b := by
  cases a <;> cases b <;> first | rfl | exact absurd h (by decide)

/-- What matters, kept in a TPDU. -/
def essence (t : TPDU) : TPDU :=
  { MR := t.SmsType, OA := t.OA, DA := t.DA, PID := code t.Alphabet.1, UD := t.UD, UDH := t.UDH.filter Heeded }

theorem essence_iff (t t' : TPDU) : essence t = essence t' ↔ SameUse t t' := by
  unfold essence
  constructor
  · intro h
    injection h
    rename_i h1 h2 h3 h4 h5 h6 h7 h8 h9 h10 h11 h12 h13 h14 h15 h16 h17 h18
    constructor <;> first | assumption | (apply code_inj; assumption)
  · intro h
    rw [h.type, h.oa, h.da, h.alphabet, h.ud, h.udh]

def ptrE (p : Ptr) : Ptr := ⟨p.id, essence p.pdu⟩
def slotsE (d : List (Option Ptr)) : List (Option Ptr) := d.map (·.map ptrE)
def pipeE (p : Pipe) : Pipe := { p with segments := slotsE p.segments }
def stateE (s : State) : State := { s with heap := s.heap.map pipeE }
def outE : Output → Output
  | .silent => .silent
  | .returned d e => .returned (slotsE d) e
  | .handled d => .handled (slotsE d)
def bothE (r : State × Output) : State × Output := (stateE r.1, outE r.2)

theorem idx_map {α β : Type} (f : α → β) (l : List α) (i : Int) : idx (l.map f) i = (idx l i).map f := by
  unfold idx
  by_cases h : 0 ≤ i
  · rw [if_pos h, if_pos h, List.getElem?_map]
    cases l[i.toNat]? <;> rfl
  · rw [if_neg h, if_neg h]; rfl

theorem map_set {α β : Type} (f : α → β) (l : List α) (i : Nat) (x : α) : (l.set i x).map f = (l.map f).set i (f x) := by
  simp [List.map_set]

theorem place_E (s : State) (ptr : Ptr) (key : Bytes) (ke : Option Err) (n q p : Nat) :
    place (stateE s) (ptrE ptr) key ke n q p = (place s ptr key ke n q p).map bothE := by
  unfold place
  have e : idx (stateE s).heap p = (idx s.heap p).map pipeE := idx_map pipeE s.heap p
  rw [e]
  cases idx s.heap p with
  | error f => rfl
  | ok pipe =>
    show (if q - 1 < (slotsE pipe.segments).length then _ else _) = Except.map _ (if q - 1 < pipe.segments.length then _ else _)
    have hl : (slotsE pipe.segments).length = pipe.segments.length := by simp [slotsE]
    rw [hl]
    by_cases h1 : q - 1 < pipe.segments.length
    · rw [if_pos h1, if_pos h1]
      have hset : (slotsE pipe.segments).set (q - 1) (some (ptrE ptr)) = slotsE (pipe.segments.set (q - 1) (some ptr)) := by
        simp [slotsE, List.map_set]
      simp only [pipeE, hset]
      by_cases h2 : pipe.frags + 1 = n
      · rw [if_pos h2, if_pos h2]
        simp only [stateE, Except.map, bothE, outE, List.map_set, pipeE, pure, Except.pure]
      · rw [if_neg h2, if_neg h2]
        by_cases h3 : s.timeout = true
        · have h3' : (stateE s).timeout = true := h3
          rw [if_pos h3, if_pos h3']
          simp only [stateE, Except.map, bothE, outE, List.map_set, pipeE, pure, Except.pure, slotsE, List.map_nil]
        · have h3' : ¬ (stateE s).timeout = true := h3
          rw [if_neg h3, if_neg h3']
          simp only [stateE, Except.map, bothE, outE, List.map_set, pipeE, pure, Except.pure, slotsE, List.map_nil]
    · rw [if_neg h1, if_neg h1]; rfl

theorem placeNew_E (s : State) (ptr : Ptr) (key : Bytes) (ke : Option Err) (n q : Nat) :
    placeNew (stateE s) (ptrE ptr) key ke n q = (placeNew s ptr key ke n q).map bothE := by
  unfold placeNew
  rw [← place_E]
  congr 1
  · simp [stateE, pipeE, slotsE]
  · simp [stateE]

/-- `Collect` once the information on concatenation and the key are known. -/
def collectWith (s : State) (ptr : Ptr) (ci : Option UDH.Concat) (k : Nat → Nat → Bytes × Option Err) : M (State × Output) :=
  if s.closed then .ok (s, .returned [] (some .closed))
  else match ci with
    | none => .ok (s, .returned [some ptr] none)
    | some ci =>
      if ci.segments < 2 then .ok (s, .returned [some ptr] none)
      else if ci.seqno < 1 ∨ ci.seqno > ci.segments then
        .ok (s, .returned [] (some .reassemblyInconsistency))
      else
        let (key, keyErr) := k ci.segments ci.mref
        match s.pipes.lookup key with
        | none => placeNew s ptr key keyErr ci.segments ci.seqno
        | some p => do
          let pipe ← idx s.heap p
          let cur ← idx pipe.segments (ci.seqno - 1 : Nat)
          if cur.isSome then return (s, .returned [] (some .duplicateSegment))
          else match pipe.cleanup with
            | none => place s ptr key keyErr ci.segments ci.seqno p
            | some tid =>
              let (stopped, timers) := stopTimer s.timers tid
              let s := { s with timers := timers }
              if stopped then place s ptr key keyErr ci.segments ci.seqno p
              else placeNew s ptr key keyErr ci.segments ci.seqno

theorem collect_with (s : State) (t : TPDU) :
    Collect s t = collectWith { s with calls := s.calls + 1 } ⟨s.calls, t⟩ t.ConcatInfo (pduKey t) := rfl

theorem with_E (s : State) (ptr : Ptr) (ci : Option UDH.Concat) (k : Nat → Nat → Bytes × Option Err) :
    collectWith (stateE s) (ptrE ptr) ci k = (collectWith s ptr ci k).map bothE := by
  unfold collectWith
  have hc : (stateE s).closed = s.closed := rfl
  rw [hc]
  by_cases h1 : s.closed = true
  · rw [if_pos h1, if_pos h1]; rfl
  · rw [if_neg h1, if_neg h1]
    cases ci with
    | none => rfl
    | some ci =>
      simp only
      by_cases h2 : ci.segments < 2
      · rw [if_pos h2, if_pos h2]; rfl
      · rw [if_neg h2, if_neg h2]
        by_cases h3 : ci.seqno < 1 ∨ ci.seqno > ci.segments
        · rw [if_pos h3, if_pos h3]; rfl
        · rw [if_neg h3, if_neg h3]
          have hp : (stateE s).pipes = s.pipes := rfl
          rw [hp]
          cases s.pipes.lookup (k ci.segments ci.mref).1 with
          | none => exact placeNew_E _ _ _ _ _ _
          | some p =>
            simp only
            have e : idx (stateE s).heap p = (idx s.heap p).map pipeE := idx_map pipeE s.heap p
            rw [e]
            cases idx s.heap p with
            | error f => rfl
            | ok pipe =>
              show (idx (slotsE pipe.segments) _ >>= _) = Except.map _ (idx pipe.segments _ >>= _)
              have e2 : idx (slotsE pipe.segments) (ci.seqno - 1 : Nat) = (idx pipe.segments (ci.seqno - 1 : Nat)).map (·.map ptrE) :=
                idx_map _ _ _
              rw [e2]
              cases idx pipe.segments (ci.seqno - 1 : Nat) with
              | error f => rfl
              | ok cur =>
                show (if (cur.map ptrE).isSome then _ else _) = Except.map _ (if cur.isSome then _ else _)
                rw [Option.isSome_map]
                by_cases h4 : cur.isSome = true
                · rw [if_pos h4, if_pos h4]; rfl
                · rw [if_neg h4, if_neg h4]
                  show (match pipe.cleanup with | none => _ | some tid => _) = Except.map _ (match pipe.cleanup with | none => _ | some tid => _)
                  cases pipe.cleanup with
                  | none => exact place_E _ _ _ _ _ _ _
                  | some tid =>
                    simp only
                    have ht : (stateE s).timers = s.timers := rfl
                    rw [ht]
                    by_cases h5 : (stopTimer s.timers tid).1 = true
                    · rw [if_pos h5, if_pos h5]
                      exact place_E { s with timers := (stopTimer s.timers tid).2 } _ _ _ _ _ _
                    · rw [if_neg h5, if_neg h5]
                      exact placeNew_E { s with timers := (stopTimer s.timers tid).2 } _ _ _ _ _

theorem key_same {t t' : TPDU} (h : SameUse t t') : pduKey t = pduKey t' := by
  funext a b
  unfold pduKey
  simp only [h.type, h.oa, h.da]

theorem stopAll_E (heap : List Pipe) : ∀ (ps : List (Bytes × Nat)) (ts : List Timer),
    stopAll (heap.map pipeE) ps ts = stopAll heap ps ts := by
  intro ps
  induction ps with
  | nil => intro ts; rfl
  | cons p ps ih =>
    intro ts
    obtain ⟨k, p⟩ := p
    rw [stopAll, stopAll, List.getElem?_map]
    cases heap[p]? with
    | none => exact ih ts
    | some pipe =>
      show (match pipe.cleanup with | some tid => _ | none => _) = (match pipe.cleanup with | some tid => _ | none => _)
      cases pipe.cleanup with
      | none => exact ih ts
      | some tid => exact ih _

theorem deref_E (s : State) (p : Nat) : deref (stateE s) p = slotsE (deref s p) := by
  unfold deref
  show (((s.heap.map pipeE)[p]?).map (·.segments)).getD [] = _
  rw [List.getElem?_map]
  cases s.heap[p]? <;> rfl

theorem step_E {e e' : Event} (h : SameEvent e e') (s s' : State) (hs : stateE s = stateE s') :
    (step s e).map bothE = (step s' e').map bothE := by
  have key : ∀ t t' : TPDU, SameUse t t' → (step s (.collect t)).map bothE = (step s' (.collect t')).map bothE := by
    intro t t' ht
    show (Collect s t).map bothE = (Collect s' t').map bothE
    rw [collect_with, collect_with, ← with_E, ← with_E, key_same ht]
    have h1 : t.ConcatInfo = t'.ConcatInfo := concat_same ht.udh
    have hcalls : s.calls = s'.calls := by
      have : (stateE s).calls = (stateE s').calls := by rw [hs]
      exact this
    have h2 : stateE { s with calls := s.calls + 1 } = stateE { s' with calls := s'.calls + 1 } := by
      have a : stateE { s with calls := s.calls + 1 } = { stateE s with calls := s.calls + 1 } := rfl
      have b : stateE { s' with calls := s'.calls + 1 } = { stateE s' with calls := s'.calls + 1 } := rfl
      rw [a, b, hs, hcalls]
    have h3 : ptrE ⟨s.calls, t⟩ = ptrE ⟨s'.calls, t'⟩ := by
      show Ptr.mk s.calls (essence t) = Ptr.mk s'.calls (essence t')
      rw [hcalls, (essence_iff t t').2 ht]
    rw [h1, h2, h3]
  have ht : s.timers = s'.timers := by
    have : (stateE s).timers = (stateE s').timers := by rw [hs]
    exact this
  have hp : s.pipes = s'.pipes := by
    have : (stateE s).pipes = (stateE s').pipes := by rw [hs]
    exact this
  have hc : s.closed = s'.closed := by
    have : (stateE s).closed = (stateE s').closed := by rw [hs]
    exact this
  have hh : s.handler = s'.handler := by
    have : (stateE s).handler = (stateE s').handler := by rw [hs]
    exact this
  have hheap : s.heap.map pipeE = s'.heap.map pipeE := by
    have : (stateE s).heap = (stateE s').heap := by rw [hs]
    exact this
  have htout : ∀ ts ps cl, stateE { s with timers := ts, pipes := ps, closed := cl } = stateE { s' with timers := ts, pipes := ps, closed := cl } := by
    intro ts ps cl
    have a : stateE { s with timers := ts, pipes := ps, closed := cl } = { stateE s with timers := ts, pipes := ps, closed := cl } := rfl
    have b : stateE { s' with timers := ts, pipes := ps, closed := cl } = { stateE s' with timers := ts, pipes := ps, closed := cl } := rfl
    rw [a, b, hs]
  cases h with
  | collect ht => exact key _ _ ht
  | other =>
    cases e with
    | collect t => exact key t t ⟨rfl, rfl, rfl, rfl, rfl, rfl⟩
    | fire i =>
      show Except.ok (stateE (fire s i), Output.silent) = Except.ok (stateE (fire s' i), Output.silent)
      congr 2
      unfold fire
      rw [ht]
      cases s'.timers[i]? with
      | none => exact hs
      | some t =>
        simp only
        by_cases h1 : t.state = .armed
        · rw [if_pos h1, if_pos h1]
          have := htout (s'.timers.set i { t with state := .fired }) s'.pipes s'.closed
          rw [← hp, ← hc] at this
          exact this.trans (by rw [hp, hc])
        · rw [if_neg h1, if_neg h1]; exact hs
    | expire i =>
      show Except.ok (stateE (expire s i), Output.silent) = Except.ok (stateE (expire s' i), Output.silent)
      congr 2
      unfold expire
      rw [ht]
      cases s'.timers[i]? with
      | none => exact hs
      | some t =>
        simp only
        by_cases h1 : t.state = .fired
        · rw [if_pos h1, if_pos h1, hp]
          have := htout (s'.timers.set i { t with state := .expired })
            (if s'.pipes.lookup t.key = some t.pipe then mapDelete s'.pipes t.key else s'.pipes) s'.closed
          rw [← hc] at this
          exact this.trans (by rw [hc])
        · rw [if_neg h1, if_neg h1]; exact hs
    | handle i =>
      show Except.ok (bothE (handle s i)) = Except.ok (bothE (handle s' i))
      congr 1
      unfold handle
      rw [ht]
      cases s'.timers[i]? with
      | none => show (stateE s, _) = (stateE s', _); rw [hs]
      | some t =>
        simp only
        by_cases h1 : t.state = .expired
        · rw [if_pos h1, if_pos h1]
          have hd : slotsE (deref s t.pipe) = slotsE (deref s' t.pipe) := by rw [← deref_E, ← deref_E, hs]
          have := htout (s'.timers.set i { t with state := .done }) s'.pipes s'.closed
          have h2 : stateE { s with timers := s'.timers.set i { t with state := .done } } =
              stateE { s' with timers := s'.timers.set i { t with state := .done } } := by
            rw [← hp, ← hc] at this
            exact this.trans (by rw [hp, hc])
          unfold bothE
          simp only
          rw [h2, hh]
          by_cases h3 : s'.handler = true
          · rw [if_pos h3, if_pos h3]
            simp only [outE, hd]
          · rw [if_neg h3, if_neg h3]
        · rw [if_neg h1, if_neg h1]
          show (stateE s, _) = (stateE s', _); rw [hs]
    | close =>
      show Except.ok (stateE (Close s), Output.silent) = Except.ok (stateE (Close s'), Output.silent)
      congr 2
      unfold Close
      rw [hc]
      by_cases h1 : s'.closed = true
      · rw [if_pos h1, if_pos h1]; exact hs
      · rw [if_neg h1, if_neg h1]
        have e1 : stopAll s.heap s.pipes s.timers = stopAll s'.heap s'.pipes s'.timers := by
          rw [← stopAll_E s.heap, ← stopAll_E s'.heap, hheap, hp, ht]
        rw [e1]
        have := htout (stopAll s'.heap s'.pipes s'.timers) s'.pipes true
        rw [← hp] at this
        rw [← hp]
        exact this

theorem run_E {es es' : List Event} (h : Both SameEvent es es') : ∀ (s s' : State), stateE s = stateE s' →
    (run s es).map (fun r => (stateE r.1, r.2.map outE)) = (run s' es').map (fun r => (stateE r.1, r.2.map outE)) := by
  induction h with
  | nil => intro s s' hs; show Except.ok (stateE s, _) = Except.ok (stateE s', _); rw [hs]
  | cons h1 _ ih =>
    rename_i e e' es es' _
    intro s s' hs
    have hst := step_E h1 s s' hs
    rw [run, run]
    cases ha : step s e with
    | error f =>
      rw [ha] at hst
      cases hb : step s' e' with
      | error f' => rw [hb] at hst; cases hst; rfl
      | ok r' => rw [hb] at hst; cases hst
    | ok r =>
      rw [ha] at hst
      cases hb : step s' e' with
      | error f' => rw [hb] at hst; cases hst
      | ok r' =>
        rw [hb] at hst
        obtain ⟨s1, o⟩ := r
        obtain ⟨s1', o'⟩ := r'
        have hst : (stateE s1, outE o) = (stateE s1', outE o') := Except.ok.inj hst
        have h1 := (Prod.mk.inj hst).1
        have h2 := (Prod.mk.inj hst).2
        have hi := ih s1 s1' h1
        show Except.map _ ((run s1 es) >>= _) = Except.map _ ((run s1' es') >>= _)
        cases hc : run s1 es with
        | error f =>
          rw [hc] at hi
          cases hd : run s1' es' with
          | error f' => rw [hd] at hi; cases hi; rfl
          | ok r' => rw [hd] at hi; cases hi
        | ok q =>
          rw [hc] at hi
          cases hd : run s1' es' with
          | error f' => rw [hd] at hi; cases hi
          | ok q' =>
            rw [hd] at hi
            have hi := Prod.mk.inj (Except.ok.inj hi)
            show Except.ok (stateE q.1, outE o :: q.2.map outE) = Except.ok (stateE q'.1, outE o' :: q'.2.map outE)
            rw [hi.1, hi.2, h2]

theorem both_of_map {α β : Type} {f : α → β} {R : α → α → Prop} (hR : ∀ a b, f a = f b → R a b) :
    ∀ (l l' : List α), l.map f = l'.map f → Both R l l' := by
  intro l
  induction l with
  | nil =>
    intro l' h
    cases l' with
    | nil => exact .nil
    | cons b l' => simp at h
  | cons a l ih =>
    intro l' h
    cases l' with
    | nil => simp at h
    | cons b l' =>
      rw [List.map_cons, List.map_cons] at h
      exact .cons (hR a b (List.cons.inj h).1) (ih l' (List.cons.inj h).2)

theorem slots_same {d d' : List (Option Ptr)} (h : slotsE d = slotsE d') : Both SamePlace d d' := by
  refine both_of_map (fun a b hab => ?_) d d' h
  cases a with
  | none =>
    cases b with
    | none => exact .none
    | some b => cases hab
  | some a =>
    cases b with
    | none => cases hab
    | some b =>
      have hab := Option.some.inj hab
      have hab := Ptr.mk.inj hab
      exact .some hab.1 ((essence_iff _ _).1 hab.2)

theorem out_same {o o' : Output} (h : outE o = outE o') : SameOutput o o' := by
  cases o <;> cases o' <;> first | (cases h; done) | skip
  · exact .silent
  · rename_i d e d' e'
    have h := Output.returned.inj h
    obtain ⟨h1, rfl⟩ := h
    exact .returned (slots_same h1)
  · exact .handled (slots_same (Output.handled.inj h))

end Verif.Proofs.Ignored
