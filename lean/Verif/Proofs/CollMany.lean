import Verif.Proofs.CollArr

/-! Many messages arriving at a Collector, with nothing but calls of `Collect`. -/

namespace Verif.Proofs.Coll
open Verif.Model Verif.Model.Collector Verif.Spec Verif.Proofs
open Verif.Spec.Reassembly (Parts Input Result View Clock)

instance (pdu : TPDU) : Decidable (MultiPart pdu) :=
  match h : pdu.ConcatInfo with
  | none => .isFalse (by rintro ⟨c, hc, _⟩; rw [h] at hc; cases hc)
  | some c => if h2 : 2 ≤ c.segments then .isTrue ⟨c, h, h2⟩
    else .isFalse (by rintro ⟨c', hc, h3⟩; rw [h] at hc; cases hc; exact h2 h3)

/-- A result made of a TPDU that is not one of several. -/
def sole (d : Parts) : Bool := match d with
  | [some pdu] => ! decide (MultiPart pdu)
  | _ => false

/-- A result made of segments of the message. -/
def ofMsg (m : Ident) (d : Parts) : Bool := d.all (fun q => match q with | some pdu => (segOf m pdu).isSome | none => false)

theorem returns_cons (o : Output) (os : List Output) : returns (o :: os) = returns [o] ++ returns os := by
  unfold returns
  rw [← List.filterMap_append]
  rfl

theorem segK_multi {k : Bytes} {n j : Nat} {pdu : TPDU} (h : SegK k n j pdu) : MultiPart pdu := by
  obtain ⟨m, hm, _⟩ := of_segK h
  exact ⟨_, hm.1.info, hm.1.multi⟩

/-- Calls of `Collect` leave the Collector open. -/
theorem outcome_open {s s' : State} {pdu : TPDU} {o : Output} (h : Outcome s pdu s' o) : s'.closed = s.closed := by
  cases h <;> try rfl
  all_goals (unfold store; split <;> rfl)

theorem singles_step {s s' : State} {pdu : TPDU} {o : Output} (h : Outcome s pdu s' o) (hc : s.closed = false) :
    (returns [o]).filter sole = if MultiPart pdu then [] else [[some pdu]] := by
  cases h with
  | closed h => rw [hc] at h; cases h
  | single h hm =>
    rw [if_neg hm]
    simp [returns, pdus, sole, hm]
  | range c h h1 h2 => rw [if_pos ⟨c, h1, h2⟩]; rfl
  | dup k n j p pipe ptr h h1 => rw [if_pos (segK_multi h1)]; rfl
  | join k n j p pipe timers h h1 => rw [if_pos (segK_multi h1)]; rfl
  | fresh k n j h h1 => rw [if_pos (segK_multi h1)]; rfl
  | last k n j p pipe timers h h1 h2 h3 h4 h5 =>
    rw [if_pos (segK_multi h1)]
    obtain ⟨m, hm, hn, _⟩ := of_segK h1
    have hlen : (pdus (fill pipe j ⟨s.calls, pdu⟩).segments).length = n := by simp [pdus, fill, h5]
    have h2n : 2 ≤ n := by have := hm.1.multi; omega
    unfold returns
    simp only [List.filterMap_cons, List.filterMap_nil]
    split
    · rfl
    · rename_i d hd
      have : d = pdus (fill pipe j ⟨s.calls, pdu⟩).segments := by
        split at hd
        · exact (Option.some.inj hd).symm
        · cases hd
      rw [← this] at hlen
      match d, hlen with
      | [], hlen => rfl
      | [x], hlen => simp at hlen; omega
      | x :: y :: d, hlen => simp [sole]

theorem singles_run : ∀ (l : List TPDU) {s s' : State} {os : List Output}, Inv s → s.closed = false → (∀ pdu ∈ l, Fine pdu) →
    run s (l.map .collect) = .ok (s', os) →
    (returns os).filter sole = (l.filter (fun pdu => ! decide (MultiPart pdu))).map (fun pdu => [some pdu]) := by
  intro l
  induction l with
  | nil => intro s s' os _ _ _ h; cases h; rfl
  | cons pdu l ih =>
    intro s s' os hi hc hf h
    rw [List.map_cons] at h
    unfold run at h
    obtain ⟨⟨s1, o⟩, h1, h⟩ := bind_eq_ok.1 h
    obtain ⟨⟨s2, os2⟩, h2, h⟩ := bind_eq_ok.1 h
    cases h
    have hfp : FineEvent (.collect pdu) := hf pdu (by simp)
    obtain ⟨s1', o', g1, g2, _⟩ := step_ok hi hfp
    rw [h1] at g1; cases g1
    obtain ⟨s1', o', k1, k2⟩ := collect_outcome s hi pdu hfp
    have h1 : Collect s pdu = .ok (s1, o) := h1
    rw [h1] at k1; cases k1
    have ih' := ih g2 ((outcome_open k2).trans hc) (fun q hq => hf q (by simp [hq])) h2
    rw [returns_cons, List.filter_append, ih', singles_step k2 hc]
    by_cases hm : MultiPart pdu
    · simp [hm]
    · simp [hm]

theorem singles_out : ∀ (l : List TPDU) {s s' : State} {os : List Output}, Inv s → s.closed = false → (∀ pdu ∈ l, Fine pdu) →
    run s (l.map .collect) = .ok (s', os) → ∀ (i : Nat) (pdu : TPDU) (o : Output), l[i]? = some pdu → ¬ MultiPart pdu →
    os[i]? = some o → result o = .returned [some pdu] none := by
  intro l
  induction l with
  | nil => intro s s' os _ _ _ _ i pdu o h; cases h
  | cons pdu l ih =>
    intro s s' os hi hc hf h i q o hq hm ho
    rw [List.map_cons] at h
    unfold run at h
    obtain ⟨⟨s1, o1⟩, h1, h⟩ := bind_eq_ok.1 h
    obtain ⟨⟨s2, os2⟩, h2, h⟩ := bind_eq_ok.1 h
    cases h
    have hfp : FineEvent (.collect pdu) := hf pdu (by simp)
    obtain ⟨s1', o', g1, g2, _⟩ := step_ok hi hfp
    rw [h1] at g1; cases g1
    obtain ⟨s1', o', k1, k2⟩ := collect_outcome s hi pdu hfp
    have h1 : Collect s pdu = .ok (s1, o1) := h1
    rw [h1] at k1; cases k1
    cases i with
    | zero =>
      cases hq; cases ho
      cases k2 with
      | closed x1 => rw [hc] at x1; cases x1
      | single x1 x2 => rfl
      | range c x1 x2 x3 => exact absurd ⟨c, x2, x3⟩ hm
      | dup k n j p pipe ptr x1 x2 => exact absurd (segK_multi x2) hm
      | join k n j p pipe timers x1 x2 => exact absurd (segK_multi x2) hm
      | fresh k n j x1 x2 => exact absurd (segK_multi x2) hm
      | last k n j p pipe timers x1 x2 => exact absurd (segK_multi x2) hm
    | succ i => exact ih g2 ((outcome_open k2).trans hc) (fun q hq => hf q (by simp [hq])) h2 i q o hq hm ho

theorem watch_mem (m : Ident) : ∀ (es : List Event) {s s' : State} {os : List Output}, run s es = .ok (s', os) →
    ∀ (i : Nat) (pdu : TPDU) (seq : Nat) (o : Output), es[i]? = some (.collect pdu) → segOf m pdu = some seq → os[i]? = some o →
    (.segment seq pdu, result o) ∈ watch m s es := by
  intro es
  induction es with
  | nil => intro s s' os _ i pdu seq o h; cases h
  | cons e es ih =>
    intro s s' os h i pdu seq o hq hs ho
    unfold run at h
    obtain ⟨⟨s1, o1⟩, h1, h⟩ := bind_eq_ok.1 h
    obtain ⟨⟨s2, os2⟩, h2, h⟩ := bind_eq_ok.1 h
    cases h
    rw [watch_cons h1]
    cases i with
    | zero =>
      cases hq; cases ho
      apply List.mem_append_left
      unfold seen
      simp [hs]
    | succ i => exact List.mem_append_right _ (ih h2 i pdu seq o hq hs ho)

theorem deliveries_returns (m : Ident) (os : List Output) : deliveries m os = (returns os).filter (ofMsg m) := by
  induction os with
  | nil => rfl
  | cons o os ih =>
    rw [deliveries_cons, returns_cons, List.filter_append, ← ih]
    congr 1
    cases o with
    | returned d e =>
      have h : ofMsg m (pdus d) = decide (∀ q ∈ d, ∃ ptr, q = some ptr ∧ (segOf m ptr.pdu).isSome) := by
        rw [Bool.eq_iff_iff]
        simp only [ofMsg, pdus, List.all_map, List.all_eq_true, Function.comp, decide_eq_true_eq]
        constructor
        · intro h q hq
          have := h q hq
          cases q with
          | none => simp at this
          | some ptr => exact ⟨ptr, rfl, by simpa using this⟩
        · intro h q hq
          obtain ⟨ptr, rfl, h⟩ := h q hq
          simpa using h
      by_cases hd : d = []
      · subst hd; rfl
      · unfold deliveries returns
        simp only [List.filterMap_cons, List.filterMap_nil]
        simp only [ne_eq, hd, not_false_eq_true, true_and, if_true, List.filter_cons, List.filter_nil, h, decide_eq_true_eq]
        split <;> split <;> simp_all
    | _ => rfl

/-- With nothing but calls, a message sees only its segments. -/
theorem watch_calls (m : Ident) : ∀ (l : List TPDU) (s : State) (i : Input) (r : Result),
    (i, r) ∈ watch m s (l.map .collect) → ∃ seq pdu, i = .segment seq pdu := by
  intro l
  induction l with
  | nil => intro s i r h; cases h
  | cons pdu l ih =>
    intro s i r h
    rw [List.map_cons, watch] at h
    cases hs : step s (.collect pdu) with
    | error f => rw [hs] at h; simp at h
    | ok x =>
      rw [hs] at h
      simp only at h
      rcases List.mem_append.1 h with h | h
      · unfold seen at h
        simp only at h
        cases hs : segOf m pdu with
        | none => rw [hs] at h; cases h
        | some seq =>
          rw [hs] at h
          simp only [Option.map_some, Option.toList_some, List.mem_cons, List.not_mem_nil, or_false, Prod.mk.injEq] at h
          exact ⟨seq, pdu, h.1⟩
      · exact ih _ i r h

theorem collected_calls (l : List TPDU) : collected (l.map .collect) = l := by
  unfold collected
  rw [List.filterMap_map]
  induction l with
  | nil => rfl
  | cons a l ih => simp [ih]

end Verif.Proofs.Coll
