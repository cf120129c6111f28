import Verif.Proofs.Rounds
import Verif.Props.Messages

/-! C106: TPDUs that arrive more than once. -/

namespace Verif.Props

open Verif.Model Verif.Model.Collector Verif.Spec Verif.Proofs Verif.Proofs.Coll
open Verif.Spec.Reassembly (Parts Input Result)

theorem allOf_segmentsOf (m : Ident) (l : List TPDU) : AllOf m (segmentsOf m l) := by
  intro pdu hp
  obtain ⟨_, h⟩ := List.mem_filter.1 hp
  obtain ⟨seq, h⟩ := Option.isSome_iff_exists.1 h
  exact ⟨seq, segOf_some.1 h⟩

/-- C106, whatever arrives: of any TPDUs collected one after the other, the calls given segments of a message
answer as `rounds` says, whatever else arrives between them, and what is pending of the message is what
arrived since it was last complete. -/
theorem C106_answers (timeout handler : Bool) (arrival : List TPDU) (hf : ∀ pdu ∈ arrival, Fine pdu) (m : Ident)
    (hm : 2 ≤ m.count) :
    ∃ s os, run (New timeout handler) (arrival.map .collect) = .ok (s, os) ∧
      answers m arrival os = (rounds m [] (segmentsOf m arrival)).1.map (fun r => .returned r.1 r.2) ∧
      ((Pipes s).lookup (keyOf m)).map (fun p => pdus (deref s p)) =
        if (rounds m [] (segmentsOf m arrival)).2 = [] then none
        else some (partsOf m (rounds m [] (segmentsOf m arrival)).2) := by
  have hes : ∀ e ∈ arrival.map Event.collect, FineEvent e := by
    intro e he
    obtain ⟨pdu, hp, rfl⟩ := List.mem_map.1 he
    exact hf pdu hp
  obtain ⟨s, os, hrun, hinv, _⟩ := run_ok _ (inv_new timeout handler) hes
  obtain ⟨s', os', hrun', hview⟩ := watch_run m _ (inv_new timeout handler) hes
  rw [hrun] at hrun'; cases hrun'
  rw [watch_segments m _ hrun (fun i r h => watch_calls m arrival _ i r h), collected_calls, view_new,
    watch_answers m arrival hrun] at hview
  obtain ⟨h1, h2, _⟩ := rounds_run (New timeout handler).timeout (New timeout handler).handler m hm (segmentsOf m arrival) []
    Reassembly.start (allOf_segmentsOf m arrival) (not_covered_nil hm) ⟨rfl, .inl ⟨rfl, rfl⟩⟩
  have hview' : Reassembly.run (New timeout handler).timeout (New timeout handler).handler m.count Reassembly.start
      ((segmentsOf m arrival).map (inp m)) = (view (keyOf m) s, answers m arrival os) := hview
  rw [hview'] at h1 h2
  refine ⟨s, os, hrun, h1, ?_⟩
  obtain ⟨_, ⟨hn, hp⟩ | ⟨hn, hp⟩⟩ := h2
  · rw [if_pos hn]
    have := view_idle (k := keyOf m) hinv hp
    show (s.pipes.lookup (keyOf m)).map _ = none
    rw [this]; rfl
  · rw [if_neg hn]
    obtain ⟨clock, hp, _⟩ := hp.parts
    show (s.pipes.lookup (keyOf m)).map _ = _
    cases hl : s.pipes.lookup (keyOf m) with
    | none =>
      have : (view (keyOf m) s).pending = none := by unfold view; simp only; rw [hl]; rfl
      rw [this] at hp; cases hp
    | some p =>
      obtain ⟨pipe, hpp, _⟩ := hinv.cur _ p hl
      rw [view_pending hl hpp] at hp
      have hp := congrArg Prod.fst (Option.some.inj hp)
      simp only at hp
      simp only [Option.map_some]
      rw [deref_of hpp, hp]

/-- C106, whatever arrives: the message is returned whenever all of its numbers have arrived since it was last
returned. -/
theorem C106_deliveries (timeout handler : Bool) (arrival : List TPDU) (hf : ∀ pdu ∈ arrival, Fine pdu) (m : Ident)
    (hm : 2 ≤ m.count) (s : State) (os : List Output) (h : run (New timeout handler) (arrival.map .collect) = .ok (s, os)) :
    deliveries m os = ((rounds m [] (segmentsOf m arrival)).1.map (·.1)).filter (fun d => d ≠ []) := by
  have hes : ∀ e ∈ arrival.map Event.collect, FineEvent e := by
    intro e he
    obtain ⟨pdu, hp, rfl⟩ := List.mem_map.1 he
    exact hf pdu hp
  obtain ⟨s', os', hrun, h1, _⟩ := C106_answers timeout handler arrival hf m hm
  rw [h] at hrun; cases hrun
  rw [deliveries_watch m _ (inv_new timeout handler) hes h, watch_answers m arrival h, h1, whole_full]
  rfl

/-- What arrives is TPDUs of the messages: `singles` are the TPDUs of messages of one TPDU, and `msgs` are
messages of several, which differ in type, address, reference or number of segments.  Each TPDU arrives any
number of times or never, and in any order. -/
structure Repeated (singles : List TPDU) (msgs : List (Ident × List TPDU)) (arrival : List TPDU) : Prop where
  single : ∀ pdu ∈ singles, ¬ MultiPart pdu
  segs : ∀ x ∈ msgs, SegmentsOf x.1 x.2
  differ : (msgs.map (·.1)).Nodup
  from_ : ∀ pdu ∈ arrival, pdu ∈ singles ∨ ∃ x ∈ msgs, pdu ∈ x.2

theorem Repeated.fine {singles : List TPDU} {msgs : List (Ident × List TPDU)} {arrival : List TPDU}
    (h : Repeated singles msgs arrival) : ∀ pdu ∈ arrival, Fine pdu := by
  intro pdu hp
  rcases h.from_ pdu hp with h1 | ⟨x, hx, h1⟩
  · exact fun h' => absurd h' (h.single pdu h1)
  · obtain ⟨j, _, h2⟩ := segs_find (h.segs x hx) h1
    exact segmentOf_fine (segOf_some.1 h2)

theorem nodup_fst {α β : Type} {l : List (α × β)} (h : (l.map (·.1)).Nodup) {x y : α × β} (hx : x ∈ l) (hy : y ∈ l)
    (he : x.1 = y.1) : x = y := by
  induction l with
  | nil => cases hx
  | cons z l ih =>
    rw [List.map_cons, List.nodup_cons] at h
    rcases List.mem_cons.1 hx with h1 | h1 <;> rcases List.mem_cons.1 hy with h2 | h2
    · rw [h1, h2]
    · exact absurd (List.mem_map.2 ⟨y, h2, by rw [← he, h1]⟩) h.1
    · exact absurd (List.mem_map.2 ⟨x, h1, by rw [he, h2]⟩) h.1
    · exact ih h.2 h1 h2

theorem Repeated.own {singles : List TPDU} {msgs : List (Ident × List TPDU)} {arrival : List TPDU}
    (h : Repeated singles msgs arrival) {x : Ident × List TPDU} (hx : x ∈ msgs) {pdu : TPDU} (hp : pdu ∈ arrival) :
    (segOf x.1 pdu).isSome ↔ pdu ∈ x.2 := by
  constructor
  · intro hs
    rcases h.from_ pdu hp with h1 | ⟨y, hy, h1⟩
    · obtain ⟨seq, hs⟩ := Option.isSome_iff_exists.1 hs
      exact absurd (segment_multi (segOf_some.1 hs)) (h.single pdu h1)
    · rw [nodup_fst h.differ hx hy (segOf_inj hs (segs_isSome (h.segs y hy) pdu h1))]
      exact h1
  · exact fun h1 => segs_isSome (h.segs x hx) pdu h1

theorem Repeated.sub {singles : List TPDU} {msgs : List (Ident × List TPDU)} {arrival : List TPDU}
    (h : Repeated singles msgs arrival) {x : Ident × List TPDU} (hx : x ∈ msgs) : ∀ pdu ∈ segmentsOf x.1 arrival, pdu ∈ x.2 := by
  intro pdu hp
  obtain ⟨h1, h2⟩ := List.mem_filter.1 hp
  exact (h.own hx h1).1 h2

theorem Repeated.covers {singles : List TPDU} {msgs : List (Ident × List TPDU)} {arrival : List TPDU}
    (h : Repeated singles msgs arrival) {x : Ident × List TPDU} (hx : x ∈ msgs) :
    Covered x.1 (segmentsOf x.1 arrival) ↔ ∀ pdu ∈ x.2, pdu ∈ arrival := by
  rw [covered_iff (h.segs x hx) (h.sub hx)]
  constructor
  · exact fun hall pdu hp => (List.mem_filter.1 (hall pdu hp)).1
  · exact fun hall pdu hp => List.mem_filter.2 ⟨hall pdu hp, (h.own hx (hall pdu hp)).2 hp⟩

/-- Every result is a TPDU on its own or of a message. -/
theorem returns_kind (timeout handler : Bool) (arrival : List TPDU) (hf : ∀ pdu ∈ arrival, Fine pdu) (s : State)
    (os : List Output) (h : run (New timeout handler) (arrival.map .collect) = .ok (s, os)) (d : Parts) (hd : d ∈ returns os) :
    (∃ pdu ∈ arrival, ¬ MultiPart pdu ∧ d = [some pdu]) ∨
    ∃ m, d ∈ deliveries m os ∧ ∃ pdu ∈ arrival, (segOf m pdu).isSome := by
  have hes : ∀ e ∈ arrival.map Event.collect, FineEvent e := by
    intro e he
    obtain ⟨pdu, hp, rfl⟩ := List.mem_map.1 he
    exact hf pdu hp
  have hd0 := hd
  unfold returns at hd
  obtain ⟨o, ho, hd'⟩ := List.mem_filterMap.1 hd
  cases o with
  | returned dd err =>
    simp only at hd'
    split at hd'
    · rename_i hne
      cases hd'
      have : (dd, err) ∈ replies os := List.mem_filterMap.2 ⟨_, ho, rfl⟩
      obtain ⟨c, hc⟩ := List.mem_iff_getElem?.1 this
      rcases (C49_complete timeout handler _ hes s os h c dd err hc hne).2 with ⟨pdu, hpdu, hmp, rfl⟩ | ⟨m, hl, hall, _⟩
      · rw [collected_calls] at hpdu
        exact .inl ⟨pdu, List.mem_of_getElem? hpdu, hmp, rfl⟩
      · right
        refine ⟨m, ?_, ?_⟩
        · rw [deliveries_returns]
          refine List.mem_filter.2 ⟨hd0, ?_⟩
          simp only [ofMsg, pdus, List.all_map, List.all_eq_true, Function.comp]
          intro q hq
          obtain ⟨j, hj⟩ := List.mem_iff_getElem?.1 hq
          obtain ⟨ptr, hp1, hp2, _⟩ := hall j (by rw [← hl]; exact get_lt hj)
          rw [hp1] at hj
          cases hj
          simp [segOf_some.2 hp2]
        · obtain ⟨q, hq⟩ := List.exists_mem_of_ne_nil _ hne
          obtain ⟨j, hj⟩ := List.mem_iff_getElem?.1 hq
          obtain ⟨ptr, hp1, hp2, hp3, _⟩ := hall j (by rw [← hl]; exact get_lt hj)
          rw [collected_calls] at hp3
          exact ⟨ptr.pdu, List.mem_of_getElem? hp3, by rw [segOf_some.2 hp2]; rfl⟩
    · cases hd'
  | _ => cases hd'

theorem Repeated.deliveries {singles : List TPDU} {msgs : List (Ident × List TPDU)} {arrival : List TPDU}
    (h : Repeated singles msgs arrival) (timeout handler : Bool) (s : State) (os : List Output)
    (hrun : run (New timeout handler) (arrival.map .collect) = .ok (s, os)) {x : Ident × List TPDU} (hx : x ∈ msgs) :
    Spec.deliveries x.1 os = full (rounds x.1 [] (segmentsOf x.1 arrival)).1 ∧
    (returns os).count (x.2.map some) = (full (rounds x.1 [] (segmentsOf x.1 arrival)).1).length := by
  have hdel := C106_deliveries timeout handler arrival h.fine x.1 (h.segs x hx).multi s os hrun
  refine ⟨hdel, ?_⟩
  have hof : ofMsg x.1 (x.2.map some) = true := by rw [ofMsg_segs (h.segs x hx)]; simp
  rw [← List.count_filter (l := returns os) hof, ← deliveries_returns, hdel]
  show (full _).count _ = _
  rw [List.count_eq_length]
  intro d hd
  exact (rounds_mem (h.segs x hx) _ [] (h.sub hx) d hd).symm

/-- C106 when TPDUs of the messages arrive in any order, each any number of times or never: whatever a call
returns is one of the messages, complete, in sequence and of its own TPDUs only; a message is returned if and
only if all of its TPDUs arrive, at most as often as the rarest of them arrives; a message of one TPDU is
returned as often as it arrives; and the only error is that of a duplicate.

Missing for the property as stated: that a message of several is returned once only and nothing is left over,
which is false if TPDUs of it arrive after it is complete (`C106_once`, `C106_false`). -/
theorem C106_repeats_partial (timeout handler : Bool) (singles : List TPDU) (msgs : List (Ident × List TPDU)) (arrival : List TPDU)
    (h : Repeated singles msgs arrival) :
    ∃ s os, run (New timeout handler) (arrival.map .collect) = .ok (s, os) ∧
      (∀ d ∈ returns os, (∃ pdu ∈ singles, d = [some pdu]) ∨ ∃ x ∈ msgs, d = x.2.map some) ∧
      (∀ x ∈ msgs, (x.2.map some ∈ returns os ↔ ∀ pdu ∈ x.2, pdu ∈ arrival) ∧
        ∀ pdu ∈ x.2, (returns os).count (x.2.map some) ≤ arrival.count pdu) ∧
      (∀ pdu ∈ singles, (returns os).count [some pdu] = arrival.count pdu) ∧
      (∀ d err, .returned d (some err) ∈ os → err = .duplicateSegment) := by
  have hes : ∀ e ∈ arrival.map Event.collect, FineEvent e := by
    intro e he
    obtain ⟨pdu, hp, rfl⟩ := List.mem_map.1 he
    exact h.fine pdu hp
  obtain ⟨s, os, hrun, hinv, hlen, _⟩ := run_ok _ (inv_new timeout handler) hes
  refine ⟨s, os, hrun, ?_, ?_, ?_, ?_⟩
  · intro d hd
    rcases returns_kind timeout handler arrival h.fine s os hrun d hd with ⟨pdu, hp, hmp, rfl⟩ | ⟨m, hm, pdu, hp, hs⟩
    · rcases h.from_ pdu hp with h1 | ⟨x, hx, h1⟩
      · exact .inl ⟨pdu, h1, rfl⟩
      · obtain ⟨j, _, h2⟩ := segs_find (h.segs x hx) h1
        exact absurd (segment_multi (segOf_some.1 h2)) hmp
    · rcases h.from_ pdu hp with h1 | ⟨x, hx, h1⟩
      · obtain ⟨seq, hs⟩ := Option.isSome_iff_exists.1 hs
        exact absurd (segment_multi (segOf_some.1 hs)) (h.single pdu h1)
      · have := segOf_inj hs (segs_isSome (h.segs x hx) pdu h1)
        subst this
        rw [(h.deliveries timeout handler s os hrun hx).1] at hm
        exact .inr ⟨x, hx, rounds_mem (h.segs x hx) _ [] (h.sub hx) d hm⟩
  · intro x hx
    have hcount := (h.deliveries timeout handler s os hrun hx).2
    have hle : ∀ pdu ∈ x.2, (returns os).count (x.2.map some) ≤ arrival.count pdu := by
      intro pdu hp
      rw [hcount]
      refine Nat.le_trans (rounds_le (h.segs x hx) _ [] (h.sub hx) pdu hp) ?_
      exact List.Sublist.count_le _ List.filter_sublist
    refine ⟨⟨?_, ?_⟩, hle⟩
    · intro hmem pdu hp
      exact List.count_pos_iff.1 (Nat.lt_of_lt_of_le (List.count_pos_iff.2 hmem) (hle pdu hp))
    · intro hall
      rw [← List.count_pos_iff, hcount]
      exact List.length_pos_iff.2 (rounds_pos (h.segs x hx).multi _ [] (not_covered_nil (h.segs x hx).multi) ((h.covers hx).2 hall))
  · intro pdu hp
    have hsole : sole [some pdu] = true := by simp [sole, h.single pdu hp]
    rw [← List.count_filter (l := returns os) hsole, singles_run arrival (inv_new timeout handler) rfl h.fine hrun]
    have hinj : Function.Injective (fun pdu : TPDU => [some pdu]) := by
      intro a b hab; simpa using hab
    rw [show [some pdu] = (fun pdu : TPDU => [some pdu]) pdu from rfl]
    have : ∀ l : List TPDU, (l.map (fun pdu => [some pdu])).count [some pdu] = l.count pdu := by
      intro l
      induction l with
      | nil => rfl
      | cons a l ih => simp [List.count_cons, ih]
    rw [this, List.count_filter (by simp [h.single pdu hp])]
  · intro d err ho
    obtain ⟨i, hi⟩ := List.mem_iff_getElem?.1 ho
    have hlt := get_lt hi
    rw [hlen, List.length_map] at hlt
    obtain ⟨pdu, hp⟩ : ∃ pdu, arrival[i]? = some pdu := ⟨_, List.getElem?_eq_getElem hlt⟩
    rcases h.from_ pdu (List.mem_of_getElem? hp) with h1 | ⟨x, hx, h1⟩
    · have := singles_out arrival (inv_new timeout handler) rfl h.fine hrun i pdu _ hp (h.single pdu h1) hi
      simp [result] at this
    · obtain ⟨seq, hseq⟩ := Option.isSome_iff_exists.1 (segs_isSome (h.segs x hx) pdu h1)
      have hw := watch_mem x.1 _ hrun i pdu seq _ (by rw [List.getElem?_map, hp]; rfl) hseq hi
      have hw : result (.returned d (some err)) ∈ (watch x.1 (New timeout handler) (arrival.map .collect)).map (·.2) :=
        List.mem_map.2 ⟨_, hw, rfl⟩
      obtain ⟨s', os', hrun', ha, _⟩ := C106_answers timeout handler arrival h.fine x.1 (h.segs x hx).multi
      rw [hrun] at hrun'; cases hrun'
      rw [watch_answers x.1 arrival hrun, ha] at hw
      obtain ⟨r, hr, he⟩ := List.mem_map.1 hw
      simp only [result, Result.returned.injEq] at he
      exact rounds_err _ _ _ r hr err he.2

/-- C106, exactly: a message of several TPDUs is returned once with nothing of it left pending if and only if all
of its TPDUs arrive, and none of them when all have arrived before. -/
theorem C106_once (timeout handler : Bool) (singles : List TPDU) (msgs : List (Ident × List TPDU)) (arrival : List TPDU)
    (h : Repeated singles msgs arrival) (x : Ident × List TPDU) (hx : x ∈ msgs) (s : State) (os : List Output)
    (hrun : run (New timeout handler) (arrival.map .collect) = .ok (s, os)) :
    ((returns os).count (x.2.map some) = 1 ∧ (Pipes s).lookup (keyOf x.1) = none) ↔
      (∀ pdu ∈ x.2, pdu ∈ arrival) ∧ ∀ a pdu b, arrival = a ++ pdu :: b → pdu ∈ x.2 → ∃ q ∈ x.2, q ∉ a := by
  have hm := (h.segs x hx).multi
  obtain ⟨s', os', hrun', _, hp⟩ := C106_answers timeout handler arrival h.fine x.1 hm
  rw [hrun] at hrun'; cases hrun'
  have hidle : (Pipes s).lookup (keyOf x.1) = none ↔ (rounds x.1 [] (segmentsOf x.1 arrival)).2 = [] := by
    rw [← Option.map_eq_none_iff (f := fun p => pdus (deref s p)), hp]
    split <;> simp [*]
  rw [(h.deliveries timeout handler s os hrun hx).2, hidle, rounds_once hm _ [] (not_covered_nil hm)]
  simp only [List.nil_append]
  constructor
  · rintro ⟨h1, h2⟩
    refine ⟨(h.covers hx).1 h1, ?_⟩
    intro a pdu b he hpdu
    have ha : ∀ q ∈ a, q ∈ arrival := fun q hq => by rw [he]; simp [hq]
    have hpa : pdu ∈ arrival := by rw [he]; simp
    have := h2 (segmentsOf x.1 a) pdu (segmentsOf x.1 b) (by
      rw [he]
      unfold segmentsOf
      rw [List.filter_append, List.filter_cons_of_pos (p := fun pdu => (segOf x.1 pdu).isSome) ((h.own hx hpa).2 hpdu)])
    apply Classical.byContradiction
    intro hn
    apply this
    rw [covered_iff (l := segmentsOf x.1 a) (h.segs x hx) (fun q hq => (h.own hx (ha q (List.mem_filter.1 hq).1)).1 (List.mem_filter.1 hq).2)]
    intro q hq
    have hqa : q ∈ a := Classical.byContradiction (fun hq' => hn ⟨q, hq, hq'⟩)
    exact List.mem_filter.2 ⟨hqa, (h.own hx (ha q hqa)).2 hq⟩
  · rintro ⟨hcov, hall⟩
    refine ⟨(h.covers hx).2 hcov, ?_⟩
    intro a pdu b he hcov
    unfold segmentsOf at he
    obtain ⟨l1, l2, h1, h2, h3⟩ := List.filter_eq_append_iff.1 he
    obtain ⟨l3, l4, h4, h5, h6, h7⟩ := List.filter_eq_cons_iff.1 h3
    have harr : arrival = (l1 ++ l3) ++ pdu :: l4 := by rw [h1, h4]; simp
    have hpa : pdu ∈ arrival := by rw [harr]; simp
    obtain ⟨q, hq, hn⟩ := hall (l1 ++ l3) pdu l4 harr ((h.own hx hpa).1 h6)
    apply hn
    have hsub : ∀ q ∈ a, q ∈ x.2 := by
      intro q hq
      exact h.sub hx q (by unfold segmentsOf; rw [he]; simp [hq])
    have := (covered_iff (h.segs x hx) hsub).1 hcov q hq
    rw [← h2] at this
    exact List.mem_append_left _ (List.mem_filter.1 this).1

/-- The message of two segments with reference 7. -/
def exPair : Ident := { exIdent with count := 2 }

theorem exPairs : SegmentsOf exPair [exSeg 7 2 1, exSeg 7 2 2] where
  count := rfl
  multi := by decide
  seg := by
    intro j pdu h
    match j with
    | 0 => cases h; exact segOf_some.1 (by decide)
    | 1 => cases h; exact segOf_some.1 (by decide)
    | j + 2 => simp at h

/-- Beside C106: a message of three, its TPDUs repeated before it is complete, another one of which a TPDU never
arrives, and a single TPDU twice. -/
theorem exRepeated : Repeated [exSingle] [(exIdent, [exSeg 7 3 1, exSeg 7 3 2, exSeg 7 3 3]), (exPair, [exSeg 7 2 1, exSeg 7 2 2])]
    [exSeg 7 3 3, exSingle, exSeg 7 2 2, exSeg 7 3 3, exSeg 7 3 1, exSeg 7 2 2, exSingle, exSeg 7 3 1, exSeg 7 3 2] where
  single := by decide
  segs := by
    intro x hx
    simp only [List.mem_cons, List.not_mem_nil, or_false] at hx
    rcases hx with rfl | rfl
    · exact exSegments
    · exact exPairs
  differ := by decide
  from_ := by decide

/-- Beside C106_answers: a message that is completed, then a segment twice. -/
example : ∃ s os, run (New true true) ([exSeg 7 2 2, exSeg 7 2 1, exSeg 7 2 2, exSeg 7 2 2].map .collect) = .ok (s, os) ∧
    answers exPair [exSeg 7 2 2, exSeg 7 2 1, exSeg 7 2 2, exSeg 7 2 2] os =
      [.returned [] none, .returned [some (exSeg 7 2 1), some (exSeg 7 2 2)] none, .returned [] none,
        .returned [] (some .duplicateSegment)] := ⟨_, _, rfl, by decide⟩

/-- C106 is false as stated: if a TPDU arrives once more after the message is complete it is left pending, and
if all do the message is returned again. -/
theorem C106_false :
    ¬ (∀ (timeout handler : Bool) (singles : List TPDU) (msgs : List (Ident × List TPDU)) (arrival : List TPDU),
      Repeated singles msgs arrival → (∀ x ∈ msgs, ∀ pdu ∈ x.2, pdu ∈ arrival) → ∃ s os, run (New timeout handler) (arrival.map .collect) = .ok (s, os) ∧ Pipes s = []) ∧
    ¬ (∀ (timeout handler : Bool) (singles : List TPDU) (msgs : List (Ident × List TPDU)) (arrival : List TPDU),
      Repeated singles msgs arrival → (∀ x ∈ msgs, ∀ pdu ∈ x.2, pdu ∈ arrival) → ∃ s os, run (New timeout handler) (arrival.map .collect) = .ok (s, os) ∧
        ∀ x ∈ msgs, (returns os).count (x.2.map some) = 1) := by
  have hr : ∀ arrival, (∀ pdu ∈ arrival, pdu ∈ [exSeg 7 2 1, exSeg 7 2 2]) →
      Repeated [] [(exPair, [exSeg 7 2 1, exSeg 7 2 2])] arrival := by
    intro arrival h1
    refine ⟨by simp, ?_, by decide, fun pdu hp => .inr ⟨_, List.mem_singleton.2 rfl, h1 pdu hp⟩⟩
    intro x hx
    cases List.mem_singleton.1 hx
    exact exPairs
  constructor
  · intro hall
    obtain ⟨s, os, h1, h2⟩ := hall true true [] _ [exSeg 7 2 1, exSeg 7 2 2, exSeg 7 2 1] (hr _ (by decide)) (by decide)
    have : ∃ s os, run (New true true) ([exSeg 7 2 1, exSeg 7 2 2, exSeg 7 2 1].map .collect) = .ok (s, os) ∧ Pipes s ≠ [] :=
      ⟨_, _, rfl, by decide⟩
    obtain ⟨s', os', h3, h4⟩ := this
    rw [h1] at h3; cases h3
    exact h4 h2
  · intro hall
    obtain ⟨s, os, h1, h2⟩ := hall true true [] _ [exSeg 7 2 1, exSeg 7 2 2, exSeg 7 2 2, exSeg 7 2 1] (hr _ (by decide)) (by decide)
    have : ∃ s os, run (New true true) ([exSeg 7 2 1, exSeg 7 2 2, exSeg 7 2 2, exSeg 7 2 1].map .collect) = .ok (s, os) ∧
      (returns os).count ([exSeg 7 2 1, exSeg 7 2 2].map some) ≠ 1 := ⟨_, _, rfl, by decide⟩
    obtain ⟨s', os', h3, h4⟩ := this
    rw [h1] at h3; cases h3
    exact h4 (h2 _ (List.mem_singleton.2 rfl))

/-- C106: a TPDU that arrives once more after its message is complete becomes part of the next message of the
same type, address, reference and number of segments: what is returned then is neither of the two messages. -/
theorem C106_mixed : ∃ a1 a2 b1 b2 : TPDU, SegmentsOf exPair [a1, a2] ∧ SegmentsOf exPair [b1, b2] ∧ a1 ≠ b1 ∧ a2 ≠ b2 ∧
    ∃ s os, run (New true true) ([a1, a2, a1, b1, b2].map .collect) = .ok (s, os) ∧
      returns os = [[some a1, some a2], [some a1, some b2]] ∧ Pipes s = [] := by
  refine ⟨exSeg 7 2 1, exSeg 7 2 2, { exSeg 7 2 1 with UD := [0x41] }, { exSeg 7 2 2 with UD := [0x42] }, exPairs, ⟨rfl, by decide, ?_⟩,
    by decide, by decide, _, _, rfl, by decide, by decide⟩
  intro j pdu h
  match j with
  | 0 => cases h; exact segOf_some.1 (by decide)
  | 1 => cases h; exact segOf_some.1 (by decide)
  | j + 2 => simp at h

end Verif.Props
