import Verif.Proofs.Timed

/-! Messages that reuse a reference, in real time. -/

namespace Verif.Proofs.Coll
open Verif.Model Verif.Model.Collector Verif.Spec Verif.Proofs
open Verif.Spec.Reassembly (Parts Input Result View Clock)
open Verif.Spec.Timed (History events Ordered arrivals Along Timely Prompt epochs Clear)

/-- Where the reassembly of a message is: it has what arrived; or its timer went off, and nothing arrives any more
for `d` after the last new segment. -/
def Here (d : Int) (m : Ident) (s : State) (set : List Int) (since : List TPDU) (last : Int) (l : List (Int × TPDU)) : Prop :=
  s.closed = false ∧ s.timeout = true ∧ Last (keyOf m) s set last ∧
    (At m since (view (keyOf m) s) ∨ (since ≠ [] ∧ ∀ x ∈ l, last + d ≤ x.1))

/-- Whatever is pending does not stay longer than `lag`. -/
theorem gone {lag : Int} {m : Ident} {s : State} {set : List Int} {last now : Int} (hi : Inv s) (hc : s.closed = false)
    (ht : s.timeout = true) (hl : Last (keyOf m) s set last)
    (hp : ∀ (i : Nat) t τ, s.timers[i]? = some t → t.state ∈ [TimerState.armed, .fired] → set[i]? = some τ → now ≤ τ + lag)
    (hlate : last + lag < now) : At m [] (view (keyOf m) s) := by
  refine ⟨hc, .inl ⟨rfl, view_pending_none ?_⟩⟩
  cases hlk : s.pipes.lookup (keyOf m) with
  | none => rfl
  | some p =>
    exfalso
    obtain ⟨pipe, hpp, _, _, _, htt⟩ := hi.cur _ p hlk
    obtain ⟨tid, t, h1, h2, h3⟩ := htt ht
    have := hp tid t last h2 (by
      rcases h3 with h3 | h3 | ⟨_, h3⟩
      · rw [h3]; simp
      · rw [h3]; simp
      · rw [hc] at h3; cases h3) (hl p pipe tid hlk hpp h1)
    omega

theorem epochs_answers (d lag : Int) (m : Ident) (hm : 2 ≤ m.count) : ∀ (h : History) (s : State) (set : List Int) (since : List TPDU) (last : Int),
    Inv s → set.length = s.timers.length → ¬ Covered m since → Here d m s set since last (Timed.segs m h) →
    (∀ e ∈ events h, FineEvent e) → (∀ e ∈ events h, e ≠ .close) → Ordered h → Timely d s set h → Prompt [.armed, .fired] lag s set h →
    Clear d lag m since last (Timed.segs m h) →
    ∃ s' os, run s (events h) = .ok (s', os) ∧ Timed.answers m (events h) os = epochs lag m since last (Timed.segs m h) := by
  intro h
  induction h with
  | nil => intro s set since last _ _ _ _ _ _ _ _ _ _; exact ⟨s, [], rfl, rfl⟩
  | cons x h ih =>
    obtain ⟨now, e⟩ := x
    intro s set since last hi hlen hcov hhere hfine hopen hord htime hprompt hclear
    have hev : events ((now, e) :: h) = e :: events h := rfl
    rw [hev] at hfine hopen ⊢
    have hfe := hfine e List.mem_cons_self
    have hfine' : ∀ e ∈ events h, FineEvent e := fun e' he' => hfine e' (List.mem_cons_of_mem _ he')
    have hopen' : ∀ e ∈ events h, e ≠ .close := fun e' he' => hopen e' (List.mem_cons_of_mem _ he')
    have hord' : Ordered h := (List.pairwise_cons.1 hord).2
    have hafter : ∀ y ∈ Timed.segs m h, now ≤ y.1 := fun y hy => (List.pairwise_cons.1 hord).1 _ (segs_time hy)
    obtain ⟨s1, o, hstep, hi1, hto1, _, hview⟩ := step_ok hi hfe
    obtain ⟨hP, htime'⟩ := along_cons htime hstep
    obtain ⟨hQ, hprompt'⟩ := along_cons hprompt hstep
    have hlen1 := stamp_length (s' := s1) hlen (step_timers hi hfe hstep) now
    obtain ⟨hcl, hto, hlast, hat⟩ := hhere
    have go : ∀ (since' : List TPDU) (last' : Int), ¬ Covered m since' → Here d m s1 (stamp set s s1 now) since' last' (Timed.segs m h) →
        Clear d lag m since' last' (Timed.segs m h) →
        ∃ s' os, run s (e :: events h) = .ok (s', o :: os) ∧
          Timed.answers m (events h) os = epochs lag m since' last' (Timed.segs m h) := by
      intro since' last' h2 h3 h4
      obtain ⟨s', os, hr, ha⟩ := ih s1 _ since' last' hi1 hlen1 h2 h3 hfine' hopen' hord' htime' hprompt' h4
      refine ⟨s', os, ?_, ha⟩
      unfold run
      rw [hstep]
      simp only [ok_bind]
      rw [hr]
      rfl
    have quiet : (∀ pdu, e ≠ .collect pdu) → (∀ d err, o ≠ .returned d err) →
        Here d m s1 (stamp set s s1 now) since last (Timed.segs m h) →
        ∃ s' os, run s (e :: events h) = .ok (s', os) ∧
          Timed.answers m (e :: events h) os = epochs lag m since last (Timed.segs m ((now, e) :: h)) := by
      intro he ho h1
      rw [segs_quiet m now e h he] at hclear ⊢
      obtain ⟨s', os, h3, h4⟩ := go since last hcov h1 hclear
      exact ⟨s', o :: os, h3, by rw [answers_quiet m e _ o os he ho]; exact h4⟩
    cases e with
    | close => exact absurd rfl (hopen .close List.mem_cons_self)
    | collect pdu =>
      obtain ⟨s1', o', hcol, hout⟩ := collect_outcome s hi pdu hfe
      have hstep' : Collect s pdu = .ok (s1, o) := hstep
      rw [hcol] at hstep'; cases hstep'
      obtain ⟨dd, err, rfl⟩ := collect_returned hout
      have hcl1 : s1.closed = false := (outcome_open hout).trans hcl
      rw [segs_collect] at hclear hat ⊢
      have hv := hview m
      unfold seen at hv
      simp only at hv
      cases hso : segOf m pdu with
      | none =>
        rw [hso] at hv
        simp only [Option.map_none] at hv
        rw [hso] at hclear hat
        simp only [Option.isSome_none, Bool.false_eq_true, if_false, List.nil_append] at hclear hat ⊢
        obtain ⟨s', os, h3, h4⟩ := go since last hcov ⟨hcl1, hto1.trans hto, (by
          intro p pipe tid a b c
          rcases collect_cur hi hout a b c with ⟨a', b', _⟩ | ⟨hk, _⟩
          · exact stamp_old (hlast p pipe tid a' b' c)
          · exact absurd hk (segOf_none hso)), by rw [hv]; exact hat⟩ hclear
        refine ⟨s', _, h3, ?_⟩
        rw [answers_collect, hso]
        simpa using h4
      | some seq =>
        rw [hso] at hv
        simp only [Option.map_some] at hv
        have hseg := segOf_some.1 hso
        have hkey : OfKey (keyOf m) pdu := ⟨_, _, segK_of hseg⟩
        rw [hso] at hclear hat
        simp only [Option.isSome_some, if_true, List.cons_append, List.nil_append] at hclear hat ⊢
        unfold Clear at hclear
        unfold epochs
        obtain ⟨hor, hclear⟩ := hclear
        simp only at hclear ⊢
        have hv : Reassembly.segment s.timeout m.count (view (keyOf m) s) seq pdu = (view (keyOf m) s1, .returned (pdus dd) err) := hv
        -- what is pending is what arrived since
        generalize hs' : (if last + lag < now then [] else since) = since' at hclear ⊢
        have hcov' : ¬ Covered m since' := by
          rw [← hs']; split
          · exact not_covered_nil hm
          · exact hcov
        have hat' : At m since' (view (keyOf m) s) := by
          rw [← hs']; split
          · rename_i hlate
            exact gone hi hcl hto hlast (fun i t τ a b c => hQ i t τ a b c) hlate
          · rename_i hn
            rcases hat with hat | ⟨hne, hx⟩
            · exact hat
            · have h1 := hor hne
              have h2 := hx _ List.mem_cons_self
              simp only at h2
              omega
        obtain ⟨r1, r2⟩ := round_step s.timeout m (view (keyOf m) s) since' pdu seq hseg hat' hcov'
        rw [hv] at r1 r2
        by_cases hc : Covered m (since' ++ [pdu])
        · rw [if_pos ((covered_parts m _).1 hc)] at hclear ⊢
          obtain ⟨a1, a2⟩ := r1 hc
          simp only at a1 a2
          obtain ⟨s', os, h3, h4⟩ := go [] now (not_covered_nil hm) ⟨hcl1, hto1.trans hto, (by
            intro p pipe tid a b c
            rw [at_nil hi1 a1] at a; cases a), .inl a1⟩ hclear
          refine ⟨s', _, h3, ?_⟩
          rw [answers_collect, hso, h4]
          simp only [Result.returned.injEq] at a2
          simp [a2.1, a2.2]
        · rw [if_neg (fun h => hc ((covered_parts m _).2 h))] at hclear ⊢
          obtain ⟨a1, a2⟩ := r2 hc
          simp only at a1 a2
          simp only [Result.returned.injEq] at a2
          by_cases hd : ∃ q ∈ since', segOf m q = segOf m pdu
          · rw [if_pos hd] at hclear a2 ⊢
            obtain ⟨s', os, h3, h4⟩ := go (since' ++ [pdu]) last hc ⟨hcl1, hto1.trans hto, (by
              intro p pipe tid a b c
              rcases collect_cur hi hout a b c with ⟨a', b', hno⟩ | ⟨_, hl1, rfl, ho⟩
              · exact stamp_old (hlast p pipe tid a' b' c)
              · cases ho
                cases a2.2), .inl a1⟩ hclear
            refine ⟨s', _, h3, ?_⟩
            rw [answers_collect, hso, h4]
            simp [a2.1, a2.2]
          · rw [if_neg hd] at hclear a2 ⊢
            obtain ⟨s', os, h3, h4⟩ := go (since' ++ [pdu]) now hc ⟨hcl1, hto1.trans hto, (by
              intro p pipe tid a b c
              rcases collect_cur hi hout a b c with ⟨a', b', hno⟩ | ⟨_, hl1, rfl, ho⟩
              · exfalso
                apply hno hkey
                have : dd = [] := by have := a2.1; unfold pdus at this; exact List.map_eq_nil_iff.1 this
                rw [this, a2.2]
              · exact stamp_new hlen hl1 now), .inl a1⟩ hclear
            refine ⟨s', _, h3, ?_⟩
            rw [answers_collect, hso, h4]
            simp [a2.1, a2.2]
    | fire i =>
      cases hstep
      obtain ⟨f1, f2, f3, f4, f5⟩ := fire_fields s i
      rw [segs_quiet m now _ h (by simp)] at hat
      have hl' : Last (keyOf m) (fire s i) (stamp set s (fire s i) now) last := by
        intro p pipe tid a b c
        rw [f1] at a; rw [f2] at b
        exact stamp_old (hlast p pipe tid a b c)
      refine quiet (by simp) (by simp) ⟨f4.trans hcl, hto1.trans hto, hl', ?_⟩
      rcases hat with hat | hat
      rotate_left
      · exact .inr hat
      by_cases harm : ∃ t, s.timers[i]? = some t ∧ t.state = .armed ∧ t.key = keyOf m
      · obtain ⟨t, ht, hst, hk⟩ := harm
        obtain ⟨pipe, hp, hok, hns, harmed, _⟩ := hi.tim i t ht
        have hcu := (hns (by rw [hst]; simp)).1
        have hlk := (harmed hst).1
        rw [hk] at hlk
        have hset := hlast _ _ _ hlk hp hcu
        have hdue := hP i t last rfl ht hst hset
        have hne : since ≠ [] := by
          rintro rfl
          rw [at_nil hi hat] at hlk; cases hlk
        refine .inr ⟨hne, fun y hy => ?_⟩
        have := hafter y hy
        omega
      · left
        by_cases hk : ∀ t, s.timers[i]? = some t → t.key ≠ keyOf m
        · rw [view_fire_other s _ i hk]; exact hat
        · have : fire s i = s := by
            unfold fire
            split
            · rename_i t ht
              rw [if_neg]
              intro hst
              apply hk
              intro t' ht' hk'
              rw [ht] at ht'; cases ht'
              exact harm ⟨t, ht, hst, hk'⟩
            · rfl
          rw [this]; exact hat
    | expire i =>
      cases hstep
      obtain ⟨f1, f2, f3, f4, f5⟩ := expire_fields s i
      rw [segs_quiet m now _ h (by simp)] at hat
      refine quiet (by simp) (by simp) ⟨f4.trans hcl, hto1.trans hto, ?_, ?_⟩
      · intro p pipe tid a b c
        rw [f2] at b
        exact stamp_old (hlast p pipe tid (f1 _ _ a) b c)
      · rcases hat with hat | hat
        rotate_left
        · exact .inr hat
        left
        have hv := hview m
        cases hs : seen m s (.expire i) with
        | none => rw [hs] at hv; simp only at hv; rw [hv]; exact hat
        | some inp =>
          rw [hs] at hv
          simp only at hv
          unfold seen at hs
          simp only [Option.map_eq_some_iff] at hs
          obtain ⟨j, _, rfl⟩ := hs
          have := at_expire s.timeout s.handler m.count hat j
          rw [hv] at this
          exact this
    | handle i =>
      have hst : handle s i = (s1, o) := Except.ok.inj hstep
      obtain ⟨f1, f2, f3, f4, f5⟩ := handle_fields s i
      have ho := handle_out s i
      rw [hst] at f1 f2 f3 f4 f5 ho
      rw [segs_quiet m now _ h (by simp)] at hat
      refine quiet (by simp) ?_ ⟨f4.trans hcl, hto1.trans hto, ?_, ?_⟩
      · intro d err hd
        subst hd
        rcases ho with ho | ⟨_, ho⟩ <;> cases ho
      · intro p pipe tid a b c
        simp only at f1 f2
        rw [f1] at a; rw [f2] at b
        exact stamp_old (hlast p pipe tid a b c)
      · rcases hat with hat | hat
        rotate_left
        · exact .inr hat
        left
        have hv := hview m
        cases hs : seen m s (.handle i) with
        | none => rw [hs] at hv; simp only at hv; rw [hv]; exact hat
        | some inp =>
          rw [hs] at hv
          simp only at hv
          unfold seen at hs
          simp only [Option.map_eq_some_iff] at hs
          obtain ⟨j, _, rfl⟩ := hs
          have := at_handle s.timeout s.handler m.count hat j
          rw [hv] at this
          exact this

/-! Groups of segments. -/

theorem epochs_reset (d lag : Int) (m : Ident) (since : List TPDU) (last : Int) (l : List (Int × TPDU)) (h : ∀ x ∈ l, last + lag < x.1) :
    epochs lag m since last l = epochs lag m [] last l ∧ (Clear d lag m [] last l → Clear d lag m since last l) := by
  cases l with
  | nil => exact ⟨rfl, fun _ => trivial⟩
  | cons x l =>
    obtain ⟨now, pdu⟩ := x
    have h1 := h _ List.mem_cons_self
    simp only at h1
    unfold epochs Clear
    simp only [h1, if_true]
    exact ⟨trivial, fun h2 => ⟨fun _ => .inr trivial, h2.2⟩⟩

theorem epochs_cons (lag : Int) (m : Ident) (since : List TPDU) (last now : Int) (pdu : TPDU) (l : List (Int × TPDU)) :
    epochs lag m since last ((now, pdu) :: l) =
      if ∀ q ∈ partsOf m ((if last + lag < now then [] else since) ++ [pdu]), q ≠ none then
        (partsOf m ((if last + lag < now then [] else since) ++ [pdu]), none) :: epochs lag m [] now l
      else if ∃ q ∈ (if last + lag < now then [] else since), segOf m q = segOf m pdu then
        ([], some .duplicateSegment) :: epochs lag m ((if last + lag < now then [] else since) ++ [pdu]) last l
      else ([], none) :: epochs lag m ((if last + lag < now then [] else since) ++ [pdu]) now l := rfl

theorem clear_cons (d lag : Int) (m : Ident) (since : List TPDU) (last now : Int) (pdu : TPDU) (l : List (Int × TPDU)) :
    Clear d lag m since last ((now, pdu) :: l) = ((since ≠ [] → now < last + d ∨ last + lag < now) ∧
      if ∀ q ∈ partsOf m ((if last + lag < now then [] else since) ++ [pdu]), q ≠ none then Clear d lag m [] now l
      else if ∃ q ∈ (if last + lag < now then [] else since), segOf m q = segOf m pdu then
        Clear d lag m ((if last + lag < now then [] else since) ++ [pdu]) last l
      else Clear d lag m ((if last + lag < now then [] else since) ++ [pdu]) now l) := rfl

/-- Segments within less than `d` are answered as without a timeout. -/
theorem epochs_group (d lag : Int) (hdl : d ≤ lag) (m : Ident) (t : Int) (r : List (Int × TPDU)) : ∀ (g : List (Int × TPDU)) (since : List TPDU) (last : Int),
    (since ≠ [] → t ≤ last ∧ last < t + d) → (∀ x ∈ g, t ≤ x.1 ∧ x.1 < t + d) →
    ∃ since' last', epochs lag m since last (g ++ r) = (rounds m since (g.map (·.2))).1 ++ epochs lag m since' last' r ∧
      (Clear d lag m since' last' r → Clear d lag m since last (g ++ r)) ∧ (since' ≠ [] → (∃ x ∈ g, x.1 = last') ∨ (since ≠ [] ∧ last' = last)) := by
  intro g
  induction g with
  | nil => intro since last h1 _; exact ⟨since, last, rfl, id, fun h => .inr ⟨h, rfl⟩⟩
  | cons x g ih =>
    obtain ⟨now, pdu⟩ := x
    intro since last h1 h2
    obtain ⟨n1, n2⟩ := h2 _ List.mem_cons_self
    simp only at n1 n2
    have h2' : ∀ x ∈ g, t ≤ x.1 ∧ x.1 < t + d := fun x hx => h2 x (List.mem_cons_of_mem _ hx)
    have hs : (if last + lag < now then [] else since) = since := by
      split
      · rename_i hl
        by_cases hn : since = []
        · exact hn.symm
        · have := h1 hn; omega
      · rfl
    rw [List.cons_append, List.map_cons, epochs_cons, clear_cons, hs]
    by_cases hc : Covered m (since ++ [pdu])
    · obtain ⟨since', last', k1, k2, k3⟩ := ih [] now (fun h => absurd rfl h) h2'
      refine ⟨since', last', ?_, ?_, fun h => .inl (by
        rcases k3 h with ⟨x, hx, e⟩ | ⟨hne, _⟩
        · exact ⟨x, List.mem_cons_of_mem _ hx, e⟩
        · exact absurd rfl hne)⟩
      · rw [if_pos ((covered_parts m _).1 hc), k1, rounds_cons_covered hc]
        rfl
      · intro hk
        rw [if_pos ((covered_parts m _).1 hc)]
        exact ⟨fun hne => .inl (by have := h1 hne; omega), k2 hk⟩
    · have hc' : ¬ ∀ q ∈ partsOf m (since ++ [pdu]), q ≠ none := fun h => hc ((covered_parts m _).2 h)
      by_cases hd : ∃ q ∈ since, segOf m q = segOf m pdu
      · have hne : since ≠ [] := by
          obtain ⟨q, hq, _⟩ := hd
          exact List.ne_nil_of_mem hq
        obtain ⟨since', last', k1, k2, k3⟩ := ih (since ++ [pdu]) last (fun _ => h1 hne) h2'
        refine ⟨since', last', ?_, ?_, fun h => (by
          rcases k3 h with ⟨x, hx, e⟩ | ⟨_, e⟩
          · exact .inl ⟨x, List.mem_cons_of_mem _ hx, e⟩
          · exact .inr ⟨hne, e⟩)⟩
        · rw [if_neg hc', if_pos hd, k1, rounds_cons_not hc, if_pos hd]
          rfl
        · intro hk
          rw [if_neg hc', if_pos hd]
          exact ⟨fun hne => .inl (by have := h1 hne; omega), k2 hk⟩
      · obtain ⟨since', last', k1, k2, k3⟩ := ih (since ++ [pdu]) now (fun _ => ⟨n1, n2⟩) h2'
        refine ⟨since', last', ?_, ?_, fun h => .inl (by
          rcases k3 h with ⟨x, hx, e⟩ | ⟨_, e⟩
          · exact ⟨x, List.mem_cons_of_mem _ hx, e⟩
          · exact ⟨_, List.mem_cons_self, e.symm⟩)⟩
        · rw [if_neg hc', if_neg hd, k1, rounds_cons_not hc, if_neg hd]
          rfl
        · intro hk
          rw [if_neg hc', if_neg hd]
          exact ⟨fun hne => .inl (by have := h1 hne; omega), k2 hk⟩

/-- What arrives before some time, and what after. -/
theorem sorted_split (b : Int) : ∀ (l : List (Int × TPDU)), l.Pairwise (fun x y => x.1 ≤ y.1) →
    l = l.filter (fun x => decide (x.1 < b)) ++ l.filter (fun x => ! decide (x.1 < b)) := by
  intro l
  induction l with
  | nil => intro _; rfl
  | cons x l ih =>
    intro h
    obtain ⟨h1, h2⟩ := List.pairwise_cons.1 h
    by_cases hx : x.1 < b
    · rw [List.filter_cons_of_pos (by simpa using hx), List.filter_cons_of_neg (by simpa using hx), List.cons_append, ← ih h2]
    · have hno : l.filter (fun x => decide (x.1 < b)) = [] := by
        rw [List.filter_eq_nil_iff]
        intro y hy
        have := h1 y hy
        simp; omega
      have hall : l.filter (fun x => ! decide (x.1 < b)) = l := by
        rw [List.filter_eq_self]
        intro y hy
        have := h1 y hy
        simp; omega
      rw [List.filter_cons_of_neg (by simpa using hx), List.filter_cons_of_pos (by simpa using hx), hno, hall]
      rfl

/-- Two groups of arrivals are more than `lag` apart. -/
def Far (lag : Int) (a b : List (Int × TPDU)) : Prop :=
  (∀ x ∈ a, ∀ y ∈ b, x.1 + lag < y.1) ∨ (∀ x ∈ a, ∀ y ∈ b, y.1 + lag < x.1)

theorem far_symm {lag : Int} {a b : List (Int × TPDU)} (h : Far lag a b) : Far lag b a := by
  rcases h with h | h
  · exact .inr (fun x hx y hy => h y hy x hx)
  · exact .inl (fun x hx y hy => h y hy x hx)

/-- Groups of segments that are more than `lag` apart, each within less than `d`, are answered one group after the
other, each on its own. -/
theorem epochs_flights {α : Type} (d lag : Int) (hdl : d ≤ lag) (hlag : 0 ≤ lag) (m : Ident) : ∀ (n : Nat) (fl : List (α × List (Int × TPDU))), fl.length = n →
    ∀ (l : List (Int × TPDU)) (since : List TPDU) (last : Int), l.Pairwise (fun x y => x.1 ≤ y.1) → l.Perm (fl.flatMap (·.2)) →
    (∀ f ∈ fl, ∀ x ∈ f.2, ∀ y ∈ f.2, y.1 < x.1 + d) → fl.Pairwise (fun f g => Far lag f.2 g.2) →
    (since ≠ [] → ∀ x ∈ l, last + lag < x.1) →
    Clear d lag m since last l ∧ ∃ gs : List ((α × List (Int × TPDU)) × List (Int × TPDU)), (gs.map (·.1)).Perm fl ∧
      (∀ g ∈ gs, g.2.Perm g.1.2) ∧ l = gs.flatMap (·.2) ∧
      epochs lag m since last l = gs.flatMap (fun g => (rounds m [] (g.2.map (·.2))).1) := by
  intro n
  induction n with
  | zero =>
    intro fl hfl l since last _ hp _ _ _
    have := List.length_eq_zero_iff.1 hfl
    subst this
    have := hp.eq_nil
    subst this
    exact ⟨trivial, [], .refl _, by simp, rfl, rfl⟩
  | succ n ih =>
    intro fl hfl l since last hsort hp hclose hfar hlast
    -- take one group out
    have out : ∀ f, f ∈ fl → ∃ fl', fl.Perm (f :: fl') ∧ fl'.length = n ∧ (∀ f' ∈ fl', Far lag f.2 f'.2) ∧
        fl'.Pairwise (fun f g => Far lag f.2 g.2) ∧ (∀ f' ∈ fl', f' ∈ fl) := by
      intro f hf
      obtain ⟨a, b, rfl⟩ := List.append_of_mem hf
      have hpm : (a ++ f :: b).Perm (f :: (a ++ b)) := List.perm_middle
      have hpw := (hpm.pairwise_iff (fun {x y} h => far_symm h)).1 hfar
      obtain ⟨p1, p2⟩ := List.pairwise_cons.1 hpw
      refine ⟨a ++ b, hpm, ?_, p1, p2, ?_⟩
      · simp only [List.length_append, List.length_cons] at hfl ⊢; omega
      · intro f' hf'
        rcases List.mem_append.1 hf' with h | h
        · exact List.mem_append_left _ h
        · exact List.mem_append_right _ (List.mem_cons_of_mem _ h)
    by_cases hempty : ∃ f ∈ fl, f.2 = []
    · obtain ⟨f, hf, hfe⟩ := hempty
      obtain ⟨fl', o1, o2, _, o4, o5⟩ := out f hf
      have hp' : l.Perm (fl'.flatMap (·.2)) := by
        refine hp.trans ?_
        have := o1.flatMap_right (·.2)
        rw [List.flatMap_cons, hfe, List.nil_append] at this
        exact this
      obtain ⟨c, gs, g1, g2, g3, g4⟩ := ih fl' o2 l since last hsort hp' (fun f' hf' => hclose f' (o5 f' hf')) o4 hlast
      refine ⟨c, (f, []) :: gs, ?_, ?_, ?_, ?_⟩
      · exact (g1.cons f).trans o1.symm
      · intro g hg
        rcases List.mem_cons.1 hg with rfl | hg
        · rw [hfe]
        · exact g2 g hg
      · rw [List.flatMap_cons]; exact g3
      · rw [List.flatMap_cons]; exact g4
    · cases l with
      | nil =>
        exfalso
        cases fl with
        | nil => simp at hfl
        | cons f fl =>
          apply hempty
          refine ⟨f, List.mem_cons_self, ?_⟩
          have := hp.symm.eq_nil
          rw [List.flatMap_cons, List.append_eq_nil_iff] at this
          exact this.1
      | cons x l =>
        obtain ⟨f, hf, hxf⟩ := List.mem_flatMap.1 (hp.mem_iff.1 (List.mem_cons_self (a := x) (l := l)))
        obtain ⟨fl', o1, o2, o3, o4, o5⟩ := out f hf
        have hfirst : ∀ y ∈ x :: l, x.1 ≤ y.1 := by
          intro y hy
          rcases List.mem_cons.1 hy with rfl | hy
          · exact Int.le_refl _
          · exact (List.pairwise_cons.1 hsort).1 y hy
        have hp2 : (x :: l).Perm (f.2 ++ fl'.flatMap (·.2)) := by
          refine hp.trans ?_
          have := o1.flatMap_right (·.2)
          rwa [List.flatMap_cons] at this
        have hin : ∀ y ∈ f.2, y.1 < x.1 + d := hclose f hf x hxf
        have hfrest : ∀ y ∈ fl'.flatMap (·.2), x.1 + lag < y.1 ∧ ∀ z ∈ f.2, z.1 + lag < y.1 := by
          intro y hy
          obtain ⟨f', hf', hyf⟩ := List.mem_flatMap.1 hy
          have hxy := hfirst y (hp2.mem_iff.2 (List.mem_append_right _ hy))
          rcases o3 f' hf' with h | h
          · exact ⟨h x hxf y hyf, fun z hz => h z hz y hyf⟩
          · have := h x hxf y hyf
            omega
        have e1 : (f.2 ++ fl'.flatMap (·.2)).filter (fun y => decide (y.1 < x.1 + d)) = f.2 := by
          rw [List.filter_append]
          have a1 : f.2.filter (fun y => decide (y.1 < x.1 + d)) = f.2 := by
            rw [List.filter_eq_self]
            intro y hy
            have := hin y hy
            simpa using this
          have a2 : (fl'.flatMap (·.2)).filter (fun y => decide (y.1 < x.1 + d)) = [] := by
            rw [List.filter_eq_nil_iff]
            intro y hy
            have := (hfrest y hy).1
            simp; omega
          rw [a1, a2, List.append_nil]
        have e2 : (f.2 ++ fl'.flatMap (·.2)).filter (fun y => ! decide (y.1 < x.1 + d)) = fl'.flatMap (·.2) := by
          rw [List.filter_append]
          have a1 : f.2.filter (fun y => ! decide (y.1 < x.1 + d)) = [] := by
            rw [List.filter_eq_nil_iff]
            intro y hy
            have := hin y hy
            simpa using this
          have a2 : (fl'.flatMap (·.2)).filter (fun y => ! decide (y.1 < x.1 + d)) = fl'.flatMap (·.2) := by
            rw [List.filter_eq_self]
            intro y hy
            have := (hfrest y hy).1
            simp; omega
          rw [a1, a2, List.nil_append]
        have q1 := hp2.filter (fun y => decide (y.1 < x.1 + d))
        have q2 := hp2.filter (fun y => ! decide (y.1 < x.1 + d))
        rw [e1] at q1
        rw [e2] at q2
        have hsplit := sorted_split (x.1 + d) (x :: l) hsort
        generalize hg : (x :: l).filter (fun y => decide (y.1 < x.1 + d)) = g at q1 hsplit
        generalize hr : (x :: l).filter (fun y => ! decide (y.1 < x.1 + d)) = r at q2 hsplit
        have hwin : ∀ y ∈ g, x.1 ≤ y.1 ∧ y.1 < x.1 + d := by
          intro y hy
          exact ⟨hfirst y (by rw [hsplit]; exact List.mem_append_left _ hy), hin y (q1.mem_iff.1 hy)⟩
        have hreset : epochs lag m since last (x :: l) = epochs lag m [] last (x :: l) ∧
            (Clear d lag m [] last (x :: l) → Clear d lag m since last (x :: l)) := by
          by_cases hn : since = []
          · rw [hn]; exact ⟨rfl, id⟩
          · exact epochs_reset d lag m since last _ (hlast hn)
        obtain ⟨since', last', k1, k2, k3⟩ := epochs_group d lag hdl m x.1 r g [] last (fun h => absurd rfl h) hwin
        have hsr : r.Pairwise (fun x y => x.1 ≤ y.1) := by
          rw [hsplit] at hsort
          exact (List.pairwise_append.1 hsort).2.1
        obtain ⟨c, gs, g1, g2, g3, g4⟩ := ih fl' o2 r since' last' hsr q2 (fun f' hf' => hclose f' (o5 f' hf')) o4 (by
          intro hne y hy
          rcases k3 hne with ⟨z, hz, e⟩ | ⟨h, _⟩
          · have := (hfrest y (q2.mem_iff.1 hy)).2 z (q1.mem_iff.1 hz)
            omega
          · exact absurd rfl h)
        refine ⟨?_, (f, g) :: gs, (g1.cons f).trans o1.symm, ?_, ?_, ?_⟩
        · apply hreset.2
          rw [hsplit]
          exact k2 c
        · intro g' hg'
          rcases List.mem_cons.1 hg' with rfl | hg'
          · exact q1
          · exact g2 g' hg'
        · rw [List.flatMap_cons, ← g3]; exact hsplit
        · rw [hreset.1, List.flatMap_cons, ← g4, hsplit]
          exact k1

end Verif.Proofs.Coll
