import Verif.Proofs.Stale
import Verif.Props.Repeats

/-! C109: the reassembly timeout in real time. -/

namespace Verif.Props

open Verif.Model Verif.Model.Collector Verif.Spec Verif.Proofs Verif.Proofs.Coll
open Verif.Spec.Reassembly (Parts)
open Verif.Spec.Timed (History events Ordered arrivals Timely Prompt Brisk Chained)

theorem new_last (k : Bytes) (timeout handler : Bool) (set : List Int) (last : Int) : Last k (New timeout handler) set last := by
  intro p pipe tid h; simp [New] at h

/-- C109, kept: if no timer fires earlier than `d` after it was created, and every segment of a message that
arrives while the message is incomplete arrives less than `d` after the last new segment, then whatever timers
fire when, and whatever else arrives, the calls given segments of the message answer as `rounds` says, which is
as if there were no timeout (`C106_answers`); and the message is returned whenever that says so. -/
theorem C109_answers (d : Int) (handler : Bool) (h : History) (hf : ∀ e ∈ events h, FineEvent e) (ho : ∀ e ∈ events h, e ≠ .close)
    (hord : Ordered h) (htime : Timely d (New true handler) [] h) (m : Ident) (hm : 2 ≤ m.count)
    (hbrisk : Brisk d m [] 0 (Timed.segs m h)) :
    ∃ s os, run (New true handler) (events h) = .ok (s, os) ∧
      Timed.answers m (events h) os = (rounds m [] ((Timed.segs m h).map (·.2))).1 ∧
      deliveries m os = ((rounds m [] ((Timed.segs m h).map (·.2))).1.map (·.1)).filter (fun d => d ≠ []) := by
  obtain ⟨s, os, hr, ha⟩ := timed_answers d m hm h (New true handler) [] [] 0 (inv_new true handler) rfl ⟨rfl, .inl ⟨rfl, rfl⟩⟩
    (not_covered_nil hm) (new_last _ _ _ _ _) hf ho hord htime hbrisk
  refine ⟨s, os, hr, ha, ?_⟩
  rw [deliveries_watch m _ (inv_new true handler) hf hr, whole_answers m _ (inv_new true handler) hf hr, ha]
  rfl

/-- Each segment of a message once: the message comes out once. -/
theorem full_perm {m : Ident} {sg l : List TPDU} (h : SegmentsOf m sg) (hp : l.Perm sg) :
    full (rounds m [] l).1 = [sg.map some] := by
  have hnd : (l.map (segOf m)).Nodup := (hp.map (segOf m)).nodup_iff.2 (segs_nodup h)
  have hsub : ∀ pdu ∈ l, pdu ∈ sg := fun pdu hq => hp.mem_iff.1 hq
  have h1 := (rounds_once h.multi l [] (not_covered_nil h.multi)).2 ⟨by simpa using perm_covered h hp, by
    intro a pdu b he hc
    rw [List.nil_append] at hc
    rw [he, List.map_append, List.map_cons] at hnd
    have hmem : pdu ∈ sg := hsub pdu (by rw [he]; simp)
    have := (covered_iff h (fun q hq => hsub q (by rw [he]; simp [hq]))).1 hc pdu hmem
    exact (List.nodup_append.1 hnd).2.2 _ (List.mem_map.2 ⟨pdu, this, rfl⟩) _ List.mem_cons_self rfl⟩
  obtain ⟨x, hx⟩ := List.length_eq_one_iff.1 h1.1
  rw [hx, rounds_mem h l [] hsub x (by rw [hx]; simp)]

theorem arrivals_collected (h : History) : (arrivals h).map (·.2) = collected (events h) := by
  induction h with
  | nil => rfl
  | cons x h ih =>
    obtain ⟨now, e⟩ := x
    cases e with
    | collect pdu => exact congrArg (pdu :: ·) ih
    | _ => exact ih

theorem segs_pdus (m : Ident) (h : History) : (Timed.segs m h).map (·.2) = segmentsOf m (collected (events h)) := by
  unfold Timed.segs segmentsOf
  rw [← arrivals_collected, List.filter_map]
  rfl

/-- C109, kept: a message of which every segment arrives once, in any order, each less than `d` after the one
before, is returned, once, complete and in sequence; and nothing of it is given to the expiry handler. -/
theorem C109_kept (d : Int) (handler : Bool) (h : History) (hf : ∀ e ∈ events h, FineEvent e) (ho : ∀ e ∈ events h, e ≠ .close)
    (hord : Ordered h) (htime : Timely d (New true handler) [] h) (m : Ident) (sg : List TPDU) (hsg : SegmentsOf m sg)
    (hall : ((Timed.segs m h).map (·.2)).Perm sg)
    (hgap : ∀ (i : Nat) a b, (Timed.segs m h)[i]? = some a → (Timed.segs m h)[i + 1]? = some b → b.1 < a.1 + d) :
    ∃ s os, run (New true handler) (events h) = .ok (s, os) ∧ deliveries m os = [sg.map some] ∧
      ∀ (i : Nat) dd ptr, os[i]? = some (.handled dd) → some ptr ∈ dd → segOf m ptr.pdu = none := by
  have hnd : (((Timed.segs m h).map (·.2)).map (segOf m)).Nodup := (hall.map (segOf m)).nodup_iff.2 (segs_nodup hsg)
  have hpw : (Timed.segs m h).Pairwise (fun a b => segOf m a.2 ≠ segOf m b.2) := by
    unfold List.Nodup at hnd
    rw [List.map_map, List.pairwise_map] at hnd
    exact hnd
  obtain ⟨s, os, hr, ha, hd⟩ := C109_answers d handler h hf ho hord htime m hsg.multi
    (brisk_gaps d m _ [] 0 (fun h => absurd rfl h) hgap hpw (by simp))
  have hdel : deliveries m os = [sg.map some] := by rw [hd]; exact full_perm hsg hall
  refine ⟨s, os, hr, hdel, ?_⟩
  intro i dd ptr hi hptr
  cases hso : segOf m ptr.pdu with
  | none => rfl
  | some seq =>
    exfalso
    have hseg := segOf_some.1 hso
    obtain ⟨j, hj⟩ := List.mem_iff_getElem?.1 hptr
    obtain ⟨_, m', _, _, _, hall'⟩ := C51_incomplete true handler _ hf s os hr i dd hi
    have hcol := (hall' j ptr hj).2
    -- the message as returned
    have hmem : sg.map some ∈ deliveries m os := by rw [hdel]; simp
    obtain ⟨o, ho1, ho2⟩ := List.mem_filterMap.1 hmem
    cases o with
    | returned d' err =>
      simp only at ho2
      split at ho2
      · rename_i hne
        have hpd := Option.some.inj ho2
        have hrep : (d', err) ∈ replies os := List.mem_filterMap.2 ⟨_, ho1, rfl⟩
        obtain ⟨c, hc⟩ := List.mem_iff_getElem?.1 hrep
        obtain ⟨i', hi'⟩ := List.mem_iff_getElem?.1 ho1
        have hpos := hseg.1.pos
        have hle := hseg.1.le
        have hlen : d'.length = m.count := by
          have := congrArg List.length hpd
          unfold pdus at this
          simp only [List.length_map] at this
          rw [this, hsg.count]
        rcases (C49_complete true handler _ hf s os hr c d' err hc hne.1).2 with ⟨pdu, _, hmp, rfl⟩ | ⟨m1, hl1, hall1, _⟩
        · have := hsg.multi
          simp at hlen; omega
        · obtain ⟨ptr', p1, p2, p3, _⟩ := hall1 (seq - 1) (by rw [← hl1, hlen]; omega)
          have hmem' : some ptr' ∈ d' := List.mem_of_getElem? p1
          obtain ⟨q, hq1, hq2⟩ := hne.2 _ hmem'
          cases hq1
          have : m1 = m := segOf_inj (pdu := ptr'.pdu) (by rw [segOf_some.2 p2]; rfl) hq2
          subst this
          have hso' : segOf m1 ptr'.pdu = some seq := by rw [segOf_some.2 p2]; congr 1; omega
          -- the same number, so the same call
          refine C51_not_returned true handler _ hf s os hr i i' dd d' err hi hi' ptr ptr' hptr hmem' ?_
          have hpw' : (collected (events h)).Pairwise (fun a b => (segOf m1 a).isSome → (segOf m1 b).isSome → segOf m1 a ≠ segOf m1 b) := by
            have := hnd
            rw [segs_pdus] at this
            unfold List.Nodup at this
            rw [List.pairwise_map] at this
            unfold segmentsOf at this
            rw [List.pairwise_filter] at this
            exact this
          rw [List.pairwise_iff_getElem] at hpw'
          obtain ⟨l1, e1⟩ := List.getElem?_eq_some_iff.1 hcol
          obtain ⟨l2, e2⟩ := List.getElem?_eq_some_iff.1 p3
          rcases Nat.lt_trichotomy ptr.id ptr'.id with hlt | heq | hlt
          · exact absurd (by rw [e1, e2, hso, hso']) (hpw' _ _ l1 l2 hlt (by rw [e1, hso]; rfl) (by rw [e2, hso']; rfl))
          · exact heq
          · exact absurd (by rw [e1, e2, hso, hso']) (hpw' _ _ l2 l1 hlt (by rw [e2, hso']; rfl) (by rw [e1, hso]; rfl))
      · cases ho2
    | _ => cases ho2

/-- C109, kept: if everything that arrives of a message arrives within less than `d`, in any order and any number
of times, the message is returned if and only if all of its segments arrive. -/
theorem C109_within (d : Int) (handler : Bool) (h : History) (hf : ∀ e ∈ events h, FineEvent e) (ho : ∀ e ∈ events h, e ≠ .close)
    (hord : Ordered h) (htime : Timely d (New true handler) [] h) (m : Ident) (sg : List TPDU) (hsg : SegmentsOf m sg)
    (hsub : ∀ x ∈ Timed.segs m h, x.2 ∈ sg) (t : Int) (hin : ∀ x ∈ Timed.segs m h, t ≤ x.1 ∧ x.1 < t + d) :
    ∃ s os, run (New true handler) (events h) = .ok (s, os) ∧ (∀ dd ∈ deliveries m os, dd = sg.map some) ∧
      (deliveries m os ≠ [] ↔ ∀ pdu ∈ sg, pdu ∈ (Timed.segs m h).map (·.2)) := by
  obtain ⟨s, os, hr, _, hd⟩ := C109_answers d handler h hf ho hord htime m hsg.multi
    (brisk_within d m t _ [] 0 (fun h => absurd rfl h) hin)
  have hd : deliveries m os = full (rounds m [] ((Timed.segs m h).map (·.2))).1 := hd
  have hsub' : ∀ pdu ∈ (Timed.segs m h).map (·.2), pdu ∈ sg := by
    intro pdu hp
    obtain ⟨x, hx, rfl⟩ := List.mem_map.1 hp
    exact hsub x hx
  refine ⟨s, os, hr, ?_, ?_⟩
  · intro dd hdd
    rw [hd] at hdd
    exact rounds_mem hsg _ [] hsub' dd hdd
  · rw [hd]
    constructor
    · intro hne pdu hp
      have h1 := rounds_le hsg _ [] hsub' pdu hp
      have h2 := List.length_pos_iff.2 hne
      exact List.count_pos_iff.1 (by rw [List.nil_append] at h1; omega)
    · intro hall
      exact rounds_pos hsg.multi _ [] (not_covered_nil hsg.multi) ((covered_iff hsg hsub').2 hall)

/-- C109, dropped: if every timer has fired or been stopped within `lag` of its creation, then of the segments a
call returns, each but the last was followed by another within `lag`, whatever else happens. -/
theorem C109_chained (lag : Int) (handler : Bool) (h : History) (hf : ∀ e ∈ events h, FineEvent e)
    (hprompt : Prompt [.armed] lag (New true handler) [] h) (s : State) (os : List Output)
    (hr : run (New true handler) (events h) = .ok (s, os)) (i : Nat) (d : List (Option Ptr)) (err : Option Err)
    (hi : os[i]? = some (.returned d err)) : Chained lag ((arrivals h).map (·.1)) d := by
  have := (stamped_run lag [.armed] (by simp) h (New true handler) [] [] (inv_new true handler) rfl (stamped_new lag true handler)
    hf hprompt s os hr).2 i d err hi
  rw [List.nil_append] at this
  exact this

/-- C109, dropped: if there is a pause of more than `lag` in the arrival of segments of a message, nothing that is
returned has segments from before the pause and from after it, so that a message that reuses the reference of an
earlier one after such a pause is not mixed with what was left of it. -/
theorem C109_reuse (lag : Int) (hlag : 0 ≤ lag) (handler : Bool) (h : History) (hf : ∀ e ∈ events h, FineEvent e) (hord : Ordered h)
    (hprompt : Prompt [.armed] lag (New true handler) [] h) (s : State) (os : List Output)
    (hr : run (New true handler) (events h) = .ok (s, os)) (m : Ident) (t : Int)
    (hpause : ∀ x ∈ Timed.segs m h, x.1 ≤ t ∨ t + lag < x.1) (i : Nat) (d : List (Option Ptr)) (err : Option Err)
    (hi : os[i]? = some (.returned d err)) (hd : ∀ ptr, some ptr ∈ d → (segOf m ptr.pdu).isSome) :
    (∀ ptr, some ptr ∈ d → ∃ x, (arrivals h)[ptr.id]? = some (x, ptr.pdu) ∧ x ≤ t) ∨
    (∀ ptr, some ptr ∈ d → ∃ x, (arrivals h)[ptr.id]? = some (x, ptr.pdu) ∧ t + lag < x) := by
  have hch := C109_chained lag handler h hf hprompt s os hr i d err hi
  -- where they come from
  have harr : ∀ ptr, some ptr ∈ d → ∃ x, (arrivals h)[ptr.id]? = some (x, ptr.pdu) ∧ (x ≤ t ∨ t + lag < x) := by
    intro ptr hp
    have hcol : (collected (events h))[ptr.id]? = some ptr.pdu := by
      obtain ⟨c, hc⟩ := List.mem_iff_getElem?.1 (show (d, err) ∈ replies os from List.mem_filterMap.2 ⟨_, List.mem_of_getElem? hi, rfl⟩)
      rcases (C49_complete true handler _ hf s os hr c d err hc (List.ne_nil_of_mem hp)).2 with ⟨pdu, h1, _, rfl⟩ | ⟨m1, hl1, hall1, _⟩
      · simp only [List.mem_singleton, Option.some.injEq] at hp
        rw [hp]; exact h1
      · obtain ⟨j, hj⟩ := List.mem_iff_getElem?.1 hp
        obtain ⟨ptr', p1, _, p3, _⟩ := hall1 j (by rw [← hl1]; exact get_lt hj)
        rw [hj] at p1; cases p1
        exact p3
    rw [← arrivals_collected, List.getElem?_map, Option.map_eq_some_iff] at hcol
    obtain ⟨⟨x, pdu⟩, h1, h2⟩ := hcol
    simp only at h2
    subst h2
    exact ⟨x, h1, hpause (x, ptr.pdu) (List.mem_filter.2 ⟨List.mem_of_getElem? h1, hd ptr hp⟩)⟩
  -- time goes with the number of the call
  have hmono : ∀ (a b : Nat) x y, (arrivals h)[a]? = some x → (arrivals h)[b]? = some y → a ≤ b → x.1 ≤ y.1 := by
    have hs : (arrivals h).Pairwise (fun a b => a.1 ≤ b.1) := by
      unfold arrivals
      rw [List.pairwise_filterMap]
      unfold Ordered at hord
      rw [List.pairwise_map] at hord
      refine hord.imp ?_
      rintro ⟨x, e⟩ ⟨y, e'⟩ hxy a ha b hb
      simp only at ha hb hxy
      split at ha
      · split at hb
        · cases ha; cases hb; exact hxy
        · cases hb
      · cases ha
    rw [List.pairwise_iff_getElem] at hs
    intro a b x y ha hb hab
    obtain ⟨la, ea⟩ := List.getElem?_eq_some_iff.1 ha
    obtain ⟨lb, eb⟩ := List.getElem?_eq_some_iff.1 hb
    rcases Nat.lt_or_eq_of_le hab with hlt | heq
    · have := hs a b la lb hlt
      rwa [ea, eb] at this
    · subst heq
      rw [ha] at hb; cases hb
      exact Int.le_refl _
  by_cases hlate : ∃ q x, some q ∈ d ∧ (arrivals h)[q.id]? = some (x, q.pdu) ∧ t + lag < x
  · right
    intro ptr hp
    obtain ⟨q, xq, hq, hxq, hl⟩ := hlate
    -- no early one, by descent from the late one
    have key : ∀ n ptr x, some ptr ∈ d → (arrivals h)[ptr.id]? = some (x, ptr.pdu) → x ≤ t → q.id ≤ ptr.id + n → False := by
      intro n
      induction n with
      | zero =>
        intro ptr x hp hx hxt hle
        have := hmono _ _ _ _ hxq hx (by omega)
        simp only at this; omega
      | succ n ih =>
        intro ptr x hp hx hxt hle
        rcases hch ptr hp with hlast | ⟨q', x', y', h1, h2, h3, h4, h5⟩
        · have := hmono _ _ _ _ hxq hx (hlast q hq)
          simp only at this; omega
        · obtain ⟨y, hy, hor⟩ := harr q' h1
          rw [List.getElem?_map, hx] at h3
          rw [List.getElem?_map, hy] at h4
          have e3 : x = x' := Option.some.inj h3
          have e4 : y = y' := Option.some.inj h4
          exact ih q' y h1 hy (by omega) (by omega)
    obtain ⟨x, hx, hor⟩ := harr ptr hp
    refine ⟨x, hx, ?_⟩
    rcases hor with hor | hor
    · exact (key q.id ptr x hp hx hor (by omega)).elim
    · exact hor
  · left
    intro ptr hp
    obtain ⟨x, hx, hor⟩ := harr ptr hp
    exact ⟨x, hx, hor.resolve_right (fun hl => hlate ⟨ptr, x, hp, hx, hl⟩)⟩

theorem prompt_prefix {states : List TimerState} {lag : Int} {h2 : History} : ∀ (h : History) {s : State} {set : List Int},
    Prompt states lag s set (h ++ h2) → Prompt states lag s set h := by
  intro h
  induction h with
  | nil => intros; trivial
  | cons x h ih =>
    obtain ⟨n, e⟩ := x
    intro s set hh
    refine ⟨hh.1, ?_⟩
    have h2 := hh.2
    cases hs : step s e with
    | error f => trivial
    | ok r =>
      simp only [hs] at h2 ⊢
      exact ih h2

/-- C109, forgotten: if the callback of every timer is done with the Collector within `lag` of the creation of the
timer, then at any time whatever is pending in an open Collector has a segment that arrived at most `lag` ago. -/
theorem C109_forgotten (lag : Int) (handler : Bool) (h1 : History) (now : Int) (e : Event) (h2 : History)
    (hf : ∀ e ∈ events h1, FineEvent e) (hprompt : Prompt [.armed, .fired] lag (New true handler) [] (h1 ++ (now, e) :: h2))
    (s : State) (os : List Output) (hr : run (New true handler) (events h1) = .ok (s, os)) (hc : s.closed = false)
    (key : Bytes) (p : Nat) (hp : (Pipes s).lookup key = some p) :
    ∃ ptr τ, some ptr ∈ deref s p ∧ ((arrivals h1).map (·.1))[ptr.id]? = some τ ∧ now ≤ τ + lag := by
  obtain ⟨⟨set', hst, hp2⟩, _⟩ := stamped_run lag [.armed, .fired] (by simp) h1 (New true handler) [] [] (inv_new true handler) rfl
    (stamped_new lag true handler) hf (prompt_prefix h1 hprompt) s os hr
  obtain ⟨s', os', hr', hinv, _, hto, _⟩ := run_ok _ (inv_new true handler) hf
  rw [hr] at hr'; cases hr'
  obtain ⟨pipe, hpp, hok, hlt, _, htt⟩ := hinv.cur key p hp
  obtain ⟨tid, t, hcl, ht, hstate⟩ := htt hto
  obtain ⟨τ, ptr, l1, l2, l3, _⟩ := hst.last p pipe tid hpp hcl hlt
  refine ⟨ptr, τ, by rw [deref_of hpp]; exact l2, by rw [List.nil_append] at l3; exact l3, ?_⟩
  refine hp2 now e h2 hprompt tid t τ ht ?_ l1
  rcases hstate with h | h | ⟨_, h⟩
  · rw [h]; simp
  · rw [h]; simp
  · rw [hc] at h; cases h

/-- C109, settled: if the callback of every timer is done, handler included, within `lag` of the creation of the
timer, then every segment of a message that was accepted has been returned or handed to the expiry handler, exactly
once, as soon as no segment of the message has arrived for more than `lag`, unless the Collector was closed. -/
theorem C109_settled (lag : Int) (h1 : History) (now : Int) (e : Event) (h2 : History) (hf : ∀ e ∈ events h1, FineEvent e)
    (hprompt : Prompt [.armed, .fired, .expired] lag (New true true) [] (h1 ++ (now, e) :: h2)) (s : State) (os : List Output)
    (hr : run (New true true) (events h1) = .ok (s, os)) (hc : s.closed = false) (m : Ident)
    (hpause : ∀ x ∈ Timed.segs m h1, x.1 + lag < now) (c : Nat) (pdu : TPDU) (hcol : (collected (events h1))[c]? = some pdu)
    (hm : (segOf m pdu).isSome) (d : List (Option Ptr)) (hacc : (replies os)[c]? = some (d, none)) :
    ∃ pl, At os s c pl ∧ (∃ i j, pl = .returned i j ∨ pl = .handled i j) ∧ ∀ pl', At os s c pl' → pl' = pl := by
  have hh := hist_run hf hr
  obtain ⟨⟨set', hst, hp2⟩, _⟩ := stamped_run lag [.armed, .fired, .expired] (by simp) h1 (New true true) [] [] (inv_new true true) rfl
    (stamped_new lag true true) hf (prompt_prefix h1 hprompt) s os hr
  obtain ⟨s', os', hr', hinv, _, hto, hha⟩ := run_ok _ (inv_new true true) hf
  rw [hr] at hr'; cases hr'
  -- a reassembly with a segment of the message whose timer is not done had one lately
  have late : ∀ (p : Nat) (pipe : Pipe) (tid : Nat) (t : Timer) (j : Nat) (ptr : Ptr), s.heap[p]? = some pipe → pipe.cleanup = some tid →
      pipe.frags < pipe.segments.length → s.timers[tid]? = some t → t.state ∈ [TimerState.armed, .fired, .expired] →
      pipe.segments[j]? = some (some ptr) → ptr.id = c → False := by
    intro p pipe tid t j ptr hp hcl hlt ht hs hj hid
    obtain ⟨τ, q, l1, l2, l3, _⟩ := hst.last p pipe tid hp hcl hlt
    have hnow := hp2 now e h2 hprompt tid t τ ht hs l1
    rw [List.nil_append] at l3
    obtain ⟨j', hj'⟩ := List.mem_iff_getElem?.1 l2
    have hg := (hh.genuine p j ptr ⟨pipe, hp, hj⟩).1
    have hg' := (hh.genuine p j' q ⟨pipe, hp, hj'⟩).1
    rw [hid, hcol] at hg
    have hg := Option.some.inj hg
    obtain ⟨⟨k, hok⟩, _⟩ := hinv.heap p pipe hp
    obtain ⟨m1, a1, a2, a3⟩ := of_segK (hok.seg j ptr hj)
    obtain ⟨m2, b1, b2, b3⟩ := of_segK (hok.seg j' q hj')
    have hmm := keyOf_inj (a3.trans b3.symm)
    subst hmm
    have hm1 : m1 = m := segOf_inj (pdu := ptr.pdu) (by rw [segOf_some.2 a1]; rfl) (by rw [← hg]; exact hm)
    subst hm1
    rw [← arrivals_collected, List.getElem?_map] at hg'
    have l3' : ((arrivals h1)[q.id]?).map (·.1) = some τ := by rw [← List.getElem?_map]; exact l3
    cases ha : (arrivals h1)[q.id]? with
    | none => rw [ha] at hg'; cases hg'
    | some x =>
      rw [ha] at hg' l3'
      have e1 : x.2 = q.pdu := Option.some.inj hg'
      have e2 : x.1 = τ := Option.some.inj l3'
      have := hpause x (List.mem_filter.2 ⟨List.mem_of_getElem? ha, by rw [e1, segOf_some.2 b1]; rfl⟩)
      omega
  obtain ⟨pl, hpl⟩ := at_exists hh hacc
  refine ⟨pl, hpl, ?_, fun pl' h' => at_uniq hh hpl h'⟩
  cases pl with
  | returned i j => exact ⟨i, j, .inl rfl⟩
  | handled i j => exact ⟨i, j, .inr rfl⟩
  | pending k j =>
    exfalso
    obtain ⟨p, ptr, a1, a2, a3⟩ := hpl
    obtain ⟨pipe, hp, _, hlt, _, htt⟩ := hinv.cur k p a1
    obtain ⟨tid, t, hcl, ht, hstate⟩ := htt hto
    rw [deref_of hp] at a2
    refine late p pipe tid t j ptr hp hcl hlt ht ?_ a2 a3
    rcases hstate with h | h | ⟨_, h⟩
    · rw [h]; simp
    · rw [h]; simp
    · rw [hc] at h; cases h
  | expiring i j =>
    exfalso
    obtain ⟨t, ptr, a1, a2, a3, a4⟩ := hpl
    obtain ⟨pipe, hp, _, hns, _⟩ := hinv.tim i t a1
    have hs : t.state = .expired ∨ t.state = .fired := a2.imp id (·.1)
    obtain ⟨hcl, hlt⟩ := hns (by rcases hs with h | h <;> rw [h] <;> simp)
    rw [deref_of hp] at a3
    refine late _ pipe i t j ptr hp hcl hlt a1 ?_ a3 a4
    rcases hs with h | h <;> rw [h] <;> simp
  | discarded i j =>
    exfalso
    have := hpl.1
    rw [hha] at this; cases this

/-- Two segments with a timer that fires after the second of them came too late. -/
def exLate : History := [(0, .collect (exSeg 7 2 1)), (9, .collect (exSeg 7 2 1)), (10, .fire 0), (10, .expire 0), (11, .collect (exSeg 7 2 2))]

theorem exLate_timely : Timely 10 (New true true) [] exLate := by
  refine ⟨?_, ?_, ?_, ?_, ?_, trivial⟩
  · intro i t τ h; cases h
  · intro i t τ h; cases h
  · intro i t τ h _ _ hs
    cases h
    cases hs
    decide
  · intro i t τ h; cases h
  · intro i t τ h; cases h

/-- Beside C109: the callbacks are done when the timeout is over, and the pause of `C109_reuse` is there. -/
theorem exLate_prompt : Prompt [.armed, .fired] 10 (New true true) [] exLate ∧
    ∀ x ∈ Timed.segs exPair [(0, .collect (exSeg 7 2 1)), (10, .fire 0), (11, .collect (exSeg 7 2 2))], x.1 ≤ 0 ∨ 0 + 10 < x.1 := by
  refine ⟨⟨?_, ?_, ?_, ?_, ?_, trivial⟩, by decide⟩
  · intro i t τ h; cases h
  · intro i t τ h hs hset
    match i with
    | 0 => cases hset; decide
    | i + 1 => cases h
  · intro i t τ h hs hset
    match i with
    | 0 => cases hset; decide
    | i + 1 => cases h
  · intro i t τ h hs hset
    match i with
    | 0 => cases hset; decide
    | i + 1 => cases h
  · intro i t τ h hs hset
    match i with
    | 0 => cases h; simp at hs
    | i + 1 => cases h

/-- Beside `C109_settled`: one segment of two, handed over when the timeout is over. -/
example : Prompt [.armed, .fired, .expired] 10 (New true true) []
      ([(0, .collect (exSeg 7 2 1)), (10, .fire 0), (10, .expire 0), (10, .handle 0)] ++ (11, .collect (exSeg 7 2 2)) :: []) ∧
    (∀ x ∈ Timed.segs exPair [(0, .collect (exSeg 7 2 1)), (10, .fire 0), (10, .expire 0), (10, .handle 0)], x.1 + 10 < 11) ∧
    (run (New true true) (events [(0, .collect (exSeg 7 2 1)), (10, .fire 0), (10, .expire 0), (10, .handle 0)])).map (fun r => (r.1.closed, r.2)) =
      .ok (false, [.returned [] none, .silent, .silent, .handled [some ⟨0, exSeg 7 2 1⟩, none]]) := by
  refine ⟨⟨?_, ?_, ?_, ?_, ?_, trivial⟩, by decide, by decide⟩
  · intro i t τ h; cases h
  · intro i t τ h hs hset
    match i with
    | 0 => cases hset; decide
    | i + 1 => cases h
  · intro i t τ h hs hset
    match i with
    | 0 => cases hset; decide
    | i + 1 => cases h
  · intro i t τ h hs hset
    match i with
    | 0 => cases hset; decide
    | i + 1 => cases h
  · intro i t τ h hs hset
    match i with
    | 0 => cases h; simp at hs
    | i + 1 => cases h

/-- C109: a segment that arrives again does not start the timeout anew.  Here every segment, those repeated
included, arrives less than the timeout after the one before, but the message is not returned. -/
theorem C109_repeat : ¬ ∀ (d : Int) (h : History), (∀ e ∈ events h, FineEvent e) → (∀ e ∈ events h, e ≠ .close) → Ordered h →
    Timely d (New true true) [] h → ∀ (m : Ident) (sg : List TPDU), SegmentsOf m sg →
    (∀ x ∈ Timed.segs m h, x.2 ∈ sg) → (∀ pdu ∈ sg, pdu ∈ (Timed.segs m h).map (·.2)) →
    (∀ (i : Nat) a b, (Timed.segs m h)[i]? = some a → (Timed.segs m h)[i + 1]? = some b → b.1 < a.1 + d) →
    ∃ s os, run (New true true) (events h) = .ok (s, os) ∧ deliveries m os ≠ [] := by
  intro hall
  have hsegs : Timed.segs exPair exLate = [(0, exSeg 7 2 1), (9, exSeg 7 2 1), (11, exSeg 7 2 2)] := by decide
  obtain ⟨s, os, hr, hd⟩ := hall 10 exLate (by
      intro e he
      simp only [events, exLate, List.map_cons, List.map_nil, List.mem_cons, List.not_mem_nil, or_false] at he
      rcases he with rfl | rfl | rfl | rfl | rfl
      · exact fun _ => .inr rfl
      · exact fun _ => .inr rfl
      · trivial
      · trivial
      · exact fun _ => .inr rfl) (by decide) (by unfold Ordered; decide) exLate_timely exPair _ exPairs
    (by rw [hsegs]; decide) (by rw [hsegs]; decide) (by
      rw [hsegs]
      intro i a b h1 h2
      match i with
      | 0 => cases h1; cases h2; decide
      | 1 => cases h1; cases h2; decide
      | i + 2 => simp at h2)
  have : (run (New true true) (events exLate)).map (fun r => deliveries exPair r.2) = .ok [] := by decide
  rw [hr] at this
  exact hd (Except.ok.inj this)

/-- Beside C109: three segments nine apart, where ten is the timeout, with a timer of something else firing between. -/
def exBrisk : History := [(0, .collect (exSeg 8 2 1)), (3, .collect (exSeg 7 3 2)), (10, .fire 0), (12, .collect (exSeg 7 3 3)), (13, .expire 0),
  (13, .handle 0), (21, .collect (exSeg 7 3 1))]

theorem exBrisk_timely : Timely 10 (New true true) [] exBrisk := by
  refine ⟨?_, ?_, ?_, ?_, ?_, ?_, ?_, trivial⟩
  · intro i t τ h; cases h
  · intro i t τ h; cases h
  · intro i t τ h _ _ hs
    cases h
    cases hs
    decide
  · intro i t τ h; cases h
  · intro i t τ h; cases h
  · intro i t τ h; cases h
  · intro i t τ h; cases h

theorem exBrisk_segs : Timed.segs exIdent exBrisk = [(3, exSeg 7 3 2), (12, exSeg 7 3 3), (21, exSeg 7 3 1)] := by decide

example : ((Timed.segs exIdent exBrisk).map (·.2)).Perm [exSeg 7 3 1, exSeg 7 3 2, exSeg 7 3 3] ∧ Ordered exBrisk ∧
    (∀ (i : Nat) a b, (Timed.segs exIdent exBrisk)[i]? = some a → (Timed.segs exIdent exBrisk)[i + 1]? = some b → b.1 < a.1 + 10) ∧
    Timed.segs { exIdent with ref := 8, count := 2 } exBrisk = [(0, exSeg 8 2 1)] := by
  refine ⟨by decide, by unfold Ordered; decide, ?_, by decide⟩
  rw [exBrisk_segs]
  intro i a b h1 h2
  match i with
  | 0 => cases h1; cases h2; decide
  | 1 => cases h1; cases h2; decide
  | i + 2 => simp at h2

end Verif.Props
