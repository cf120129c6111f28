import Verif.Props.Repeats
import Verif.Props.Collide
import Verif.Props.Separate

/-! C108: texts over a network that loses, repeats and reorders TPDUs. -/

namespace Verif.Props

open Verif.Model Verif.Model.Collector Verif.Model.Concurrent Verif.Spec Verif.Proofs Verif.Proofs.Coll
open Verif.Spec.Reassembly (Parts Input Result)

/-! Helpers. -/

/-- Whatever happens to a Collector that is given TPDUs of messages only, what it returns are those messages. -/
theorem returns_own (timeout handler : Bool) (singles : List TPDU) (msgs : List (Ident × List TPDU))
    (hsegs : ∀ x ∈ msgs, SegmentsOf x.1 x.2) (hdiffer : (msgs.map (·.1)).Nodup) (hsingle : ∀ pdu ∈ singles, ¬ MultiPart pdu)
    (es : List Event) (hes : ∀ e ∈ es, FineEvent e) (hfrom : ∀ pdu ∈ collected es, pdu ∈ singles ∨ ∃ x ∈ msgs, pdu ∈ x.2)
    (s : State) (os : List Output) (h : run (New timeout handler) es = .ok (s, os)) (d : Parts) (hd : d ∈ returns os) :
    (∃ pdu ∈ singles, d = [some pdu]) ∨ ∃ x ∈ msgs, d = x.2.map some := by
  unfold returns at hd
  obtain ⟨o, ho, hd'⟩ := List.mem_filterMap.1 hd
  cases o with
  | silent => cases hd'
  | handled d => cases hd'
  | returned dd err =>
    simp only at hd'
    split at hd'
    · rename_i hne
      cases hd'
      have : (dd, err) ∈ replies os := List.mem_filterMap.2 ⟨_, ho, rfl⟩
      obtain ⟨c, hc⟩ := List.mem_iff_getElem?.1 this
      rcases (C49_complete timeout handler _ hes s os h c dd err hc hne).2 with ⟨pdu, hpdu, hmp, rfl⟩ | ⟨m, hl, hall, _⟩
      · rcases hfrom pdu (List.mem_of_getElem? hpdu) with h1 | ⟨x, hx, h1⟩
        · exact .inl ⟨pdu, h1, rfl⟩
        · obtain ⟨j, _, h2⟩ := segs_find (hsegs x hx) h1
          exact absurd (segment_multi (segOf_some.1 h2)) hmp
      · right
        -- every place holds the segment with its number, of one and the same message
        have hat : ∀ j, j < m.count → ∃ x ∈ msgs, x.1 = m ∧ ∃ ptr, dd[j]? = some (some ptr) ∧ x.2[j]? = some ptr.pdu := by
          intro j hj
          obtain ⟨ptr, hp1, hp2, hp3, _⟩ := hall j hj
          rcases hfrom ptr.pdu (List.mem_of_getElem? hp3) with h1 | ⟨x, hx, h1⟩
          · exact absurd (segment_multi hp2) (hsingle _ h1)
          · have he : x.1 = m := segOf_inj (segs_isSome (hsegs x hx) _ h1) (by rw [segOf_some.2 hp2]; rfl)
            obtain ⟨j', h3, h4⟩ := segs_find (hsegs x hx) h1
            rw [he, segOf_some.2 hp2] at h4
            have : j = j' := by
              have := Option.some.inj h4
              omega
            subst this
            exact ⟨x, hx, he, ptr, hp1, h3⟩
        have hpos : 0 < m.count := by
          rw [← hl]; exact List.length_pos_iff.2 hne
        obtain ⟨x, hx, he, _⟩ := hat 0 hpos
        refine ⟨x, hx, ?_⟩
        have hlen : x.2.length = m.count := by rw [(hsegs x hx).count, he]
        apply List.ext_getElem?
        intro j
        by_cases hj : j < m.count
        · obtain ⟨y, hy, hey, ptr, h1, h2⟩ := hat j hj
          have := nodup_fst hdiffer hx hy (he.trans hey.symm)
          subst this
          simp only [pdus, List.getElem?_map, h1, h2, Option.map_some]
        · rw [List.getElem?_eq_none (by simp [pdus]; omega), List.getElem?_eq_none (by simp; omega)]
    · cases hd'

theorem singles_of (dopts : List CharsetOpt) (l : List Item) (h : ∀ i ∈ l, Good dopts i ∧ i.pdus.length ≤ 255 ∧ ¬ 2 ≤ i.pdus.length) :
    ∃ singles : List TPDU, (∀ pdu ∈ singles, ¬ MultiPart pdu) ∧ l.map (·.qs) = singles.map (fun pdu => [pdu]) := by
  induction l with
  | nil => exact ⟨[], by simp, rfl⟩
  | cons i l ih =>
    obtain ⟨g1, g2, g3⟩ := h i (by simp)
    obtain ⟨q, hq, hm⟩ := item_single g1 g2 g3
    obtain ⟨singles, hs, he⟩ := ih (fun j hj => h j (by simp [hj]))
    refine ⟨q :: singles, ?_, by rw [List.map_cons, List.map_cons, he, hq]⟩
    intro pdu hp
    rcases List.mem_cons.1 hp with rfl | hp
    · exact hm
    · exact hs pdu hp

/-- What becomes of items over a network that loses, repeats and reorders TPDUs. -/
theorem items_network (timeout handler : Bool) (dopts : List CharsetOpt) (items : List Item)
    (h3 : ∀ i ∈ items, Good dopts i) (hsz : ∀ i ∈ items, i.pdus.length ≤ 255)
    (hids : ((items.filter (fun i => 2 ≤ i.pdus.length)).map Item.ident).Nodup) :
    (∀ es : List Event, (∀ pdu ∈ collected es, ∃ i ∈ items, pdu ∈ i.qs) →
      ∃ s os, run (New timeout handler) es = .ok (s, os) ∧ ∀ d ∈ returns os, ∃ i ∈ items, d = i.qs.map some) ∧
    (∀ arrival : List TPDU, (∀ pdu ∈ arrival, ∃ i ∈ items, pdu ∈ i.qs) →
      ∃ s os, run (New timeout handler) (arrival.map .collect) = .ok (s, os) ∧
        (∀ i ∈ items, (i.qs.map some ∈ returns os ↔ ∀ pdu ∈ i.qs, pdu ∈ arrival)) ∧
        (∀ d err, .returned d (some err) ∈ os → err = .duplicateSegment)) := by
  obtain ⟨singles, hs1, hs2⟩ := singles_of dopts (items.filter (fun i => ! decide (2 ≤ i.pdus.length))) (by
    intro i hi
    obtain ⟨hi, hn⟩ := List.mem_filter.1 hi
    exact ⟨h3 i hi, hsz i hi, by simpa using hn⟩)
  have hsegs : ∀ x ∈ (items.filter (fun i => 2 ≤ i.pdus.length)).map (fun i => (i.ident, i.qs)), SegmentsOf x.1 x.2 := by
    intro x hx
    obtain ⟨i, hi, rfl⟩ := List.mem_map.1 hx
    obtain ⟨hi, hn⟩ := List.mem_filter.1 hi
    exact item_segments (h3 i hi) (hsz i hi) (by simpa using hn)
  have hnd : (((items.filter (fun i => 2 ≤ i.pdus.length)).map (fun i => (i.ident, i.qs))).map (·.1)).Nodup := by
    rw [List.map_map]
    exact hids
  -- an item is one of the messages
  have hmsg : ∀ i ∈ items, (∃ pdu ∈ singles, i.qs = [pdu]) ∨
      (i.ident, i.qs) ∈ (items.filter (fun i => 2 ≤ i.pdus.length)).map (fun i => (i.ident, i.qs)) := by
    intro i hi
    by_cases hn : 2 ≤ i.pdus.length
    · exact .inr (List.mem_map.2 ⟨i, List.mem_filter.2 ⟨hi, by simpa using hn⟩, rfl⟩)
    · left
      have : i.qs ∈ singles.map (fun pdu => [pdu]) := by
        rw [← hs2]
        exact List.mem_map.2 ⟨i, List.mem_filter.2 ⟨hi, by simpa using hn⟩, rfl⟩
      obtain ⟨pdu, h1, h2⟩ := List.mem_map.1 this
      exact ⟨pdu, h1, h2.symm⟩
  have hone : ∀ pdu ∈ singles, ∃ i ∈ items, i.qs = [pdu] := by
    intro pdu hp
    have : [pdu] ∈ (items.filter (fun i => ! decide (2 ≤ i.pdus.length))).map (·.qs) := by
      rw [hs2]; exact List.mem_map.2 ⟨pdu, hp, rfl⟩
    obtain ⟨i, h1, h2⟩ := List.mem_map.1 this
    exact ⟨i, (List.mem_filter.1 h1).1, h2⟩
  have hfrom : ∀ pdu, (∃ i ∈ items, pdu ∈ i.qs) → pdu ∈ singles ∨
      ∃ x ∈ (items.filter (fun i => 2 ≤ i.pdus.length)).map (fun i => (i.ident, i.qs)), pdu ∈ x.2 := by
    rintro pdu ⟨i, hi, hp⟩
    rcases hmsg i hi with ⟨q, hq, he⟩ | hx
    · rw [he] at hp
      cases List.mem_singleton.1 hp
      exact .inl hq
    · exact .inr ⟨_, hx, hp⟩
  refine ⟨?_, ?_⟩
  · intro es hcol
    have hes : ∀ e ∈ es, FineEvent e := by
      intro e he
      cases e with
      | collect pdu =>
        obtain ⟨i, hi, hp⟩ := hcol pdu (List.mem_filterMap.2 ⟨_, he, rfl⟩)
        exact item_fine (h3 i hi) pdu hp
      | _ => trivial
    obtain ⟨s, os, hrun, _⟩ := run_ok _ (inv_new timeout handler) hes
    refine ⟨s, os, hrun, ?_⟩
    intro d hd
    rcases returns_own timeout handler singles _ hsegs hnd hs1 es hes (fun pdu hp => hfrom pdu (hcol pdu hp)) s os hrun d hd with
      ⟨pdu, h1, rfl⟩ | ⟨x, hx, rfl⟩
    · obtain ⟨i, hi, he⟩ := hone pdu h1
      exact ⟨i, hi, by rw [he]; rfl⟩
    · obtain ⟨i, hi, rfl⟩ := List.mem_map.1 hx
      exact ⟨i, (List.mem_filter.1 hi).1, rfl⟩
  · intro arrival ha
    obtain ⟨s, os, hrun, _, r2, r3, r4⟩ := C106_repeats_partial timeout handler singles _ arrival
      ⟨hs1, hsegs, hnd, fun pdu hp => hfrom pdu (ha pdu hp)⟩
    refine ⟨s, os, hrun, ?_, r4⟩
    intro i hi
    rcases hmsg i hi with ⟨q, hq, he⟩ | hx
    · rw [he]
      show [some q] ∈ returns os ↔ _
      rw [← List.count_pos_iff, r3 q hq, List.count_pos_iff]
      simp
    · exact (r2 _ hx).1

/-- C108, partial: texts are encoded by one encoder, all at the same time, and the TPDUs are marshalled.  The
octets are unmarshalled, and a network gives the TPDUs to a Collector in any order, each any number of times or
never.  Then whatever the Collector returns decodes to one of the texts; that holds also if timers fire, handlers
run and the Collector is closed meanwhile.  If none of that happens the TPDUs of a text are returned if and only if
all of them arrive; and the only error is that of a duplicate.

Missing: the texts that C38 and C39 exclude, and texts with the same type, other party, reference and number of
TPDUs, of which the TPDUs get mixed (C108_false). -/
theorem C108_texts_partial (w : Nat) (timeout handler : Bool) (e : Model.Sms.Encoder)
    (dopts : List CharsetOpt) (calls : List (List UInt8 × List Model.Sms.EncoderOption)) (hm hc : List Atomic.Event)
    (results : List (List TPDU)) (h : Concurrently w e calls hm hc results)
    (_hplain : ∀ c ∈ calls, ∀ cs, .charsets cs ∉ c.2)
    (hcalls : ∀ c ∈ calls, Postable e c.1 c.2)
    (htables : ∀ c ∈ calls, Matching (callCharsets e c.2) dopts)
    (hnat : ∀ c ∈ calls, Representable .default c.1 → ∀ ie ∈ (callTemplate e c.2).UDH, ie.ID ≠ 24 ∧ ie.ID ≠ 25)
    (hcomes : ∀ c ∈ calls, Comes e c.1 c.2) (hdiffer : (madeIdents e calls results).Nodup)
    (hsize : ∀ pdus ∈ results, pdus.length ≤ 255) :
    ∃ received, SentAll results received ∧
      (∀ (i : Nat) c qs, calls[i]? = some c → received[i]? = some qs → textOf dopts (qs.map some) = .ok c.1) ∧
      (∀ es : List Event, (∀ pdu ∈ collected es, pdu ∈ received.flatten) →
        ∃ s os, run (New timeout handler) es = .ok (s, os) ∧ ∀ d ∈ returns os, ∃ c ∈ calls, textOf dopts d = .ok c.1) ∧
      (∀ arrival : List TPDU, (∀ pdu ∈ arrival, pdu ∈ received.flatten) →
        ∃ s os, run (New timeout handler) (arrival.map .collect) = .ok (s, os) ∧
          (∀ qs ∈ received, (qs.map some ∈ returns os ↔ ∀ pdu ∈ qs, pdu ∈ arrival)) ∧
          (∀ d err, .returned d (some err) ∈ os → err = .duplicateSegment)) := by
  obtain ⟨items, h1, h2, h3⟩ := concurrent_items w e dopts calls hm hc results h hcalls
  have hmem : ∀ i ∈ items, i.2 ∈ calls := fun i hi => by rw [← h2]; exact List.mem_map.2 ⟨i, hi, rfl⟩
  have hg : ∀ i ∈ items.map (·.1), Good dopts i := by
    intro i hi
    obtain ⟨x, hx, rfl⟩ := List.mem_map.1 hi
    exact (h3 x hx).good
  have hsz : ∀ i ∈ items.map (·.1), i.pdus.length ≤ 255 := by
    intro i hi
    obtain ⟨x, hx, rfl⟩ := List.mem_map.1 hi
    exact hsize _ (by rw [← h1]; exact List.mem_map.2 ⟨x, hx, rfl⟩)
  have hids : ((items.map (·.1)).filter (fun i => 2 ≤ i.pdus.length)).map Item.ident = madeIdents e calls results := by
    rw [List.filter_map, List.map_map]
    unfold madeIdents
    have hz : calls.zip results = items.map (fun i => (i.2, i.1.pdus)) := by
      rw [← h1, ← h2, List.zip_map']
    rw [hz, List.filter_map, List.map_map]
    apply List.map_congr_left
    intro i hi
    exact made_ident (h3 i (List.mem_filter.1 hi).1)
  have htext : ∀ i ∈ items, textOf dopts (i.1.qs.map some) = .ok i.2.1 := by
    intro i hi
    have ht := posted_comes (hcalls _ (hmem i hi)) (htables _ (hmem i hi)) (hnat _ (hmem i hi)) (h3 i hi) (hcomes _ (hmem i hi))
    rw [← ht]
    simp only [textOf, List.filterMap_map]
    have : (id ∘ some : TPDU → Option TPDU) = some := rfl
    rw [this, List.filterMap_some]
    exact (h3 i hi).good.dec
  obtain ⟨n1, n2⟩ := items_network timeout handler dopts (items.map (·.1)) hg hsz (by rw [hids]; exact hdiffer)
  have hfrom : ∀ pdu, pdu ∈ ((items.map (·.1)).map (·.qs)).flatten → ∃ i ∈ items.map (·.1), pdu ∈ i.qs := by
    intro pdu hp
    obtain ⟨l, hl, hpl⟩ := List.mem_flatten.1 hp
    obtain ⟨i, hi, rfl⟩ := List.mem_map.1 hl
    exact ⟨i, hi, hpl⟩
  refine ⟨(items.map (·.1)).map (·.qs), ?_, ?_, ?_, ?_⟩
  · have := sentAll_items (items.map (·.1)) dopts hg
    rw [List.map_map] at this
    rw [← h1]; exact this
  · intro i c qs hci hqi
    rw [← h2, List.getElem?_map] at hci
    obtain ⟨x, hx, rfl⟩ := Option.map_eq_some_iff.1 hci
    rw [List.getElem?_map, List.getElem?_map, hx] at hqi
    cases hqi
    exact htext x (List.mem_of_getElem? hx)
  · intro es hes
    obtain ⟨s, os, r1, r2⟩ := n1 es (fun pdu hp => hfrom pdu (hes pdu hp))
    refine ⟨s, os, r1, ?_⟩
    intro d hd
    obtain ⟨i, hi, rfl⟩ := r2 d hd
    obtain ⟨x, hx, rfl⟩ := List.mem_map.1 hi
    exact ⟨x.2, hmem x hx, htext x hx⟩
  · intro arrival ha
    obtain ⟨s, os, r1, r2, r3⟩ := n2 arrival (fun pdu hp => hfrom pdu (ha pdu hp))
    refine ⟨s, os, r1, ?_, r3⟩
    intro qs hq
    obtain ⟨i, hi, rfl⟩ := List.mem_map.1 hq
    exact r2 i hi

/-- C108, partial, for texts that are encoded by a call of Encode each (C81): the same if no two texts that need more
than one TPDU go to the same number in the same number of TPDUs. -/
theorem C108_separate_partial (timeout handler : Bool) (cs dopts : List CharsetOpt) (hm : Matching cs dopts)
    (msgs : List (List UInt8 × List UInt8))
    (hmsgs : ∀ digits text, (digits, text) ∈ msgs → Digits digits ∧ digits.length ≤ 255 ∧ text ≠ [] ∧
      (InSeptets cs text → 0x1b ∉ text) ∧ ∃ rs, (∀ r ∈ rs, Scalar r) ∧ text = Unicode.encodeRunes rs)
    (sent : List (List TPDU))
    (hsent : msgs.map (fun m => Sms.Encode m.2 (Sms.To m.1 :: cs.map .charsets)) = sent.map .ok)
    (hsize : ∀ pdus ∈ sent, pdus.length ≤ 255)
    (hkeys : (((msgs.zip sent).filter (fun x => 2 ≤ x.2.length)).map (fun x => (x.1.1, x.2.length))).Nodup) :
    ∃ received, SentAll sent received ∧
      (∀ (i : Nat) m qs, msgs[i]? = some m → received[i]? = some qs → textOf dopts (qs.map some) = .ok m.2) ∧
      (∀ es : List Event, (∀ pdu ∈ collected es, pdu ∈ received.flatten) →
        ∃ s os, run (New timeout handler) es = .ok (s, os) ∧ ∀ d ∈ returns os, ∃ m ∈ msgs, textOf dopts d = .ok m.2) ∧
      (∀ arrival : List TPDU, (∀ pdu ∈ arrival, pdu ∈ received.flatten) →
        ∃ s os, run (New timeout handler) (arrival.map .collect) = .ok (s, os) ∧
          (∀ qs ∈ received, (qs.map some ∈ returns os ↔ ∀ pdu ∈ qs, pdu ∈ arrival)) ∧
          (∀ d err, .returned d (some err) ∈ os → err = .duplicateSegment)) := by
  have hlen : msgs.length = sent.length := by
    have := congrArg List.length hsent
    simpa using this
  obtain ⟨items, h1, h2, h3⟩ := choose_list (fun i : Item × (List UInt8 × List UInt8) => i.1.pdus)
    (fun i => i.2) (fun i => Good dopts i.1 ∧ i.1.text = i.2.2 ∧ i.1.address = ⟨0x91, i.2.1⟩) sent msgs hlen.symm (by
      intro i pdus m hp hmi
      obtain ⟨digits, text⟩ := m
      obtain ⟨g1, g2, g3, g4, g5⟩ := hmsgs digits text (List.mem_of_getElem? hmi)
      obtain ⟨r, qs, hr, hgood⟩ := item_of dopts _ text [Sms.To digits] (conveyable_submit digits text cs dopts g1 g2 hm g4 g3 g5)
      have he := congrArg (fun l => l[i]?) hsent
      simp only [List.getElem?_map, hmi, hp, Option.map_some, Option.some.injEq] at he
      rw [encode_fun, hr] at he
      cases he
      exact ⟨(_, _), rfl, rfl, hgood, rfl, submit_peer digits cs g1⟩)
  have hg : ∀ i ∈ items.map (·.1), Good dopts i := by
    intro i hi
    obtain ⟨x, hx, rfl⟩ := List.mem_map.1 hi
    exact (h3 x hx).1
  have hids : (((items.map (·.1)).filter (fun i => 2 ≤ i.pdus.length)).map Item.ident).Nodup := by
    rw [List.filter_map, List.map_map]
    have hz : msgs.zip sent = items.map (fun i => (i.2, i.1.pdus)) := by
      rw [← h1, ← h2, List.zip_map']
    rw [hz, List.filter_map, List.map_map] at hkeys
    rw [List.nodup_iff_pairwise_ne, List.pairwise_map] at hkeys ⊢
    refine List.Pairwise.imp_of_mem ?_ hkeys
    intro a b ha hb hne heq
    have ha := h3 a (List.mem_filter.1 ha).1
    have hb := h3 b (List.mem_filter.1 hb).1
    apply hne
    simp only [Function.comp_apply, Item.ident, Ident.mk.injEq] at heq ⊢
    obtain ⟨_, e1, _, e2⟩ := heq
    rw [ha.2.2, hb.2.2] at e1
    rw [item_length ha.1, item_length hb.1] at e2
    simp only [Address.mk.injEq, true_and] at e1
    rw [e1, e2]
  have hsz : ∀ i ∈ items.map (·.1), i.pdus.length ≤ 255 := by
    intro i hi
    obtain ⟨x, hx, rfl⟩ := List.mem_map.1 hi
    exact hsize _ (by rw [← h1]; exact List.mem_map.2 ⟨x, hx, rfl⟩)
  have htext : ∀ i ∈ items, textOf dopts (i.1.qs.map some) = .ok i.2.2 := by
    intro i hi
    simp only [textOf, List.filterMap_map]
    have : (id ∘ some : TPDU → Option TPDU) = some := rfl
    rw [this, List.filterMap_some, ← (h3 i hi).2.1]
    exact (h3 i hi).1.dec
  obtain ⟨n1, n2⟩ := items_network timeout handler dopts (items.map (·.1)) hg hsz hids
  have hfrom : ∀ pdu, pdu ∈ ((items.map (·.1)).map (·.qs)).flatten → ∃ i ∈ items.map (·.1), pdu ∈ i.qs := by
    intro pdu hp
    obtain ⟨l, hl, hpl⟩ := List.mem_flatten.1 hp
    obtain ⟨i, hi, rfl⟩ := List.mem_map.1 hl
    exact ⟨i, hi, hpl⟩
  refine ⟨(items.map (·.1)).map (·.qs), ?_, ?_, ?_, ?_⟩
  · have := sentAll_items (items.map (·.1)) dopts hg
    rw [List.map_map] at this
    rw [← h1]; exact this
  · intro i m qs hmi hqi
    rw [← h2, List.getElem?_map] at hmi
    obtain ⟨x, hx, rfl⟩ := Option.map_eq_some_iff.1 hmi
    rw [List.getElem?_map, List.getElem?_map, hx] at hqi
    cases hqi
    exact htext x (List.mem_of_getElem? hx)
  · intro es hes
    obtain ⟨s, os, r1, r2⟩ := n1 es (fun pdu hp => hfrom pdu (hes pdu hp))
    refine ⟨s, os, r1, ?_⟩
    intro d hd
    obtain ⟨i, hi, rfl⟩ := r2 d hd
    obtain ⟨x, hx, rfl⟩ := List.mem_map.1 hi
    exact ⟨x.2, by rw [← h2]; exact List.mem_map.2 ⟨x, hx, rfl⟩, htext x hx⟩
  · intro arrival ha
    obtain ⟨s, os, r1, r2, r3⟩ := n2 arrival (fun pdu hp => hfrom pdu (ha pdu hp))
    refine ⟨s, os, r1, ?_, r3⟩
    intro qs hq
    obtain ⟨i, hi, rfl⟩ := List.mem_map.1 hq
    exact r2 i hi

theorem arrive_sub (r s : M (List TPDU)) (l : List (M (List UInt8)))
    (h : (match r, s with
      | .ok [_, a₂], .ok [b₁, _] => decide (arrive [b₁, a₂, b₁] = l)
      | _, _ => false) = true) :
    ∃ a₁ a₂ b₁ b₂, r = .ok [a₁, a₂] ∧ s = .ok [b₁, b₂] ∧ arrive [b₁, a₂, b₁] = l := by
  split at h
  · exact ⟨_, _, _, _, rfl, rfl, of_decide_eq_true h⟩
  · cases h

/-- C108 is false as stated: of two texts to the same number, each encoded by a call of Encode, the network loses a
TPDU each, and what is returned is neither text, without an error. -/
theorem C108_false : ∃ a₁ a₂ b₁ b₂,
    Sms.Encode (List.replicate 161 0x41) [Sms.To [0x31]] = .ok [a₁, a₂] ∧
    Sms.Encode (List.replicate 161 0x42) [Sms.To [0x31]] = .ok [b₁, b₂] ∧
    arrive [b₁, a₂, b₁] = [.ok (List.replicate 153 0x42 ++ List.replicate 8 0x41)] :=
  arrive_sub _ _ _ (by decide +kernel)

/-- Beside C108: what is sent for a long and a short text, of which a TPDU is lost and one is repeated. -/
example :
    let sent := [(List.replicate 161 0x41, [0x31]), ([0x42], [0x31])].map (fun m => (Sms.Encode m.1 [Sms.To m.2]).toOption.getD [])
    sent.map List.length = [2, 1] ∧
    arrive ((sent.flatten.take 1) ++ (sent.flatten.drop 2) ++ (sent.flatten.take 1)) = [.ok [0x42]] ∧
    arrive ((sent.flatten.take 1) ++ (sent.flatten.drop 1) ++ (sent.flatten.take 1)) = [.ok (List.replicate 161 0x41), .ok [0x42]] := by
  decide +kernel

end Verif.Props
