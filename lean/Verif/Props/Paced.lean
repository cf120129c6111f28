import Verif.Props.LongRun

/-! C110: how far apart the messages are that one encoder makes alike. -/

namespace Verif.Props

open Verif.Model Verif.Model.Collector Verif.Model.Concurrent Verif.Spec Verif.Proofs Verif.Proofs.Coll
open Verif.Spec.Reassembly (Parts Input Result)
open Verif.Spec.Timed (History events MessageOf Alike Apart Passage multis Paced)

/-! Helpers. -/

theorem filter_place {α : Type} (p : α → Bool) : ∀ (l : List α) (i : Nat) (a : α), l[i]? = some a → p a = true →
    (l.filter p)[(l.take i).countP p]? = some a := by
  intro l
  induction l with
  | nil => intro i a h; cases h
  | cons b l ih =>
    intro i a h hp
    cases i with
    | zero => cases h; simp [hp]
    | succ i =>
      have := ih i a (by simpa using h) hp
      rw [List.take_succ_cons, List.countP_cons, List.filter_cons]
      split
      · simp [this]
      · simpa using this

theorem multis_add (msgs : List (List TPDU)) (i j : Nat) (h : i ≤ j) :
    (msgs.take j).countP (fun qs => 2 ≤ qs.length) = (msgs.take i).countP (fun qs => 2 ≤ qs.length) + multis msgs i j := by
  unfold multis
  rw [← List.countP_append]
  congr 1
  have : j = i + (j - i) := by omega
  conv => lhs; rw [this]
  exact List.take_add

theorem multis_pos (msgs : List (List TPDU)) (i j : Nat) (qs : List TPDU) (h : i < j) (hi : msgs[i]? = some qs) (h2 : 2 ≤ qs.length) :
    0 < multis msgs i j := by
  unfold multis
  rw [List.countP_pos_iff]
  refine ⟨qs, List.mem_of_getElem? (i := 0) ?_, by simpa using h2⟩
  rw [List.getElem?_take_of_lt (by omega), List.getElem?_drop]
  exact hi

theorem item_alike {dopts : List CharsetOpt} {i : Item} (h : Good dopts i) (hn : i.pdus.length ≤ 255) {m : Ident} {p : TPDU}
    (hp : p ∈ i.qs) (hm : (segOf m p).isSome) : 2 ≤ i.qs.length ∧ m = i.ident := by
  obtain ⟨n, hn'⟩ := Option.isSome_iff_exists.1 hm
  have hs := segOf_some.1 hn'
  by_cases h2 : 2 ≤ i.pdus.length
  · have hseg := item_segments h hn h2
    obtain ⟨k, hk⟩ := List.mem_iff_getElem?.1 hp
    have hk' := segOf_some.2 (hseg.seg k p hk)
    refine ⟨by rw [item_length h]; exact h2, ?_⟩
    unfold segOf at hn' hk'
    split at hn'
    · split at hn'
      · rename_i c _ hc
        split at hk'
        · rename_i c' e'
          rw [‹p.ConcatInfo = some c›] at e'
          cases e'
          split at hk'
          · rename_i hc'
            rw [hc.2.2.2.2, hc'.2.2.2.2]
          · cases hk'
        · cases hk'
      · cases hn'
    · cases hn'
  · obtain ⟨q, hq, hq'⟩ := item_single h hn h2
    rw [hq] at hp
    obtain rfl := List.mem_singleton.1 hp
    exact absurd (segment_multi hs) hq'

theorem items_apart (dopts : List CharsetOpt) (options : List Model.Sms.EncoderOption)
    (calls : List (List UInt8 × List Model.Sms.EncoderOption)) (items : List Item)
    (h1 : items.map (·.pdus) = encodes (Sms.NewEncoder options) calls) (hg : ∀ i ∈ items, Good dopts i)
    (hsz : ∀ i ∈ items, i.pdus.length ≤ 255) (i j : Nat) (qs qs' : List TPDU) (hij : i < j)
    (hi : (items.map (·.qs))[i]? = some qs) (hj : (items.map (·.qs))[j]? = some qs') (hal : Alike qs qs') :
    2 ≤ qs.length ∧ qs.length = qs'.length ∧ 256 ≤ multis (items.map (·.qs)) i j ∧ 256 ∣ multis (items.map (·.qs)) i j := by
  obtain ⟨m, ⟨p, hp, hpm⟩, q, hq, hqm⟩ := hal
  have hi0 := hi
  rw [List.getElem?_map] at hi hj
  obtain ⟨a, ha, rfl⟩ := Option.map_eq_some_iff.1 hi
  obtain ⟨b, hb, rfl⟩ := Option.map_eq_some_iff.1 hj
  have ga := hg a (List.mem_of_getElem? ha)
  have gb := hg b (List.mem_of_getElem? hb)
  obtain ⟨a2, am⟩ := item_alike ga (hsz a (List.mem_of_getElem? ha)) hp hpm
  obtain ⟨b2, bm⟩ := item_alike gb (hsz b (List.mem_of_getElem? hb)) hq hqm
  have hid : a.ident = b.ident := am.symm.trans bm
  have hcount : a.qs.length = b.qs.length := congrArg Ident.count hid
  have hrefs := item_refs dopts options calls items h1 hg
  have place : ∀ (k : Nat) (x : Item), items[k]? = some x → 2 ≤ x.qs.length →
      x.ident.ref = (((items.map (·.qs)).take k).countP (fun qs => 2 ≤ qs.length) + 1) % 256 := by
    intro k x hk hx
    have hx' : 2 ≤ x.pdus.length := by rw [← item_length (hg x (List.mem_of_getElem? hk))]; exact hx
    have hf := filter_place (fun i : Item => decide (2 ≤ i.pdus.length)) items k x hk (by simpa using hx')
    have hc : (items.take k).countP (fun i : Item => decide (2 ≤ i.pdus.length)) =
        ((items.map (·.qs)).take k).countP (fun qs => decide (2 ≤ qs.length)) := by
      rw [← List.map_take, List.countP_map]
      apply List.countP_congr
      intro y hy
      have := item_length (hg y (List.mem_of_mem_take hy))
      simp [this]
    rw [hc] at hf
    have hk' := congrArg (fun l => l[((items.map (·.qs)).take k).countP (fun qs => decide (2 ≤ qs.length))]?) hrefs
    simp only [List.getElem?_map] at hk'
    rw [hf, List.getElem?_range (get_lt hf)] at hk'
    exact Option.some.inj hk'
  have ra := place i a ha a2
  have rb := place j b hb b2
  rw [multis_add _ i j (Nat.le_of_lt hij)] at rb
  rw [hid, rb] at ra
  have hpos := multis_pos (items.map (·.qs)) i j a.qs hij hi0 a2
  generalize ((items.map (·.qs)).take i).countP (fun qs => decide (2 ≤ qs.length)) = x at ra
  generalize multis (items.map (·.qs)) i j = y at ra hpos
  refine ⟨a2, hcount, ?_, ?_⟩ <;> omega

/-- C110, texts that one encoder makes alike: if texts are encoded one after the other by one encoder and marshalled and
unmarshalled, two of them are alike only if 256, or a multiple of 256, texts of more than one TPDU are encoded from the
one on and before the other. -/
theorem C110_reuse (options : List Model.Sms.EncoderOption) (calls : List (List UInt8 × List Model.Sms.EncoderOption))
    (hcalls : ∀ c ∈ calls, Postable (Sms.NewEncoder options) c.1 c.2)
    (hsize : ∀ pdus ∈ encodes (Sms.NewEncoder options) calls, pdus.length ≤ 255) :
    ∃ received, SentAll (encodes (Sms.NewEncoder options) calls) received ∧
      ∀ (i j : Nat) qs qs', i < j → received[i]? = some qs → received[j]? = some qs' → Alike qs qs' →
        2 ≤ qs.length ∧ qs.length = qs'.length ∧ 256 ≤ multis received i j ∧ 256 ∣ multis received i j := by
  obtain ⟨items, h1, h2, h3⟩ := posteds_of [] calls (Sms.NewEncoder options) hcalls
  have hg : ∀ i ∈ items.map (·.1), Good [] i := by
    intro i hi
    obtain ⟨x, hx, rfl⟩ := List.mem_map.1 hi
    exact (h3 x hx).good
  have h1' : (items.map (·.1)).map (·.pdus) = encodes (Sms.NewEncoder options) calls := by rw [← h1, List.map_map]; rfl
  refine ⟨(items.map (·.1)).map (·.qs), ?_, ?_⟩
  · rw [← h1']; exact sentAll_items _ [] hg
  · intro i j qs qs' hij hi hj hal
    exact items_apart [] options calls (items.map (·.1)) h1' hg (fun i hi => hsize _ (by rw [← h1']; exact List.mem_map.2 ⟨i, hi, rfl⟩))
      i j qs qs' hij hi hj hal

/-- C110, partial: texts are encoded one after the other by one encoder, any number of them.  The TPDUs are marshalled,
the octets are unmarshalled, and the TPDUs are given to a Collector with a reassembly timeout, each any number of times
or never, in any order: those of one text within less than the timeout, and those of texts of which the references are
the same because 256 texts of more than one TPDU, or a multiple of 256, were encoded in between, more than `lag` apart.
Then whatever the Collector returns decodes to a text of which all TPDUs arrived; every such text is returned; and if
each TPDU arrives once, the texts returned are those that were encoded, without an error, with nothing given to the
expiry handler and nothing left.

Missing: the texts that C38 and C39 exclude, and 256 texts sent in less time than that, of which the TPDUs may get
mixed (C110_false). -/
theorem C110_paced_partial (options : List Model.Sms.EncoderOption) (dopts : List CharsetOpt)
    (calls : List (List UInt8 × List Model.Sms.EncoderOption))
    (hcalls : ∀ c ∈ calls, Postable (Sms.NewEncoder options) c.1 c.2)
    (htables : ∀ c ∈ calls, Matching (callCharsets (Sms.NewEncoder options) c.2) dopts)
    (hnat : ∀ c ∈ calls, Representable .default c.1 →
      ∀ ie ∈ (callTemplate (Sms.NewEncoder options) c.2).UDH, ie.ID ≠ 24 ∧ ie.ID ≠ 25)
    (hcomes : ∀ c ∈ calls, Comes (Sms.NewEncoder options) c.1 c.2)
    (hsize : ∀ pdus ∈ encodes (Sms.NewEncoder options) calls, pdus.length ≤ 255) :
    ∃ received, SentAll (encodes (Sms.NewEncoder options) calls) received ∧ received.length = calls.length ∧
      ∀ (d lag : Int) (handler : Bool) (got : List (List (Int × TPDU))) (hist : History), Paced d lag handler received got hist →
        ∃ s os, run (New true handler) (events hist) = .ok (s, os) ∧
          (∀ dd ∈ returns os, ∃ (i : Nat) (c : List UInt8 × List Model.Sms.EncoderOption) (qs : List TPDU) (g : List (Int × TPDU)),
            calls[i]? = some c ∧ received[i]? = some qs ∧ got[i]? = some g ∧ (∀ pdu ∈ qs, pdu ∈ g.map (·.2)) ∧ textOf dopts dd = .ok c.1) ∧
          (∀ (i : Nat) c qs g, calls[i]? = some c → received[i]? = some qs → got[i]? = some g → (∀ pdu ∈ qs, pdu ∈ g.map (·.2)) →
            ∃ dd ∈ returns os, textOf dopts dd = .ok c.1) ∧
          ((∀ (i : Nat) qs g, received[i]? = some qs → got[i]? = some g → (g.map (·.2)).Perm qs) →
            ((returns os).map (textOf dopts)).Perm (calls.map (fun c => .ok c.1)) ∧
              (∀ d err, .returned d err ∈ os → err = none) ∧ (∀ d, .handled d ∉ os) ∧ Pipes s = []) := by
  obtain ⟨items, h1, h2, h3⟩ := posteds_of dopts calls (Sms.NewEncoder options) hcalls
  obtain ⟨k1, k2, k3⟩ := texts_passage _ dopts calls _ items h1 h2 h3 hcalls htables hnat hcomes hsize
  refine ⟨items.map (·.1.qs), k1, k2, ?_⟩
  intro d lag handler got hist hp
  refine k3 d lag handler got hist ⟨hp.lags, hp.opened, hp.ordered, hp.timely, hp.prompt, hp.arrive, hp.length, hp.from_, hp.together, ?_⟩
  intro i j qs qs' g g' hij hi hj hgi hgj hal
  have hm : items.map (·.1.qs) = (items.map (·.1)).map (·.qs) := by rw [List.map_map]; rfl
  rw [hm] at hi hj
  obtain ⟨g1, g2, g3, g4⟩ := items_apart dopts options calls (items.map (·.1)) (by rw [← h1, List.map_map]; rfl) (by
      intro i hi
      obtain ⟨x, hx, rfl⟩ := List.mem_map.1 hi
      exact (h3 x hx).good) (by
      intro i hi
      obtain ⟨x, hx, rfl⟩ := List.mem_map.1 hi
      exact hsize _ (by rw [← h1]; exact List.mem_map.2 ⟨x, hx, rfl⟩)) i j qs qs' hij hi hj hal
  rw [← hm] at hi hj g3 g4
  exact hp.apart i j qs qs' g g' hij hi hj hgi hgj g1 g2 g3 g4

/-- Beside `C110_paced_partial`: fewer than 256 messages are sent. -/
example : Paced 10 10 true [[exSeg 7 2 1, exSeg 7 2 2], [exSingle], [exLater 1, exLater 2]]
    [[(0, exSeg 7 2 1)], [(3, exSingle)], [(20, exLater 2), (21, exLater 1)]] exReuse where
  lags := exPassage.lags
  opened := exPassage.opened
  ordered := exPassage.ordered
  timely := exPassage.timely
  prompt := exPassage.prompt
  arrive := exPassage.arrive
  length := exPassage.length
  from_ := exPassage.from_
  together := exPassage.together
  apart := by
    intro i j qs qs' g g' _ _ _ _ _ _ _ hm
    have : multis [[exSeg 7 2 1, exSeg 7 2 2], [exSingle], [exLater 1, exLater 2]] i j ≤ 3 := by
      unfold multis
      refine Nat.le_trans List.countP_le_length ?_
      rw [List.length_take, List.length_drop, List.length_cons, List.length_cons, List.length_cons, List.length_nil]
      omega
    omega

/-- Beside `C110_reuse`: two of these messages are between the first and the fourth. -/
example : multis [[exSeg 7 2 1, exSeg 7 2 2], [exSingle], [exLater 1, exLater 2], [exSeg 7 2 1, exSeg 7 2 2]] 0 3 = 2 := by decide

end Verif.Props
