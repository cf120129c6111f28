import Verif.Spec.Passage
import Verif.Proofs.Epochs
import Verif.Props.Timed
import Verif.Props.Network
import Verif.Props.Balance

/-! C110: references that are reused, in real time. -/

namespace Verif.Props

open Verif.Model Verif.Model.Collector Verif.Model.Concurrent Verif.Spec Verif.Proofs Verif.Proofs.Coll
open Verif.Spec.Reassembly (Parts Input Result)
open Verif.Spec.Timed (History events Ordered arrivals Timely Prompt epochs Clear MessageOf Alike Together Apart Passage)

/-- C110, whatever arrives when: if timers go off no earlier than `d` and are dealt with no later than `lag` after they
were set, and any segment of a message that arrives when the message is not complete arrives less than `d` or more
than `lag` after the last new one, the calls given segments of the message answer as `epochs` says: what has not
become complete is forgotten in a pause of more than `lag`, and the next segment starts anew. -/
theorem C110_epochs (d lag : Int) (handler : Bool) (h : History) (hf : ∀ e ∈ events h, FineEvent e) (ho : ∀ e ∈ events h, e ≠ .close)
    (hord : Ordered h) (htime : Timely d (New true handler) [] h) (hprompt : Prompt [.armed, .fired] lag (New true handler) [] h)
    (m : Ident) (hm : 2 ≤ m.count) (hclear : Clear d lag m [] 0 (Timed.segs m h)) :
    ∃ s os, run (New true handler) (events h) = .ok (s, os) ∧
      Timed.answers m (events h) os = epochs lag m [] 0 (Timed.segs m h) ∧
      deliveries m os = ((epochs lag m [] 0 (Timed.segs m h)).map (·.1)).filter (fun d => d ≠ []) := by
  obtain ⟨s, os, hr, ha⟩ := epochs_answers d lag m hm h (New true handler) [] [] 0 (inv_new true handler) rfl (not_covered_nil hm)
    ⟨rfl, rfl, new_last _ _ _ _ _, .inl ⟨rfl, .inl ⟨rfl, rfl⟩⟩⟩ hf ho hord htime hprompt hclear
  refine ⟨s, os, hr, ha, ?_⟩
  rw [deliveries_watch m _ (inv_new true handler) hf hr, whole_answers m _ (inv_new true handler) hf hr, ha]
  rfl

/-! Helpers. -/

theorem singles_events : ∀ (es : List Event) {s s' : State} {os : List Output}, Coll.Inv s → s.closed = false → (∀ e ∈ es, FineEvent e) →
    (∀ e ∈ es, e ≠ .close) → run s es = .ok (s', os) →
    (returns os).filter sole = ((collected es).filter (fun pdu => ! decide (MultiPart pdu))).map (fun pdu => [some pdu]) := by
  intro es
  induction es with
  | nil => intro s s' os _ _ _ _ h; cases h; rfl
  | cons e es ih =>
    intro s s' os hi hc hf ho h
    unfold run at h
    obtain ⟨⟨s1, o⟩, h1, h⟩ := bind_eq_ok.1 h
    obtain ⟨⟨s2, os2⟩, h2, h⟩ := bind_eq_ok.1 h
    cases h
    obtain ⟨s1', o', g1, g2, _⟩ := step_ok hi (hf e List.mem_cons_self)
    rw [h1] at g1; cases g1
    have next : s1.closed = false → (returns os2).filter sole =
        ((collected es).filter (fun pdu => ! decide (MultiPart pdu))).map (fun pdu => [some pdu]) :=
      fun hc1 => ih g2 hc1 (fun e' he' => hf e' (List.mem_cons_of_mem _ he')) (fun e' he' => ho e' (List.mem_cons_of_mem _ he')) h2
    rw [returns_cons, List.filter_append]
    cases e with
    | close => exact absurd rfl (ho _ List.mem_cons_self)
    | collect pdu =>
      obtain ⟨s1', o', k1, k2⟩ := collect_outcome s hi pdu (hf _ List.mem_cons_self)
      have h1 : Collect s pdu = .ok (s1, o) := h1
      rw [h1] at k1; cases k1
      rw [next ((outcome_open k2).trans hc), singles_step k2 hc]
      show _ = ((pdu :: collected es).filter _).map _
      by_cases hm : MultiPart pdu
      · simp [hm]
      · simp [hm]
    | fire i => cases h1; exact next ((fire_fields s i).2.2.2.1.trans hc)
    | expire i => cases h1; exact next ((expire_fields s i).2.2.2.1.trans hc)
    | handle i =>
      have hst : handle s i = (s1, o) := Except.ok.inj h1
      have ho' := handle_out s i
      have hf' := (handle_fields s i).2.2.2.1
      rw [hst] at ho' hf'
      have : returns [o] = [] := by rcases ho' with ho' | ⟨_, ho'⟩ <;> · simp only at ho'; rw [ho']; rfl
      rw [this]
      exact next (hf'.trans hc)

theorem returns_which (timeout handler : Bool) (es : List Event) (hes : ∀ e ∈ es, FineEvent e) (s : State)
    (os : List Output) (h : run (New timeout handler) es = .ok (s, os)) (d : Parts) (hd : d ∈ returns os) :
    (∃ pdu ∈ collected es, ¬ MultiPart pdu ∧ d = [some pdu]) ∨
    ∃ m, d ∈ deliveries m os ∧ ∃ pdu ∈ collected es, (segOf m pdu).isSome := by
  have hd0 := hd
  unfold returns at hd
  obtain ⟨o, ho, hd'⟩ := List.mem_filterMap.1 hd
  cases o with
  | returned dd err =>
    simp only at hd'
    split at hd'
    · rename_i hne
      cases hd'
      have : (dd, err) ∈ replies os := List.mem_filterMap.2 ⟨_, ho, rfl⟩
      obtain ⟨c, hc⟩ := List.mem_iff_getElem?.1 this
      rcases (C49_complete timeout handler _ hes s os h c dd err hc hne).2 with ⟨pdu, hpdu, hmp, rfl⟩ | ⟨m, hl, hall, _⟩
      · exact .inl ⟨pdu, List.mem_of_getElem? hpdu, hmp, rfl⟩
      · right
        refine ⟨m, ?_, ?_⟩
        · rw [deliveries_returns]
          refine List.mem_filter.2 ⟨hd0, ?_⟩
          simp only [ofMsg, pdus, List.all_map, List.all_eq_true, Function.comp]
          intro q hq
          obtain ⟨j, hj⟩ := List.mem_iff_getElem?.1 hq
          obtain ⟨ptr, hp1, hp2, _⟩ := hall j (by rw [← hl]; exact get_lt hj)
          rw [hp1] at hj
          cases hj
          simp [segOf_some.2 hp2]
        · obtain ⟨q, hq⟩ := List.exists_mem_of_ne_nil _ hne
          obtain ⟨j, hj⟩ := List.mem_iff_getElem?.1 hq
          obtain ⟨ptr, hp1, hp2, hp3, _⟩ := hall j (by rw [← hl]; exact get_lt hj)
          exact ⟨ptr.pdu, List.mem_of_getElem? hp3, by rw [segOf_some.2 hp2]; rfl⟩
    · cases hd'
  | _ => cases hd'

theorem zip_mem {α β : Type} {a : List α} {b : List β} {x : α × β} :
    x ∈ a.zip b ↔ ∃ i : Nat, a[i]? = some x.1 ∧ b[i]? = some x.2 := by
  rw [List.mem_iff_getElem?]
  constructor
  · rintro ⟨i, hi⟩
    refine ⟨i, ?_⟩
    rw [List.getElem?_zip_eq_some] at hi
    exact hi
  · rintro ⟨i, h1, h2⟩
    exact ⟨i, List.getElem?_zip_eq_some.2 ⟨h1, h2⟩⟩

theorem flatMap_select {α β : Type} (p : α → Bool) (q : β → Bool) (f : α → List β) : ∀ (l : List α),
    (∀ a ∈ l, ∀ x ∈ f a, q x = p a) → (l.flatMap f).filter q = (l.filter p).flatMap f := by
  intro l
  induction l with
  | nil => intro _; rfl
  | cons a l ih =>
    intro h
    rw [List.flatMap_cons, List.filter_append, ih (fun b hb => h b (List.mem_cons_of_mem _ hb))]
    have ha := h a List.mem_cons_self
    cases hp : p a with
    | true =>
      rw [List.filter_cons_of_pos hp, List.flatMap_cons, List.filter_eq_self.2 (fun x hx => by rw [ha x hx, hp])]
    | false =>
      rw [List.filter_cons_of_neg (by simp [hp]), List.filter_eq_nil_iff.2 (fun x hx => by rw [ha x hx, hp]; simp), List.nil_append]

theorem zip_snd_flatten {α β : Type} {a : List α} {b : List (List β)} (hl : b.length = a.length) :
    b.flatten = (a.zip b).flatMap (·.2) := by
  have : (a.zip b).map (·.2) = b := List.map_snd_zip (by omega)
  rw [List.flatMap_def, this]

theorem whole_fine {qs : List TPDU} (h : MessageOf qs) : ∀ pdu ∈ qs, Fine pdu := by
  intro pdu hp
  rcases h with ⟨q, rfl, hq⟩ | ⟨m, hs⟩
  · rw [List.mem_singleton] at hp
    subst hp
    exact fun hm => absurd hm hq
  · obtain ⟨j, h1, h2⟩ := segs_find hs hp
    exact fun _ => (segOf_some.1 h2).2.1

theorem whole_segs {qs : List TPDU} (h : MessageOf qs) {m : Ident} {p : TPDU} (hp : p ∈ qs) (hs : (segOf m p).isSome) : SegmentsOf m qs := by
  rcases h with ⟨q, rfl, hq⟩ | ⟨m', h'⟩
  · rw [List.mem_singleton] at hp
    subst hp
    obtain ⟨n, hn⟩ := Option.isSome_iff_exists.1 hs
    exact absurd (segment_multi (segOf_some.1 hn)) hq
  · rw [segOf_inj hs (segs_isSome h' p hp)]
    exact h'

theorem segs_notSingle {m : Ident} {qs : List TPDU} (h : SegmentsOf m qs) : ∀ pdu ∈ qs, MultiPart pdu := by
  intro pdu hp
  obtain ⟨j, h1, h2⟩ := segs_find h hp
  exact segment_multi (segOf_some.1 h2)

theorem whole_single {qs : List TPDU} (h : MessageOf qs) {p : TPDU} (hp : p ∈ qs) (hs : ¬ MultiPart p) : qs = [p] := by
  rcases h with ⟨q, rfl, hq⟩ | ⟨m', h'⟩
  · rw [List.mem_singleton] at hp
    rw [hp]
  · exact absurd (segs_notSingle h' p hp) hs

/-- Some TPDU of the list is a segment of the message. -/
def hasSeg (m : Ident) (qs : List TPDU) : Bool := qs.any (fun p => (segOf m p).isSome)

theorem whole_hasSeg {qs : List TPDU} (h : MessageOf qs) {m : Ident} (hs : hasSeg m qs = true) : SegmentsOf m qs := by
  obtain ⟨p, hp, hs⟩ := List.any_eq_true.1 hs
  exact whole_segs h hp hs

theorem whole_isSome {qs : List TPDU} (h : MessageOf qs) (m : Ident) : ∀ p ∈ qs, (segOf m p).isSome = hasSeg m qs := by
  intro p hp
  cases hs : hasSeg m qs with
  | true => exact segs_isSome (whole_hasSeg h hs) p hp
  | false =>
    cases hq : (segOf m p).isSome with
    | false => rfl
    | true =>
      have : hasSeg m qs = true := List.any_eq_true.2 ⟨p, hp, hq⟩
      rw [hs] at this; cases this

theorem whole_ne {qs : List TPDU} (h : MessageOf qs) : qs ≠ [] := by
  rcases h with ⟨q, rfl, hq⟩ | ⟨m', h'⟩
  · simp
  · exact segs_ne h'

theorem whole_ofMsg {qs : List TPDU} (h : MessageOf qs) (m : Ident) : ofMsg m (qs.map some) = hasSeg m qs := by
  unfold ofMsg
  rw [List.all_map]
  have hs := whole_isSome h m
  cases hh : hasSeg m qs with
  | true =>
    rw [List.all_eq_true]
    intro p hp
    exact (hs p hp).trans hh
  | false =>
    obtain ⟨p, hp⟩ := List.exists_mem_of_ne_nil _ (whole_ne h)
    rw [List.all_eq_false]
    exact ⟨p, hp, by simp only [Function.comp_apply]; rw [hs p hp, hh]; simp⟩

theorem perm_flatMap_left {α β : Type} (f g : α → List β) : ∀ (l : List α), (∀ a ∈ l, (f a).Perm (g a)) → (l.flatMap f).Perm (l.flatMap g) := by
  intro l
  induction l with
  | nil => intro _; exact .refl _
  | cons a l ih =>
    intro h
    rw [List.flatMap_cons, List.flatMap_cons]
    exact (h a List.mem_cons_self).append (ih (fun b hb => h b (List.mem_cons_of_mem _ hb)))

theorem flatMap_single {α β : Type} (f : α → List β) (g : α → β) : ∀ (l : List α), (∀ a ∈ l, f a = [g a]) → l.flatMap f = l.map g := by
  intro l
  induction l with
  | nil => intro _; rfl
  | cons a l ih =>
    intro h
    rw [List.flatMap_cons, List.map_cons, h a List.mem_cons_self, ih (fun b hb => h b (List.mem_cons_of_mem _ hb))]
    rfl

theorem full_flatMap {α : Type} (f : α → List (Parts × Option Err)) (l : List α) : full (l.flatMap f) = l.flatMap (fun a => full (f a)) := by
  unfold full
  rw [List.map_flatMap, List.filter_flatMap]

theorem singles_whole : ∀ (msgs : List (List TPDU)), (∀ qs ∈ msgs, MessageOf qs) →
    (msgs.flatten.filter (fun pdu => ! decide (MultiPart pdu))).map (fun pdu => [some pdu]) = (msgs.map (·.map some)).filter sole := by
  intro msgs
  induction msgs with
  | nil => intro _; rfl
  | cons qs msgs ih =>
    intro h
    rw [List.flatten_cons, List.filter_append, List.map_append, ih (fun q hq => h q (List.mem_cons_of_mem _ hq)), List.map_cons]
    rcases h qs List.mem_cons_self with ⟨q, rfl, hq⟩ | ⟨m, hs⟩
    · rw [List.filter_cons_of_pos (p := sole) (by simp [sole, hq])]
      simp [hq]
    · rw [List.filter_cons_of_neg (p := sole) (by rw [sole_segs hs]; simp), List.filter_eq_nil_iff.2]
      · rfl
      · intro p hp
        simp [segs_notSingle hs p hp]

theorem arrivals_sorted {h : History} (hord : Ordered h) : (arrivals h).Pairwise (fun a b => a.1 ≤ b.1) := by
  unfold arrivals
  rw [List.pairwise_filterMap]
  unfold Ordered at hord
  rw [List.pairwise_map] at hord
  refine hord.imp ?_
  rintro ⟨x, e⟩ ⟨y, e'⟩ hxy a ha b hb
  simp only at ha hb hxy
  split at ha
  · split at hb
    · cases ha; cases hb; exact hxy
    · cases hb
  · cases ha

/-- C110, messages: whatever the Collector returns are the TPDUs of one of the messages that were sent, complete and in
sequence, though references are reused; the TPDUs of a message are returned if and only if all of them arrive; and
if every TPDU of every message arrives once, in any order, every message is returned once, there is no error, nothing
is given to the expiry handler, and nothing is left. -/
theorem C110_messages (d lag : Int) (handler : Bool) (msgs : List (List TPDU)) (got : List (List (Int × TPDU))) (h : History)
    (hw : ∀ qs ∈ msgs, MessageOf qs) (hp : Passage d lag handler msgs got h) :
    ∃ s os, run (New true handler) (events h) = .ok (s, os) ∧
      (∀ dd ∈ returns os, ∃ (i : Nat) (qs : List TPDU) (g : List (Int × TPDU)), msgs[i]? = some qs ∧ got[i]? = some g ∧
        dd = qs.map some ∧ ∀ pdu ∈ qs, pdu ∈ g.map (·.2)) ∧
      (∀ (i : Nat) qs g, msgs[i]? = some qs → got[i]? = some g → (∀ pdu ∈ qs, pdu ∈ g.map (·.2)) → qs.map some ∈ returns os) ∧
      ((∀ (i : Nat) qs g, msgs[i]? = some qs → got[i]? = some g → (g.map (·.2)).Perm qs) →
        (returns os).Perm (msgs.map (·.map some)) ∧ (∀ d err, .returned d err ∈ os → err = none) ∧ (∀ d, .handled d ∉ os) ∧
        Pipes s = []) := by
  have hflw : ∀ f ∈ msgs.zip got, MessageOf f.1 := fun f hf => by
    obtain ⟨i, h1, _⟩ := zip_mem.1 hf
    exact hw _ (List.mem_of_getElem? h1)
  have hfrom : ∀ f ∈ msgs.zip got, ∀ x ∈ f.2, x.2 ∈ f.1 := fun f hf => by
    obtain ⟨i, h1, h2⟩ := zip_mem.1 hf
    exact hp.from_ i _ _ h1 h2
  have harr : (arrivals h).Perm ((msgs.zip got).flatMap (·.2)) := by
    rw [← zip_snd_flatten hp.length]; exact hp.arrive
  have hcol : (collected (events h)).Perm ((msgs.zip got).flatMap (fun f => f.2.map (·.2))) := by
    rw [← arrivals_collected, ← List.map_flatMap]
    exact harr.map _
  have hcolm : ∀ pdu ∈ collected (events h), ∃ f ∈ msgs.zip got, pdu ∈ f.2.map (·.2) ∧ pdu ∈ f.1 := by
    intro pdu hpdu
    obtain ⟨f, hf, hpf⟩ := List.mem_flatMap.1 (hcol.mem_iff.1 hpdu)
    obtain ⟨x, hx, rfl⟩ := List.mem_map.1 hpf
    exact ⟨f, hf, hpf, hfrom f hf x hx⟩
  have hfine : ∀ e ∈ events h, FineEvent e := by
    intro e he
    cases e with
    | collect pdu =>
      obtain ⟨f, hf, _, hpf⟩ := hcolm pdu (List.mem_filterMap.2 ⟨_, he, rfl⟩)
      exact whole_fine (hflw f hf) pdu hpf
    | _ => trivial
  obtain ⟨s, os, hr, _⟩ := run_ok (events h) (inv_new true handler) hfine
  -- what is returned of a message
  have hdel : ∀ m : Ident, 2 ≤ m.count → ∃ gs : List ((List TPDU × List (Int × TPDU)) × List (Int × TPDU)),
      (gs.map (·.1)).Perm ((msgs.zip got).filter (fun f => hasSeg m f.1)) ∧ (∀ g ∈ gs, g.2.Perm g.1.2) ∧
      deliveries m os = gs.flatMap (fun g => full (rounds m [] (g.2.map (·.2))).1) := by
    intro m hm
    have hsegs : (Timed.segs m h).Perm (((msgs.zip got).filter (fun f => hasSeg m f.1)).flatMap (·.2)) := by
      unfold Timed.segs
      rw [← flatMap_select (fun f : List TPDU × List (Int × TPDU) => hasSeg m f.1) (fun x : Int × TPDU => (segOf m x.2).isSome)]
      · exact harr.filter _
      · intro f hf x hx
        exact whole_isSome (hflw f hf) m x.2 (hfrom f hf x hx)
    have htog : ∀ f ∈ (msgs.zip got).filter (fun f => hasSeg m f.1), ∀ x ∈ f.2, ∀ y ∈ f.2, y.1 < x.1 + d := by
      intro f hf
      obtain ⟨hf, hs⟩ := List.mem_filter.1 hf
      obtain ⟨i, h1, h2⟩ := zip_mem.1 hf
      have hsg := whole_hasSeg (hflw f hf) hs
      exact hp.together i _ _ h1 h2 (by rw [hsg.count]; exact hsg.multi)
    have hapart : ((msgs.zip got).filter (fun f => hasSeg m f.1)).Pairwise (fun f g => Far lag f.2 g.2) := by
      have h0 : (msgs.zip got).Pairwise (fun f g => Alike f.1 g.1 → Apart lag f.2 g.2) := by
        rw [List.pairwise_iff_getElem]
        intro i j hi hj hij hal
        have ei := List.getElem?_eq_getElem hi
        have ej := List.getElem?_eq_getElem hj
        obtain ⟨a1, a2⟩ := List.getElem?_zip_eq_some.1 ei
        obtain ⟨b1, b2⟩ := List.getElem?_zip_eq_some.1 ej
        exact hp.apart i j _ _ _ _ hij a1 b1 a2 b2 hal
      refine (h0.filter _).imp_of_mem ?_
      intro f g hf hg hfg
      obtain ⟨p, h1, h2⟩ := List.any_eq_true.1 (List.mem_filter.1 hf).2
      obtain ⟨q, h3, h4⟩ := List.any_eq_true.1 (List.mem_filter.1 hg).2
      exact hfg ⟨m, ⟨p, h1, h2⟩, q, h3, h4⟩
    obtain ⟨hclear, gs, g1, g2, _, g4⟩ := epochs_flights d lag hp.lags.2 hp.lags.1 m _ _ rfl (Timed.segs m h) [] 0
      ((arrivals_sorted hp.ordered).filter _) hsegs htog hapart (fun hne => absurd rfl hne)
    obtain ⟨s', os', hr', _, hd⟩ := C110_epochs d lag handler h hfine hp.opened hp.ordered hp.timely hp.prompt m hm hclear
    rw [hr] at hr'; cases hr'
    refine ⟨gs, g1, g2, ?_⟩
    rw [hd, g4]
    exact full_flatMap _ _
  have hgs : ∀ (m : Ident) (gs : List ((List TPDU × List (Int × TPDU)) × List (Int × TPDU))),
      (gs.map (·.1)).Perm ((msgs.zip got).filter (fun f => hasSeg m f.1)) → (∀ g ∈ gs, g.2.Perm g.1.2) →
      ∀ g ∈ gs, g.1 ∈ msgs.zip got ∧ SegmentsOf m g.1.1 ∧ ∀ pdu ∈ g.2.map (·.2), pdu ∈ g.1.1 := by
    intro m gs g1 g2 g hg
    have hm := List.mem_filter.1 (g1.mem_iff.1 (List.mem_map_of_mem (f := (·.1)) hg))
    refine ⟨hm.1, whole_hasSeg (hflw _ hm.1) hm.2, ?_⟩
    intro pdu hpdu
    obtain ⟨x, hx, rfl⟩ := List.mem_map.1 hpdu
    exact hfrom _ hm.1 x ((g2 g hg).mem_iff.1 hx)
  have hlossy : ∀ dd ∈ returns os, ∃ (i : Nat) (qs : List TPDU) (g : List (Int × TPDU)), msgs[i]? = some qs ∧ got[i]? = some g ∧
        dd = qs.map some ∧ ∀ pdu ∈ qs, pdu ∈ g.map (·.2) := by
    intro dd hdd
    rcases returns_which true handler _ hfine s os hr dd hdd with ⟨pdu, h1, h2, rfl⟩ | ⟨m, h1, pdu, h2, h3⟩
    · obtain ⟨f, hf, hpf, hpf'⟩ := hcolm pdu h1
      obtain ⟨i, i1, i2⟩ := zip_mem.1 hf
      have := whole_single (hflw f hf) hpf' h2
      refine ⟨i, f.1, f.2, i1, i2, by rw [this]; rfl, ?_⟩
      intro q hq
      rw [this, List.mem_singleton] at hq
      rw [hq]; exact hpf
    · obtain ⟨f, hf, hpf, hpf'⟩ := hcolm pdu h2
      have hsg := whole_segs (hflw f hf) hpf' h3
      obtain ⟨gs, g1, g2, g3⟩ := hdel m hsg.multi
      rw [g3] at h1
      obtain ⟨g, hg, hdg⟩ := List.mem_flatMap.1 h1
      obtain ⟨k1, k2, k3⟩ := hgs m gs g1 g2 g hg
      obtain ⟨i, i1, i2⟩ := zip_mem.1 k1
      refine ⟨i, g.1.1, g.1.2, i1, i2, rounds_mem k2 _ [] (by simpa using k3) dd hdg, ?_⟩
      intro pdu hpdu
      have hle := rounds_le k2 (g.2.map (·.2)) [] (by simpa using k3) pdu hpdu
      have hpos := List.length_pos_of_mem hdg
      have : 0 < (g.2.map (·.2)).count pdu := by
        rw [List.nil_append] at hle; omega
      exact ((g2 g hg).map _).mem_iff.1 (List.count_pos_iff.1 this)
  refine ⟨s, os, hr, hlossy, ?_, ?_⟩
  · intro i qs g hi hg hall
    have hf : (qs, g) ∈ msgs.zip got := zip_mem.2 ⟨i, hi, hg⟩
    rcases hflw _ hf with ⟨q, rfl, hq⟩ | ⟨m, hs⟩
    · have hq1 : q ∈ collected (events h) := by
        refine hcol.mem_iff.2 (List.mem_flatMap.2 ⟨_, hf, hall q List.mem_cons_self⟩)
      have hsing := singles_events (events h) (inv_new true handler) rfl hfine hp.opened hr
      have : [some q] ∈ (returns os).filter sole := by
        rw [hsing]
        exact List.mem_map.2 ⟨q, List.mem_filter.2 ⟨hq1, by simp [hq]⟩, rfl⟩
      exact (List.mem_filter.1 this).1
    · have hs : SegmentsOf m qs := hs
      obtain ⟨gs, g1, g2, g3⟩ := hdel m hs.multi
      obtain ⟨p, hp1⟩ := List.exists_mem_of_ne_nil _ (segs_ne hs)
      have hin : (qs, g) ∈ (msgs.zip got).filter (fun f => hasSeg m f.1) :=
        List.mem_filter.2 ⟨hf, List.any_eq_true.2 ⟨p, hp1, segs_isSome hs p hp1⟩⟩
      obtain ⟨g', hg', he⟩ := List.mem_map.1 (g1.mem_iff.2 hin)
      obtain ⟨k1, k2, k3⟩ := hgs m gs g1 g2 g' hg'
      have e1 : g'.1.1 = qs := by rw [he]
      have e2 : g'.1.2 = g := by rw [he]
      have hcov : Covered m ([] ++ g'.2.map (·.2)) := by
        rw [List.nil_append]
        refine (covered_iff k2 k3).2 ?_
        intro pdu hpdu
        refine ((g2 g' hg').map _).mem_iff.2 ?_
        rw [e2]
        exact hall pdu (by rw [← e1]; exact hpdu)
      obtain ⟨dd, hdd⟩ := List.exists_mem_of_ne_nil _ (rounds_pos hs.multi _ [] (not_covered_nil hs.multi) hcov)
      have hdq := rounds_mem k2 _ [] (by simpa using k3) dd hdd
      rw [e1] at hdq
      subst hdq
      have : qs.map some ∈ deliveries m os := by
        rw [g3]; exact List.mem_flatMap.2 ⟨g', hg', hdd⟩
      rw [deliveries_returns] at this
      exact (List.mem_filter.1 this).1
  · intro hexact
    have hex : ∀ f ∈ msgs.zip got, (f.2.map (·.2)).Perm f.1 := fun f hf => by
      obtain ⟨i, h1, h2⟩ := zip_mem.1 hf
      exact hexact i _ _ h1 h2
    have hfst : (msgs.zip got).map (·.1) = msgs := List.map_fst_zip (by rw [hp.length]; exact Nat.le_refl _)
    have hperm : (returns os).Perm (msgs.map (·.map some)) := ?_
    · refine ⟨hperm, (C50_balance true handler _ hfine s os hr ?_).2⟩
      have e1 : ((returns os).map List.length).sum = ((msgs.map (·.map some)).map List.length).sum := (hperm.map _).sum_nat
      have e2 : (collected (events h)).Perm msgs.flatten := by
        refine hcol.trans ?_
        conv => rhs; rw [← hfst]
        rw [← List.flatMap_def]
        exact perm_flatMap_left _ _ _ hex
      rw [e1, e2.length_eq, List.length_flatten, List.map_map]
      apply Nat.le_of_eq
      congr 1
      apply List.map_congr_left
      intro qs _
      simp
    rw [List.perm_iff_count]
    intro dd
    by_cases hdd : dd ∈ msgs.map (·.map some)
    · obtain ⟨qs, hqs, rfl⟩ := List.mem_map.1 hdd
      rcases hw qs hqs with ⟨q, rfl, hq⟩ | ⟨m, hs⟩
      · have hso : sole ([q].map some) = true := by simp [sole, hq]
        rw [← List.count_filter hso, ← List.count_filter (l := msgs.map _) hso]
        rw [singles_events (events h) (inv_new true handler) rfl hfine hp.opened hr, ← singles_whole msgs hw]
        apply List.Perm.count_eq
        refine (List.Perm.filter _ ?_).map _
        refine hcol.trans ?_
        conv => rhs; rw [← hfst]
        rw [← List.flatMap_def]
        exact perm_flatMap_left _ _ _ hex
      · have hof : ofMsg m (qs.map some) = true := by
          obtain ⟨p, hp1⟩ := List.exists_mem_of_ne_nil _ (segs_ne hs)
          rw [whole_ofMsg (.inr ⟨m, hs⟩)]
          exact List.any_eq_true.2 ⟨p, hp1, segs_isSome hs p hp1⟩
        rw [← List.count_filter hof, ← List.count_filter (l := msgs.map _) hof, ← deliveries_returns]
        obtain ⟨gs, g1, g2, g3⟩ := hdel m hs.multi
        apply List.Perm.count_eq
        have e1 : deliveries m os = (gs.map (·.1)).map (fun f => f.1.map some) := by
          rw [g3, List.map_map]
          refine flatMap_single _ _ _ ?_
          intro g hg
          obtain ⟨k1, k2, k3⟩ := hgs m gs g1 g2 g hg
          exact full_perm k2 (((g2 g hg).map _).trans (hex _ k1))
        rw [e1]
        refine (g1.map _).trans ?_
        have e2 : (msgs.map (·.map some)).filter (ofMsg m) = ((msgs.zip got).filter (fun f => hasSeg m f.1)).map (fun f => f.1.map some) := by
          conv => lhs; rw [← hfst]
          rw [List.map_map, List.filter_map]
          congr 1
          apply List.filter_congr
          intro f hf
          exact whole_ofMsg (hflw f hf) m
        rw [e2]
    · have h1 : dd ∉ returns os := by
        intro hin
        obtain ⟨i, qs, g, i1, _, rfl, _⟩ := hlossy dd hin
        exact hdd (List.mem_map.2 ⟨qs, List.mem_of_getElem? i1, rfl⟩)
      rw [List.count_eq_zero_of_not_mem h1, List.count_eq_zero_of_not_mem hdd]

/-- Of texts that are encoded. -/
theorem texts_passage (e : Model.Sms.Encoder) (dopts : List CharsetOpt) (calls : List (List UInt8 × List Model.Sms.EncoderOption))
    (results : List (List TPDU)) (items : List (Item × (List UInt8 × List Model.Sms.EncoderOption)))
    (h1 : items.map (·.1.pdus) = results) (h2 : items.map (·.2) = calls) (h3 : ∀ i ∈ items, Posted e dopts i.2.1 i.2.2 i.1)
    (hcalls : ∀ c ∈ calls, Postable e c.1 c.2)
    (htables : ∀ c ∈ calls, Matching (callCharsets e c.2) dopts)
    (hnat : ∀ c ∈ calls, Representable .default c.1 → ∀ ie ∈ (callTemplate e c.2).UDH, ie.ID ≠ 24 ∧ ie.ID ≠ 25)
    (hcomes : ∀ c ∈ calls, Comes e c.1 c.2) (hsize : ∀ pdus ∈ results, pdus.length ≤ 255) :
    SentAll results (items.map (·.1.qs)) ∧ (items.map (·.1.qs)).length = calls.length ∧
      ∀ (d lag : Int) (handler : Bool) (got : List (List (Int × TPDU))) (hist : History), Passage d lag handler (items.map (·.1.qs)) got hist →
        ∃ s os, run (New true handler) (events hist) = .ok (s, os) ∧
          (∀ dd ∈ returns os, ∃ (i : Nat) (c : List UInt8 × List Model.Sms.EncoderOption) (qs : List TPDU) (g : List (Int × TPDU)),
            calls[i]? = some c ∧ (items.map (·.1.qs))[i]? = some qs ∧ got[i]? = some g ∧ (∀ pdu ∈ qs, pdu ∈ g.map (·.2)) ∧ textOf dopts dd = .ok c.1) ∧
          (∀ (i : Nat) c qs g, calls[i]? = some c → (items.map (·.1.qs))[i]? = some qs → got[i]? = some g → (∀ pdu ∈ qs, pdu ∈ g.map (·.2)) →
            ∃ dd ∈ returns os, textOf dopts dd = .ok c.1) ∧
          ((∀ (i : Nat) qs g, (items.map (·.1.qs))[i]? = some qs → got[i]? = some g → (g.map (·.2)).Perm qs) →
            ((returns os).map (textOf dopts)).Perm (calls.map (fun c => .ok c.1)) ∧
              (∀ d err, .returned d err ∈ os → err = none) ∧ (∀ d, .handled d ∉ os) ∧ Pipes s = []) := by
  have hmem : ∀ i ∈ items, i.2 ∈ calls := fun i hi => by rw [← h2]; exact List.mem_map.2 ⟨i, hi, rfl⟩
  have hsz : ∀ i ∈ items, i.1.pdus.length ≤ 255 := fun i hi => hsize _ (by rw [← h1]; exact List.mem_map.2 ⟨i, hi, rfl⟩)
  have htext : ∀ i ∈ items, textOf dopts (i.1.qs.map some) = .ok i.2.1 := by
    intro i hi
    have ht := posted_comes (hcalls _ (hmem i hi)) (htables _ (hmem i hi)) (hnat _ (hmem i hi)) (h3 i hi) (hcomes _ (hmem i hi))
    rw [← ht]
    simp only [textOf, List.filterMap_map]
    have : (id ∘ some : TPDU → Option TPDU) = some := rfl
    rw [this, List.filterMap_some]
    exact (h3 i hi).good.dec
  have hw : ∀ qs ∈ items.map (·.1.qs), MessageOf qs := by
    intro qs hqs
    obtain ⟨i, hi, rfl⟩ := List.mem_map.1 hqs
    by_cases hn : 2 ≤ i.1.pdus.length
    · exact .inr ⟨_, item_segments (h3 i hi).good (hsz i hi) hn⟩
    · exact .inl (item_single (h3 i hi).good (hsz i hi) hn)
  have hboth : ∀ (i : Nat) c qs, calls[i]? = some c → (items.map (·.1.qs))[i]? = some qs → textOf dopts (qs.map some) = .ok c.1 := by
    intro i c qs hci hqi
    rw [← h2, List.getElem?_map] at hci
    obtain ⟨x, hx, rfl⟩ := Option.map_eq_some_iff.1 hci
    rw [List.getElem?_map, hx] at hqi
    cases hqi
    exact htext x (List.mem_of_getElem? hx)
  have hlen : (items.map (·.1.qs)).length = calls.length := by rw [← h2, List.length_map, List.length_map]
  refine ⟨?_, hlen, ?_⟩
  · have := sentAll_items (items.map (·.1)) dopts (by
      intro i hi
      obtain ⟨x, hx, rfl⟩ := List.mem_map.1 hi
      exact (h3 x hx).good)
    rw [List.map_map, List.map_map] at this
    rw [← h1]; exact this
  · intro d lag handler got hist hpass
    obtain ⟨s, os, hr, k1, k2, k3⟩ := C110_messages d lag handler _ got hist hw hpass
    refine ⟨s, os, hr, ?_, ?_, ?_⟩
    · intro dd hdd
      obtain ⟨i, qs, g, i1, i2, rfl, i3⟩ := k1 dd hdd
      have hlt : i < calls.length := by rw [← hlen]; exact get_lt i1
      have hc := List.getElem?_eq_getElem hlt
      exact ⟨i, _, qs, g, hc, i1, i2, i3, hboth i _ qs hc i1⟩
    · intro i c qs g hci hqi hgi hall
      exact ⟨_, k2 i qs g hqi hgi hall, hboth i c qs hci hqi⟩
    · intro hexact
      refine ⟨?_, (k3 hexact).2⟩
      refine ((k3 hexact).1.map _).trans ?_
      rw [List.map_map, List.map_map, ← h2, List.map_map]
      rw [List.map_congr_left (g := (fun c : List UInt8 × List Model.Sms.EncoderOption => (Except.ok c.1 : M Bytes)) ∘ (·.2))]
      intro i hi
      exact htext i hi

/-- C110, partial: texts are encoded by one encoder, all at the same time, any number of them, so that references are
used again and again.  The TPDUs are marshalled, the octets are unmarshalled, and the TPDUs are given to a Collector
with a reassembly timeout, each any number of times or never, in any order: those of one text within less than the
timeout, and those of texts that are alike more than `lag` apart.  Then whatever the Collector returns decodes to a
text of which all TPDUs arrived; every such text is returned; and if each TPDU arrives once, the texts returned are
those that were encoded, without an error, with nothing given to the expiry handler and nothing left.

Missing: the texts that C38 and C39 exclude, and texts that are alike and nearer than that, of which the TPDUs may
get mixed (C110_false). -/
theorem C110_texts_partial (w : Nat) (e : Model.Sms.Encoder)
    (dopts : List CharsetOpt) (calls : List (List UInt8 × List Model.Sms.EncoderOption)) (hm hc : List Atomic.Event)
    (results : List (List TPDU)) (h : Concurrently w e calls hm hc results)
    (hcalls : ∀ c ∈ calls, Postable e c.1 c.2)
    (htables : ∀ c ∈ calls, Matching (callCharsets e c.2) dopts)
    (hnat : ∀ c ∈ calls, Representable .default c.1 → ∀ ie ∈ (callTemplate e c.2).UDH, ie.ID ≠ 24 ∧ ie.ID ≠ 25)
    (hcomes : ∀ c ∈ calls, Comes e c.1 c.2) (hsize : ∀ pdus ∈ results, pdus.length ≤ 255) :
    ∃ received, SentAll results received ∧ received.length = calls.length ∧
      ∀ (d lag : Int) (handler : Bool) (got : List (List (Int × TPDU))) (hist : History), Passage d lag handler received got hist →
        ∃ s os, run (New true handler) (events hist) = .ok (s, os) ∧
          (∀ dd ∈ returns os, ∃ (i : Nat) (c : List UInt8 × List Model.Sms.EncoderOption) (qs : List TPDU) (g : List (Int × TPDU)),
            calls[i]? = some c ∧ received[i]? = some qs ∧ got[i]? = some g ∧ (∀ pdu ∈ qs, pdu ∈ g.map (·.2)) ∧ textOf dopts dd = .ok c.1) ∧
          (∀ (i : Nat) c qs g, calls[i]? = some c → received[i]? = some qs → got[i]? = some g → (∀ pdu ∈ qs, pdu ∈ g.map (·.2)) →
            ∃ dd ∈ returns os, textOf dopts dd = .ok c.1) ∧
          ((∀ (i : Nat) qs g, received[i]? = some qs → got[i]? = some g → (g.map (·.2)).Perm qs) →
            ((returns os).map (textOf dopts)).Perm (calls.map (fun c => .ok c.1)) ∧
              (∀ d err, .returned d err ∈ os → err = none) ∧ (∀ d, .handled d ∉ os) ∧ Pipes s = []) := by
  obtain ⟨items, h1, h2, h3⟩ := concurrent_items w e dopts calls hm hc results h hcalls
  exact ⟨_, texts_passage e dopts calls results items h1 h2 h3 hcalls htables hnat hcomes hsize⟩

/-- A segment of another message with the same type, other party, reference and number of segments. -/
def exLater (seq : UInt8) : TPDU := { exSeg 7 2 seq with UD := [0x42, seq] }

theorem exLaters : SegmentsOf exPair [exLater 1, exLater 2] where
  count := rfl
  multi := by decide
  seg := by
    intro j pdu h
    match j with
    | 0 => cases h; exact segOf_some.1 (by decide)
    | 1 => cases h; exact segOf_some.1 (by decide)
    | j + 2 => simp at h

/-- C110 is false as stated: of two messages that are alike a segment each is lost, the other segments arrive within
the timeout of each other, and what is returned is neither message, without an error. -/
theorem C110_false : ∃ h : History, Ordered h ∧ Timely 10 (New true true) [] h ∧ Prompt [.armed, .fired] 10 (New true true) [] h ∧
    MessageOf [exSeg 7 2 1, exSeg 7 2 2] ∧ MessageOf [exLater 1, exLater 2] ∧
    (arrivals h).map (·.2) = [exSeg 7 2 1, exLater 2] ∧
    ∃ s os, run (New true true) (events h) = .ok (s, os) ∧ returns os = [[some (exSeg 7 2 1), some (exLater 2)]] ∧
      ∀ d err, .returned d err ∈ os → err = none := by
  refine ⟨[(0, .collect (exSeg 7 2 1)), (5, .collect (exLater 2))], by unfold Ordered; decide, ⟨?_, ?_, trivial⟩, ⟨?_, ?_, trivial⟩,
    .inr ⟨_, exPairs⟩, .inr ⟨_, exLaters⟩, rfl, ?_⟩
  · intro i t τ h; cases h
  · intro i t τ h; cases h
  · intro i t τ h; cases h
  · intro i t τ h hs hset
    match i with
    | 0 => cases hset; decide
    | i + 1 => cases h
  · have : (run (New true true) [.collect (exSeg 7 2 1), .collect (exLater 2)]).map (·.2) =
        .ok [.returned [] none, .returned [some ⟨0, exSeg 7 2 1⟩, some ⟨1, exLater 2⟩] none] := by decide
    cases hr : run (New true true) [.collect (exSeg 7 2 1), .collect (exLater 2)] with
    | error f => rw [hr] at this; cases this
    | ok r =>
      rw [hr] at this
      have : r.2 = _ := Except.ok.inj this
      refine ⟨r.1, r.2, hr, by rw [this]; rfl, ?_⟩
      intro d err hm
      rw [this] at hm
      simp only [List.mem_cons, Output.returned.injEq, List.not_mem_nil, or_false] at hm
      rcases hm with ⟨_, rfl⟩ | ⟨_, rfl⟩ <;> rfl

/-- Beside C110: one segment of a message arrives, the timeout passes, and both segments of a message that is alike
arrive, in the wrong order. -/
def exReuse : History :=
  [(0, .collect (exSeg 7 2 1)), (3, .collect exSingle), (10, .fire 0), (10, .expire 0), (20, .collect (exLater 2)), (21, .collect (exLater 1))]

theorem exPassage : Passage 10 10 true [[exSeg 7 2 1, exSeg 7 2 2], [exSingle], [exLater 1, exLater 2]]
    [[(0, exSeg 7 2 1)], [(3, exSingle)], [(20, exLater 2), (21, exLater 1)]] exReuse where
  lags := by decide
  opened := by decide
  ordered := by unfold Ordered; decide
  timely := by
    refine ⟨?_, ?_, ?_, ?_, ?_, ?_, trivial⟩
    · intro i t τ h; cases h
    · intro i t τ h; cases h
    · intro i t τ h ht hs hset
      cases h; cases hset; decide
    · intro i t τ h; cases h
    · intro i t τ h; cases h
    · intro i t τ h; cases h
  prompt := by
    refine ⟨?_, ?_, ?_, ?_, ?_, ?_, trivial⟩
    · intro i t τ h; cases h
    · intro i t τ h hs hset
      match i with
      | 0 => cases hset; decide
      | i + 1 => cases h
    · intro i t τ h hs hset
      match i with
      | 0 => cases hset; decide
      | i + 1 => cases h
    · intro i t τ h hs hset
      match i with
      | 0 => cases hset; decide
      | i + 1 => cases h
    · intro i t τ h hs hset
      match i with
      | 0 => cases h; simp at hs
      | i + 1 => cases h
    · intro i t τ h hs hset
      match i with
      | 0 => cases h; simp at hs
      | 1 => cases hset; decide
      | i + 2 => cases h
  arrive := List.Perm.refl _
  length := rfl
  from_ := by
    intro i qs g h1 h2
    match i with
    | 0 => cases h1; cases h2; decide
    | 1 => cases h1; cases h2; decide
    | 2 => cases h1; cases h2; decide
    | i + 3 => cases h1
  together := by
    intro i qs g h1 h2
    match i with
    | 0 => cases h1; cases h2; intro _; unfold Together; decide
    | 1 => cases h1; cases h2; intro _; unfold Together; decide
    | 2 => cases h1; cases h2; intro _; unfold Together; decide
    | i + 3 => cases h1
  apart := by
    intro i j qs qs' g g' hij h1 h2 h3 h4 hal
    match i, j with
    | 0, 0 => omega
    | 0, 2 => cases h3; cases h4; left; decide
    | 1, 2 =>
      cases h1; cases h2
      obtain ⟨m, ⟨p, hp, hs⟩, _⟩ := hal
      obtain rfl := List.mem_singleton.1 hp
      obtain ⟨n, hn⟩ := Option.isSome_iff_exists.1 hs
      exact absurd (segment_multi (segOf_some.1 hn)) (by decide)
    | 0, 1 =>
      cases h1; cases h2
      obtain ⟨m, _, q, hq, hs⟩ := hal
      obtain rfl := List.mem_singleton.1 hq
      obtain ⟨n, hn⟩ := Option.isSome_iff_exists.1 hs
      exact absurd (segment_multi (segOf_some.1 hn)) (by decide)
    | 1, 0 => omega
    | 1, 1 => omega
    | 2, 0 => omega
    | 2, 1 => omega
    | 2, 2 => omega
    | i + 3, _ => cases h1
    | _, j + 3 => cases h2

example : ∀ qs ∈ [[exSeg 7 2 1, exSeg 7 2 2], [exSingle], [exLater 1, exLater 2]], MessageOf qs := by
  intro qs hq
  simp only [List.mem_cons, List.not_mem_nil, or_false] at hq
  rcases hq with rfl | rfl | rfl
  · exact .inr ⟨_, exPairs⟩
  · exact .inl ⟨_, rfl, by decide⟩
  · exact .inr ⟨_, exLaters⟩

example : (run (New true true) (events exReuse)).map (fun r => returns r.2) = .ok [[some exSingle], [some (exLater 1), some (exLater 2)]] := by
  decide

/-- Beside `C110_epochs`. -/
example : Timed.segs exPair exReuse = [(0, exSeg 7 2 1), (20, exLater 2), (21, exLater 1)] ∧
    epochs 10 exPair [] 0 (Timed.segs exPair exReuse) = [([], none), ([], none), ([some (exLater 1), some (exLater 2)], none)] := by
  decide

example : Clear 10 10 exPair [] 0 [(0, exSeg 7 2 1), (20, exLater 2), (21, exLater 1)] := by
  refine ⟨fun h => absurd rfl h, ?_⟩
  show if _ then _ else _
  rw [if_neg (by decide), if_neg (by decide)]
  refine ⟨fun _ => by decide, ?_⟩
  show if _ then _ else _
  rw [if_neg (by decide), if_neg (by decide)]
  refine ⟨fun _ => by decide, ?_⟩
  show if _ then _ else _
  rw [if_pos (by decide)]
  trivial

end Verif.Props
