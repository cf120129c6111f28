import Verif.Proofs.Collide
import Verif.Props.TextsExact
import Verif.Props.Separate

/-! C59, C81, C82, exactly: when do texts arrive intact in whatever order their TPDUs arrive? -/

namespace Verif.Props

open Verif.Model Verif.Model.Collector Verif.Model.Concurrent Verif.Spec Verif.Proofs Verif.Proofs.Coll
open Verif.Spec.Reassembly (Parts Input Result)

/-- A Collector is given the TPDUs in this order: the messages it returns decode to the texts, each once, no call reports
an error, and nothing is left pending. -/
def AllArrive (timeout handler : Bool) (dopts : List CharsetOpt) (arrival : List TPDU) (texts : List (List UInt8)) : Prop :=
  ∃ s os, run (New timeout handler) (arrival.map .collect) = .ok (s, os) ∧
    ((returns os).map (textOf dopts)).Perm (texts.map .ok) ∧
    (∀ d err, .returned d err ∈ os → err = none) ∧ Pipes s = []

/-- A Collector is given the TPDUs in this order: it rejects one as a duplicate, and returns fewer messages than there
are texts. -/
def SomeLost (timeout handler : Bool) (arrival : List TPDU) (texts : Nat) : Prop :=
  ∃ s os, run (New timeout handler) (arrival.map .collect) = .ok (s, os) ∧ (returns os).length < texts ∧
    ∃ d, .returned d (some .duplicateSegment) ∈ os

/-! Helpers. -/

theorem lost_not_all {timeout handler : Bool} {dopts : List CharsetOpt} {arrival : List TPDU} {texts : List (List UInt8)}
    (h : SomeLost timeout handler arrival texts.length) : ¬ AllArrive timeout handler dopts arrival texts := by
  rintro ⟨s, os, h1, h2, _⟩
  obtain ⟨s', os', g1, g2, _⟩ := h
  rw [h1] at g1
  cases g1
  have := h2.length_eq
  simp only [List.length_map] at this
  omega

/-- Messages on their way, each for a call `x`. -/
theorem items_exact {γ : Type} (timeout handler : Bool) (dopts : List CharsetOpt) (items : List (Item × γ))
    (text : γ → List UInt8) (septets : γ → Prop)
    (hgood : ∀ i ∈ items, Good dopts i.1) (hsz : ∀ i ∈ items, i.1.pdus.length ≤ 255)
    (hutf : ∀ i ∈ items, Utf8 i.1.text) (hesc : ∀ i ∈ items, septets i.2 → 0x1b ∉ i.1.text)
    (hsame : ∀ i ∈ items, Utf8 (text i.2) → ¬ septets i.2 → i.1.text = text i.2)
    (hcomes : ∀ i ∈ items, Utf8 (text i.2) → (septets i.2 → 0x1b ∉ text i.2) → i.1.text = text i.2) :
    ((∀ arrival : List TPDU, arrival.Perm (items.map (·.1.qs)).flatten →
        AllArrive timeout handler dopts arrival (items.map (fun i => text i.2))) ↔
      (∀ i ∈ items, Utf8 (text i.2) ∧ (septets i.2 → 0x1b ∉ text i.2)) ∧
        ((items.filter (fun i => 2 ≤ i.1.pdus.length)).map (fun i => i.1.ident)).Nodup) ∧
    (¬ ((items.filter (fun i => 2 ≤ i.1.pdus.length)).map (fun i => i.1.ident)).Nodup →
      ∃ arrival : List TPDU, arrival.Perm (items.map (·.1.qs)).flatten ∧ SomeLost timeout handler arrival items.length) := by
  have hg : ∀ i ∈ items.map (·.1), Good dopts i := by
    intro i hi
    obtain ⟨x, hx, rfl⟩ := List.mem_map.1 hi
    exact hgood x hx
  have hs : ∀ i ∈ items.map (·.1), i.pdus.length ≤ 255 := by
    intro i hi
    obtain ⟨x, hx, rfl⟩ := List.mem_map.1 hi
    exact hsz x hx
  have hflat : (items.map (·.1.qs)).flatten = ((items.map (·.1)).map (·.qs)).flatten := by rw [List.map_map]; rfl
  have hids : ((items.filter (fun i => 2 ≤ i.1.pdus.length)).map (fun i => i.1.ident)) =
      ((items.map (·.1)).filter (fun i => 2 ≤ i.pdus.length)).map Item.ident := by
    rw [List.filter_map, List.map_map]
    rfl
  have hlost : ¬ ((items.filter (fun i => 2 ≤ i.1.pdus.length)).map (fun i => i.1.ident)).Nodup →
      ∃ arrival : List TPDU, arrival.Perm (items.map (·.1.qs)).flatten ∧ SomeLost timeout handler arrival items.length := by
    intro hn
    rw [hids] at hn
    obtain ⟨arrival, hp, hl⟩ := items_lost timeout handler dopts (items.map (·.1)) hg hs hn
    rw [hflat]
    refine ⟨arrival, hp, ?_⟩
    obtain ⟨s, os, hr, _⟩ := run_ok (arrival.map .collect) (inv_new timeout handler) (by
      intro e he
      obtain ⟨pdu, hpdu, rfl⟩ := List.mem_map.1 he
      obtain ⟨l, hl', hpl⟩ := List.mem_flatten.1 (hp.mem_iff.1 hpdu)
      obtain ⟨i, hi, rfl⟩ := List.mem_map.1 hl'
      exact item_fine (hg i hi) pdu hpl)
    obtain ⟨g1, g2⟩ := hl s os hr
    rw [List.length_map] at g1
    exact ⟨s, os, hr, g1, g2⟩
  -- what comes back if no two have the same identification
  have hback : ((items.filter (fun i => 2 ≤ i.1.pdus.length)).map (fun i => i.1.ident)).Nodup →
      ∀ arrival : List TPDU, arrival.Perm (items.map (·.1.qs)).flatten →
        ∃ s os, run (New timeout handler) (arrival.map .collect) = .ok (s, os) ∧
          ((returns os).map (textOf dopts)).Perm ((items.map (fun i => i.1.text)).map .ok) ∧
          (∀ d err, .returned d err ∈ os → err = none) ∧ Pipes s = [] := by
    intro hn arrival ha
    rw [hids] at hn
    rw [hflat] at ha
    obtain ⟨s, os, r1, r2, r3, r4⟩ := items_collected_idents timeout handler dopts (items.map (·.1)) hg hs hn arrival ha
    refine ⟨s, os, r1, (r2.map (textOf dopts)).trans (List.Perm.of_eq ?_), r3, r4⟩
    rw [List.map_map, List.map_map, List.map_map]
    apply List.map_congr_left
    intro i hi
    simp only [Function.comp_apply, textOf, List.filterMap_map]
    have : (id ∘ some : TPDU → Option TPDU) = some := rfl
    rw [this, List.filterMap_some]
    exact (hgood i hi).dec
  refine ⟨⟨?_, ?_⟩, hlost⟩
  · intro hall
    have hnd : ((items.filter (fun i => 2 ≤ i.1.pdus.length)).map (fun i => i.1.ident)).Nodup := by
      apply Classical.byContradiction
      intro hn
      obtain ⟨arrival, hp, hl⟩ := hlost hn
      exact lost_not_all (by rw [List.length_map]; exact hl) (hall arrival hp)
    refine ⟨?_, hnd⟩
    obtain ⟨s, os, r1, r2, _⟩ := hback hnd _ (.refl _)
    obtain ⟨s', os', q1, q2, _⟩ := hall _ (.refl _)
    rw [r1] at q1
    cases q1
    exact perm_comes items (fun i => i.1.text) (fun i => text i.2) (fun i => septets i.2) hutf hesc hsame
      (perm_ok (r2.symm.trans q2))
  · rintro ⟨hc, hn⟩ arrival ha
    obtain ⟨s, os, r1, r2, r3⟩ := hback hn arrival ha
    refine ⟨s, os, r1, r2.trans (List.Perm.of_eq ?_), r3⟩
    congr 1
    apply List.map_congr_left
    intro i hi
    exact hcomes i hi (hc i hi).1 (hc i hi).2

theorem posted_comes {e : Model.Sms.Encoder} {dopts : List CharsetOpt} {text : List UInt8}
    {options : List Model.Sms.EncoderOption} {i : Item} (h : Postable e text options)
    (hm : Matching (callCharsets e options) dopts)
    (hnat : Representable .default text → ∀ ie ∈ (callTemplate e options).UDH, ie.ID ≠ 24 ∧ ie.ID ≠ 25)
    (hp : Posted e dopts text options i) (hc : Comes e text options) : i.text = text := by
  obtain ⟨a, b, r, hr, hi⟩ := hp.made
  have hcv := conveyable_counters a b (postable_conveyable h hm hnat hc)
  obtain ⟨r', qs, hr', hg⟩ := item_of dopts _ text options hcv
  rw [hr] at hr'
  cases hr'
  have h1 := hp.good.sent
  rw [hi] at h1
  have h2 := sent_unique _ _ _ h1 hg.sent
  have h3 := hp.good.dec
  rw [h2, hg.dec] at h3
  exact (Except.ok.inj h3).symm

/-- What identifies the messages of more than one TPDU that one encoder makes of the calls: the type of the TPDUs, the
other party, the number of TPDUs and a reference, which is 1, 2, 3, ... modulo 256. -/
def idents (e : Model.Sms.Encoder) (calls : List (List UInt8 × List Model.Sms.EncoderOption)) : List Ident :=
  (((calls.zip (encodes e calls)).filter (fun x => 2 ≤ x.2.length)).zipIdx).map (fun x =>
    ⟨(callTemplate e x.1.1.2).SmsType, peer (callTemplate e x.1.1.2), (x.2 + 1) % 256, x.1.2.length⟩)

theorem posted_idents (dopts : List CharsetOpt) (options : List Model.Sms.EncoderOption)
    (calls : List (List UInt8 × List Model.Sms.EncoderOption))
    (items : List (Item × (List UInt8 × List Model.Sms.EncoderOption)))
    (h1 : items.map (·.1.pdus) = encodes (Sms.NewEncoder options) calls) (h2 : items.map (·.2) = calls)
    (h3 : ∀ i ∈ items, Posted (Sms.NewEncoder options) dopts i.2.1 i.2.2 i.1) :
    (items.filter (fun i => 2 ≤ i.1.pdus.length)).map (fun i => i.1.ident) = idents (Sms.NewEncoder options) calls := by
  have hz : calls.zip (encodes (Sms.NewEncoder options) calls) = items.map (fun i => (i.2, i.1.pdus)) := by
    rw [← h1, ← List.zip_map', h2]
  have hrefs := item_refs dopts options calls (items.map (·.1)) (by rw [← h1, List.map_map]; rfl) (by
    intro i hi
    obtain ⟨x, hx, rfl⟩ := List.mem_map.1 hi
    exact (h3 x hx).good)
  rw [List.filter_map, List.map_map, List.length_map] at hrefs
  have hf : ((fun i : Item => decide (2 ≤ i.pdus.length)) ∘ fun x : Item × (List UInt8 × List Model.Sms.EncoderOption) => x.1) =
      fun i => decide (2 ≤ i.1.pdus.length) := rfl
  rw [hf] at hrefs
  unfold idents
  rw [hz, List.filter_map]
  have hf' : ((fun x : (List UInt8 × List Model.Sms.EncoderOption) × List TPDU => decide (2 ≤ x.2.length)) ∘
      fun i : Item × (List UInt8 × List Model.Sms.EncoderOption) => (i.2, i.1.pdus)) = fun i => decide (2 ≤ i.1.pdus.length) := rfl
  rw [hf', List.zipIdx_map, List.map_map]
  apply List.ext_getElem?
  intro k
  rw [List.getElem?_map, List.getElem?_map, List.getElem?_zipIdx]
  have hk := congrArg (fun l => l[k]?) hrefs
  simp only [List.getElem?_map] at hk
  cases hi : (items.filter (fun i => 2 ≤ i.1.pdus.length))[k]? with
  | none => rfl
  | some i =>
    rw [hi] at hk
    rw [List.getElem?_range (get_lt hi)] at hk
    simp only [Option.map_some, Function.comp_apply, Option.some.injEq] at hk ⊢
    have hp := h3 i (List.mem_filter.1 (List.mem_of_getElem? hi)).1
    have hl := item_length hp.good
    have hid : i.1.ident = ⟨i.1.type, i.1.address, i.1.ident.ref, i.1.qs.length⟩ := rfl
    rw [hid, hk, hl, hp.type, hp.address]
    simp

/-- C59, exactly: texts are encoded by one encoder, with options that may differ from call to call.  Whatever the order
in which the TPDUs arrive, the texts come back, each once, without an error and with nothing left pending, if and only
if each text is UTF-8 and is sent in UCS-2 or has no U+001B, and no two texts that need more than one TPDU have the same
type, other party, number of TPDUs and, modulo 256, reference.  If two have, an order exists in which one gets lost. -/
theorem C59_always_exact (timeout handler : Bool) (options : List Model.Sms.EncoderOption) (dopts : List CharsetOpt)
    (calls : List (List UInt8 × List Model.Sms.EncoderOption))
    (hcalls : ∀ c ∈ calls, Postable (Sms.NewEncoder options) c.1 c.2)
    (htables : ∀ c ∈ calls, Matching (callCharsets (Sms.NewEncoder options) c.2) dopts)
    (hnat : ∀ c ∈ calls, Representable .default c.1 →
      ∀ ie ∈ (callTemplate (Sms.NewEncoder options) c.2).UDH, ie.ID ≠ 24 ∧ ie.ID ≠ 25)
    (hsize : ∀ pdus ∈ encodes (Sms.NewEncoder options) calls, pdus.length ≤ 255) :
    ∃ received, SentAll (encodes (Sms.NewEncoder options) calls) received ∧
      ((∀ arrival : List TPDU, arrival.Perm received.flatten → AllArrive timeout handler dopts arrival (calls.map (·.1))) ↔
        (∀ c ∈ calls, Comes (Sms.NewEncoder options) c.1 c.2) ∧ (idents (Sms.NewEncoder options) calls).Nodup) ∧
      (¬ (idents (Sms.NewEncoder options) calls).Nodup →
        ∃ arrival : List TPDU, arrival.Perm received.flatten ∧ SomeLost timeout handler arrival calls.length) := by
  obtain ⟨items, h1, h2, h3⟩ := posteds_of dopts calls (Sms.NewEncoder options) hcalls
  have hmem : ∀ i ∈ items, i.2 ∈ calls := fun i hi => by rw [← h2]; exact List.mem_map.2 ⟨i, hi, rfl⟩
  have hx := items_exact timeout handler dopts items (fun c => c.1)
    (fun c => InSeptets (callCharsets (Sms.NewEncoder options) c.2) c.1)
    (fun i hi => (h3 i hi).good) (fun i hi => hsize _ (by rw [← h1]; exact List.mem_map.2 ⟨i, hi, rfl⟩))
    (fun i hi => (h3 i hi).utf8) (fun i hi => (h3 i hi).noEscape) (fun i hi => (h3 i hi).same)
    (fun i hi g1 g2 => posted_comes (hcalls _ (hmem i hi)) (htables _ (hmem i hi)) (hnat _ (hmem i hi)) (h3 i hi) ⟨g1, g2⟩)
  rw [posted_idents dopts options calls items h1 h2 h3] at hx
  have ht : items.map (fun i => i.2.1) = calls.map (·.1) := by rw [← h2, List.map_map]; rfl
  have hl : items.length = calls.length := by rw [← h2, List.length_map]
  rw [ht, hl] at hx
  refine ⟨items.map (·.1.qs), ?_, hx.1.trans ⟨?_, ?_⟩, hx.2⟩
  · have := sentAll_items (items.map (·.1)) dopts (by
      intro i hi
      obtain ⟨x, hx, rfl⟩ := List.mem_map.1 hi
      exact (h3 x hx).good)
    rw [List.map_map, List.map_map] at this
    rw [← h1]
    exact this
  · rintro ⟨g1, g2⟩
    refine ⟨?_, g2⟩
    intro c hc
    rw [← h2] at hc
    obtain ⟨i, hi, rfl⟩ := List.mem_map.1 hc
    exact g1 i hi
  · rintro ⟨g1, g2⟩
    exact ⟨fun i hi => g1 _ (hmem i hi), g2⟩

/-- C59: up to 256 texts may need more than one TPDU. -/
theorem C59_few (e : Model.Sms.Encoder) (calls : List (List UInt8 × List Model.Sms.EncoderOption))
    (hmany : ((encodes e calls).filter (fun pdus => 2 ≤ pdus.length)).length ≤ 256) : (idents e calls).Nodup := by
  have hlen : ((calls.zip (encodes e calls)).filter (fun x => 2 ≤ x.2.length)).length ≤ 256 := by
    refine Nat.le_trans ?_ hmany
    have h : ∀ (l : List (List UInt8 × List Model.Sms.EncoderOption)) (l' : List (List TPDU)),
        ((l.zip l').filter (fun x => 2 ≤ x.2.length)).length ≤ (l'.filter (fun pdus => 2 ≤ pdus.length)).length := by
      intro l
      induction l with
      | nil => intro l'; simp
      | cons c l ih =>
        intro l'
        cases l' with
        | nil => simp
        | cons p l' =>
          have := ih l'
          simp only [List.zip_cons_cons, List.filter_cons]
          split <;> simp <;> omega
    exact h _ _
  unfold idents
  rw [List.nodup_iff_pairwise_ne, List.pairwise_map, List.pairwise_iff_getElem]
  intro i j hi hj hij he
  rw [List.length_zipIdx] at hi hj
  simp only [List.getElem_zipIdx, Ident.mk.injEq] at he
  omega

/-- C59 is false of more than 256 texts to the same party that need the same number of TPDUs, more than one. -/
theorem C59_limit (timeout handler : Bool) (options : List Model.Sms.EncoderOption) (dopts : List CharsetOpt)
    (calls : List (List UInt8 × List Model.Sms.EncoderOption))
    (hcalls : ∀ c ∈ calls, Postable (Sms.NewEncoder options) c.1 c.2)
    (htables : ∀ c ∈ calls, Matching (callCharsets (Sms.NewEncoder options) c.2) dopts)
    (hnat : ∀ c ∈ calls, Representable .default c.1 →
      ∀ ie ∈ (callTemplate (Sms.NewEncoder options) c.2).UDH, ie.ID ≠ 24 ∧ ie.ID ≠ 25)
    (type : UInt8) (address : Address) (n : Nat) (hn : 2 ≤ n) (hn' : n ≤ 255)
    (hsize : ∀ pdus ∈ encodes (Sms.NewEncoder options) calls, pdus.length = n)
    (hto : ∀ c ∈ calls, (callTemplate (Sms.NewEncoder options) c.2).SmsType = type ∧
      peer (callTemplate (Sms.NewEncoder options) c.2) = address)
    (hmany : 256 < calls.length) :
    ∃ received, SentAll (encodes (Sms.NewEncoder options) calls) received ∧
      ∃ arrival : List TPDU, arrival.Perm received.flatten ∧ SomeLost timeout handler arrival calls.length := by
  obtain ⟨received, h1, _, h2⟩ := C59_always_exact timeout handler options dopts calls hcalls htables hnat
    (fun pdus hp => by rw [hsize pdus hp]; exact hn')
  refine ⟨received, h1, h2 ?_⟩
  intro hnd
  have hlen : (encodes (Sms.NewEncoder options) calls).length = calls.length := by
    obtain ⟨items, g1, g2, _⟩ := posteds_of dopts calls (Sms.NewEncoder options) hcalls
    rw [← g1, List.length_map]
    conv => rhs; rw [← g2]
    rw [List.length_map]
  have hfil : (calls.zip (encodes (Sms.NewEncoder options) calls)).filter (fun x => 2 ≤ x.2.length) =
      calls.zip (encodes (Sms.NewEncoder options) calls) := by
    rw [List.filter_eq_self]
    intro x hx
    have := hsize _ (List.of_mem_zip hx).2
    simp; omega
  unfold idents at hnd
  rw [hfil, List.nodup_iff_pairwise_ne, List.pairwise_map, List.pairwise_iff_getElem] at hnd
  have hzl : (calls.zip (encodes (Sms.NewEncoder options) calls)).length = calls.length := by
    rw [List.length_zip, hlen, Nat.min_self]
  refine hnd 0 256 (by rw [List.length_zipIdx]; omega) (by rw [List.length_zipIdx]; omega) (by omega) ?_
  simp only [List.getElem_zipIdx, List.getElem_zip, Ident.mk.injEq]
  have c0 := hto _ (List.getElem_mem (show 0 < calls.length by omega))
  have c1 := hto _ (List.getElem_mem (show 256 < calls.length by omega))
  rw [c0.1, c0.2, c1.1, c1.2, hsize _ (List.getElem_mem _), hsize _ (List.getElem_mem _)]
  simp

/-- C81, exactly: each text is encoded by a call of `Encode` of its own.  Whatever the order in which the TPDUs arrive,
the texts come back, each once, without an error and with nothing left pending, if and only if each text is UTF-8 and
is sent in UCS-2 or has no U+001B, and no two texts to the same number need the same number of TPDUs, more than one.
If two do, an order exists in which one gets lost. -/
theorem C81_exact (timeout handler : Bool) (cs dopts : List CharsetOpt) (hm : Matching cs dopts)
    (msgs : List (List UInt8 × List UInt8))
    (hmsgs : ∀ digits text, (digits, text) ∈ msgs → Digits digits ∧ digits.length ≤ 255 ∧ text ≠ [])
    (sent : List (List TPDU))
    (hsent : msgs.map (fun m => Sms.Encode m.2 (Sms.To m.1 :: cs.map .charsets)) = sent.map .ok)
    (hsize : ∀ pdus ∈ sent, pdus.length ≤ 255) :
    let keys := ((msgs.zip sent).filter (fun x => 2 ≤ x.2.length)).map (fun x => (x.1.1, x.2.length))
    ∃ received, SentAll sent received ∧
      ((∀ arrival : List TPDU, arrival.Perm received.flatten → AllArrive timeout handler dopts arrival (msgs.map (·.2))) ↔
        (∀ digits text, (digits, text) ∈ msgs → Utf8 text ∧ (InSeptets cs text → 0x1b ∉ text)) ∧ keys.Nodup) ∧
      (¬ keys.Nodup → ∃ arrival : List TPDU, arrival.Perm received.flatten ∧ SomeLost timeout handler arrival msgs.length) := by
  intro keys
  have hlen : msgs.length = sent.length := by
    have := congrArg List.length hsent
    simpa using this
  obtain ⟨items, h1, h2, h3⟩ := choose_list (fun i : Item × (List UInt8 × List UInt8) => i.1.pdus)
    (fun i => i.2) (fun i => Posted (Sms.NewEncoder (Sms.AsSubmit :: cs.map .charsets)) dopts i.2.2 [Sms.To i.2.1] i.1 ∧
      (2 ≤ i.1.pdus.length → i.1.ident = ⟨SmsSubmit, ⟨0x91, i.2.1⟩, 1, i.1.pdus.length⟩)) sent msgs hlen.symm (by
      intro i pdus m hp hmi
      obtain ⟨digits, text⟩ := m
      obtain ⟨g1, g2, g3⟩ := hmsgs digits text (List.mem_of_getElem? hmi)
      obtain ⟨r, it, hr, hi, hposted⟩ := posted_of dopts _ text [Sms.To digits] (postable_submit digits text cs g1 g2 g3)
      have he := congrArg (fun l => l[i]?) hsent
      simp only [List.getElem?_map, hmi, hp, Option.map_some, Option.some.injEq] at he
      rw [encode_fun, hr] at he
      cases he
      refine ⟨(it, _), hi, rfl, hposted, ?_⟩
      intro h2
      have h2 : 2 ≤ it.pdus.length := h2
      have hrefs := item_refs dopts (Sms.AsSubmit :: cs.map .charsets) [(text, [Sms.To digits])] [it]
        (by rw [List.map_cons, List.map_nil, hi, encodes, hr]; rfl)
        (by intro j hj; rw [List.mem_singleton.1 hj]; exact hposted.good)
      have hfil : [it].filter (fun i => decide (2 ≤ i.pdus.length)) = [it] := by simp [h2]
      rw [hfil] at hrefs
      have href : it.ident.ref = 1 := by simpa using hrefs
      have hid : it.ident = ⟨it.type, it.address, it.ident.ref, it.qs.length⟩ := rfl
      rw [hid, href, hposted.type, hposted.address, submit_peer digits cs g1, item_length hposted.good, (submit_call digits cs g1).1]
      have ht : ({ Direction := MO, FirstOctet := 1, DA := ⟨0x91, digits⟩ } : TPDU).SmsType = SmsSubmit := by
        show smsType (FirstOctet.MTI 1) MO = SmsSubmit
        decide
      rw [ht])
  have hmem : ∀ i ∈ items, i.2 ∈ msgs := fun i hi => by rw [← h2]; exact List.mem_map.2 ⟨i, hi, rfl⟩
  have hkeys : ((items.filter (fun i => 2 ≤ i.1.pdus.length)).map (fun i => i.1.ident)).Nodup ↔ keys.Nodup := by
    have hz : msgs.zip sent = items.map (fun i => (i.2, i.1.pdus)) := by
      rw [← h1, ← h2, List.zip_map']
    show _ ↔ (((msgs.zip sent).filter (fun x => 2 ≤ x.2.length)).map (fun x => (x.1.1, x.2.length))).Nodup
    rw [hz, List.filter_map, List.map_map]
    have hf' : ((fun x : (List UInt8 × List UInt8) × List TPDU => decide (2 ≤ x.2.length)) ∘
      fun i : Item × (List UInt8 × List UInt8) => (i.2, i.1.pdus)) = fun i => decide (2 ≤ i.1.pdus.length) := rfl
    rw [hf']
    rw [List.nodup_iff_pairwise_ne, List.nodup_iff_pairwise_ne, List.pairwise_map, List.pairwise_map]
    have hid : ∀ i ∈ items.filter (fun i => 2 ≤ i.1.pdus.length), i.1.ident = ⟨SmsSubmit, ⟨0x91, i.2.1⟩, 1, i.1.pdus.length⟩ := by
      intro i hi
      obtain ⟨g1, g2⟩ := List.mem_filter.1 hi
      exact (h3 i g1).2 (by simpa using g2)
    constructor <;> refine fun hp => List.Pairwise.imp_of_mem ?_ hp <;> intro a b ha hb hne heq <;> apply hne
    · simp only [Function.comp_apply, Prod.mk.injEq] at heq
      rw [hid a ha, hid b hb, heq.1, heq.2]
    · rw [hid a ha, hid b hb] at heq
      simp only [Ident.mk.injEq, Address.mk.injEq, true_and] at heq
      simp only [Function.comp_apply, heq.1, heq.2]
  have hx := items_exact timeout handler dopts items (fun m => m.2) (fun m => InSeptets cs m.2)
    (fun i hi => (h3 i hi).1.good) (fun i hi => hsize _ (by rw [← h1]; exact List.mem_map.2 ⟨i, hi, rfl⟩))
    (fun i hi => (h3 i hi).1.utf8)
    (fun i hi => by
      have := (h3 i hi).1.noEscape
      rw [(submit_call i.2.1 cs (hmsgs _ _ (hmem i hi)).1).2] at this
      exact this)
    (fun i hi => by
      have := (h3 i hi).1.same
      rw [(submit_call i.2.1 cs (hmsgs _ _ (hmem i hi)).1).2] at this
      exact this)
    (fun i hi g1 g2 => by
      obtain ⟨d1, d2, d3⟩ := hmsgs _ _ (hmem i hi)
      obtain ⟨ht, hc⟩ := submit_call i.2.1 cs d1
      refine posted_comes (postable_submit i.2.1 i.2.2 cs d1 d2 d3) (by rw [hc]; exact hm) ?_ (h3 i hi).1 ⟨g1, by rw [hc]; exact g2⟩
      intro _ ie hie
      rw [ht] at hie
      cases hie)
  rw [hkeys] at hx
  have ht : items.map (fun i => i.2.2) = msgs.map (·.2) := by rw [← h2, List.map_map]; rfl
  have hl : items.length = msgs.length := by rw [← h2, List.length_map]
  rw [ht, hl] at hx
  refine ⟨items.map (·.1.qs), ?_, hx.1.trans ⟨?_, ?_⟩, hx.2⟩
  · have := sentAll_items (items.map (·.1)) dopts (by
      intro i hi
      obtain ⟨x, hx, rfl⟩ := List.mem_map.1 hi
      exact (h3 x hx).1.good)
    rw [List.map_map, List.map_map] at this
    rw [← h1]
    exact this
  · rintro ⟨g1, g2⟩
    refine ⟨?_, g2⟩
    intro digits text hc
    rw [← h2] at hc
    obtain ⟨i, hi, he⟩ := List.mem_map.1 hc
    have := g1 i hi
    rw [he] at this
    exact this
  · rintro ⟨g1, g2⟩
    exact ⟨fun i hi => g1 _ _ (hmem i hi), g2⟩

/-- What identifies the messages of more than one TPDU among those that calls returned: type, other party, the reference
that the first TPDU has, and the number of TPDUs. -/
def madeIdents (e : Model.Sms.Encoder) (calls : List (List UInt8 × List Model.Sms.EncoderOption)) (results : List (List TPDU)) :
    List Ident :=
  ((calls.zip results).filter (fun x => 2 ≤ x.2.length)).map (fun x =>
    ⟨(callTemplate e x.1.2).SmsType, peer (callTemplate e x.1.2), ((x.2.head?.bind TPDU.ConcatInfo).map (·.mref)).getD 0, x.2.length⟩)

theorem concurrent_items (w : Nat) (e : Model.Sms.Encoder)
    (dopts : List CharsetOpt) (calls : List (List UInt8 × List Model.Sms.EncoderOption)) (hm hc : List Atomic.Event)
    (results : List (List TPDU)) (h : Concurrently w e calls hm hc results) (hcalls : ∀ c ∈ calls, Postable e c.1 c.2) :
    ∃ items : List (Item × (List UInt8 × List Model.Sms.EncoderOption)), items.map (·.1.pdus) = results ∧
      items.map (·.2) = calls ∧ ∀ i ∈ items, Posted e dopts i.2.1 i.2.2 i.1 :=
  choose_list (fun i : Item × (List UInt8 × List Model.Sms.EncoderOption) => i.1.pdus) (fun i => i.2)
    (fun i => Posted e dopts i.2.1 i.2.2 i.1) results calls h.length (by
      intro i pdus c hp hcl
      obtain ⟨text, options⟩ := c
      have hd := h.call i text options pdus hcl hp
      obtain ⟨r, it, hr, hi, this⟩ := posted_of dopts _ text options
        (postable_counters (seen (returnsTo i hm)) (seen (returnsTo i hc)) (hcalls _ (List.mem_of_getElem? hcl)))
      rw [hr] at hd
      obtain ⟨rfl, _⟩ := hd
      exact ⟨(it, (text, options)), hi, rfl, this.good, this.here, this.utf8, by simpa only [callCharsets_counters] using this.noEscape,
          by simpa only [callCharsets_counters] using this.same, by simpa only [callTemplate_counters] using this.type,
          by simpa only [callTemplate_counters] using this.address, this.made⟩)

theorem made_ident {e : Model.Sms.Encoder} {dopts : List CharsetOpt} {text : List UInt8} {options : List Model.Sms.EncoderOption}
    {i : Item} (h : Posted e dopts text options i) : i.ident =
      ⟨(callTemplate e options).SmsType, peer (callTemplate e options), ((i.pdus.head?.bind TPDU.ConcatInfo).map (·.mref)).getD 0,
        i.pdus.length⟩ := by
  have hu := h.good.udh
  have hc : (i.qs.head?.bind TPDU.ConcatInfo) = (i.pdus.head?.bind TPDU.ConcatInfo) := by
    match hq : i.qs, hp : i.pdus with
    | [], [] => rfl
    | [], _ :: _ => rw [hq, hp] at hu; cases hu
    | _ :: _, [] => rw [hq, hp] at hu; cases hu
    | q :: qs, p :: ps =>
      rw [hq, hp, List.map_cons, List.map_cons, List.cons.injEq] at hu
      show UDH.ConcatInfo q.UDH = UDH.ConcatInfo p.UDH
      rw [hu.1]
  unfold Item.ident
  rw [hc, h.type, h.address, item_length h.good]

/-- C82, exactly: texts are encoded by one encoder, all at the same time.  Whatever the order in which the TPDUs arrive,
the texts come back, each once, without an error and with nothing left pending, if and only if each text is UTF-8 and is
sent in UCS-2 or has no U+001B, and no two texts that need more than one TPDU have the same type, other party, reference
and number of TPDUs.  If two have, an order exists in which one gets lost. -/
theorem C82_exact (w : Nat) (timeout handler : Bool) (e : Model.Sms.Encoder)
    (dopts : List CharsetOpt) (calls : List (List UInt8 × List Model.Sms.EncoderOption)) (hm hc : List Atomic.Event)
    (results : List (List TPDU)) (h : Concurrently w e calls hm hc results)
    (_hplain : ∀ c ∈ calls, ∀ cs, .charsets cs ∉ c.2)
    (hcalls : ∀ c ∈ calls, Postable e c.1 c.2)
    (htables : ∀ c ∈ calls, Matching (callCharsets e c.2) dopts)
    (hnat : ∀ c ∈ calls, Representable .default c.1 → ∀ ie ∈ (callTemplate e c.2).UDH, ie.ID ≠ 24 ∧ ie.ID ≠ 25)
    (hsize : ∀ pdus ∈ results, pdus.length ≤ 255) :
    ∃ received, SentAll results received ∧
      ((∀ arrival : List TPDU, arrival.Perm received.flatten → AllArrive timeout handler dopts arrival (calls.map (·.1))) ↔
        (∀ c ∈ calls, Comes e c.1 c.2) ∧ (madeIdents e calls results).Nodup) ∧
      (¬ (madeIdents e calls results).Nodup →
        ∃ arrival : List TPDU, arrival.Perm received.flatten ∧ SomeLost timeout handler arrival calls.length) := by
  obtain ⟨items, h1, h2, h3⟩ := concurrent_items w e dopts calls hm hc results h hcalls
  have hmem : ∀ i ∈ items, i.2 ∈ calls := fun i hi => by rw [← h2]; exact List.mem_map.2 ⟨i, hi, rfl⟩
  have hx := items_exact timeout handler dopts items (fun c => c.1) (fun c => InSeptets (callCharsets e c.2) c.1)
    (fun i hi => (h3 i hi).good) (fun i hi => hsize _ (by rw [← h1]; exact List.mem_map.2 ⟨i, hi, rfl⟩))
    (fun i hi => (h3 i hi).utf8) (fun i hi => (h3 i hi).noEscape) (fun i hi => (h3 i hi).same)
    (fun i hi g1 g2 => posted_comes (hcalls _ (hmem i hi)) (htables _ (hmem i hi)) (hnat _ (hmem i hi)) (h3 i hi) ⟨g1, g2⟩)
  have hids : (items.filter (fun i => 2 ≤ i.1.pdus.length)).map (fun i => i.1.ident) = madeIdents e calls results := by
    unfold madeIdents
    have hz : calls.zip results = items.map (fun i => (i.2, i.1.pdus)) := by
      rw [← h1, ← h2, List.zip_map']
    rw [hz, List.filter_map, List.map_map]
    apply List.map_congr_left
    intro i hi
    exact made_ident (h3 i (List.mem_filter.1 hi).1)
  rw [hids] at hx
  have ht : items.map (fun i => i.2.1) = calls.map (·.1) := by rw [← h2, List.map_map]; rfl
  have hl : items.length = calls.length := by rw [← h2, List.length_map]
  rw [ht, hl] at hx
  refine ⟨items.map (·.1.qs), ?_, hx.1.trans ⟨?_, ?_⟩, hx.2⟩
  · have := sentAll_items (items.map (·.1)) dopts (by
      intro i hi
      obtain ⟨x, hx, rfl⟩ := List.mem_map.1 hi
      exact (h3 x hx).good)
    rw [List.map_map, List.map_map] at this
    rw [← h1]
    exact this
  · rintro ⟨g1, g2⟩
    refine ⟨?_, g2⟩
    intro c hc
    rw [← h2] at hc
    obtain ⟨i, hi, rfl⟩ := List.mem_map.1 hc
    exact g1 i hi
  · rintro ⟨g1, g2⟩
    exact ⟨fun i hi => g1 _ (hmem i hi), g2⟩

/-- C82: if at most 256 texts need more than one TPDU, no two of them have the same identification. -/
theorem C82_idents (w : Nat) (h8 : 8 ≤ w) (hw : w ≤ 64) (e : Model.Sms.Encoder)
    (calls : List (List UInt8 × List Model.Sms.EncoderOption)) (hm hc : List Atomic.Event)
    (results : List (List TPDU)) (h : Concurrently w e calls hm hc results)
    (hmany : (results.filter (fun pdus => 2 ≤ pdus.length)).length ≤ 256) : (madeIdents e calls results).Nodup := by
  obtain ⟨refs, hp, hr⟩ := C80_concat w h8 hw e calls hm hc results h
  have hlen : refs.length = (results.filter (fun pdus => 2 ≤ pdus.length)).length := by simpa using hp.length_eq
  have hnd := hp.nodup_iff.mpr (nodup_bytes _ hmany)
  have hsnd : ((calls.zip results).filter (fun x => 2 ≤ x.2.length)).map (·.2) = results.filter (fun pdus => 2 ≤ pdus.length) := by
    have hz : (calls.zip results).map (·.2) = results := List.map_snd_zip (Nat.le_of_eq h.length)
    conv => rhs; rw [← hz]
    rw [List.filter_map]
    rfl
  unfold madeIdents
  rw [List.nodup_iff_pairwise_ne, List.pairwise_map, List.pairwise_iff_getElem]
  have hl2 : ((calls.zip results).filter (fun x => 2 ≤ x.2.length)).length = refs.length := by
    rw [hlen, ← hsnd, List.length_map]
  have hval : ∀ (k : Nat) (hk : k < ((calls.zip results).filter (fun x => 2 ≤ x.2.length)).length) (hk' : k < refs.length),
      (((((calls.zip results).filter (fun x => 2 ≤ x.2.length))[k]).2.head?.bind TPDU.ConcatInfo).map (·.mref)).getD 0 =
        refs[k].toNat := by
    intro k hk hk'
    have hg := List.getElem?_eq_getElem hk
    have hlong : (results.filter (fun pdus => 2 ≤ pdus.length))[k]? =
        some (((calls.zip results).filter (fun x => 2 ≤ x.2.length))[k]).2 := by
      rw [← hsnd, List.getElem?_map, hg]; rfl
    have h2 : 2 ≤ (((calls.zip results).filter (fun x => 2 ≤ x.2.length))[k]).2.length := by
      have := (List.mem_filter.1 (List.mem_of_getElem? hg)).2
      simpa using this
    have hrr := hr k refs[k] _ (List.getElem?_eq_getElem hk') hlong 0
    generalize (((calls.zip results).filter (fun x => 2 ≤ x.2.length))[k]).2 = ps at h2 hrr
    cases ps with
    | nil => simp at h2
    | cons p ps =>
      have := hrr p rfl
      have hci : p.ConcatInfo = _ := concat_last _ _ _ _ this
      simp only [List.head?_cons, Option.bind_some, hci, Option.map_some, Option.getD_some]
  intro i j hi hj hij he
  simp only [Ident.mk.injEq] at he
  have e1 := he.2.2.1
  rw [hval i hi (by omega), hval j hj (by omega)] at e1
  rw [List.nodup_iff_pairwise_ne, List.pairwise_iff_getElem] at hnd
  exact hnd i j (by omega) (by omega) hij (UInt8.toNat_inj.1 e1)

-- C59: three texts, two of them long, to one number
example : idents (Sms.NewEncoder [Sms.AsSubmit])
      [(List.replicate 161 65, [Sms.To [0x31]]), ([66], [Sms.To [0x31]]), (List.replicate 161 67, [Sms.To [0x31]])] =
    [⟨SmsSubmit, ⟨0x91, [0x31]⟩, 1, 2⟩, ⟨SmsSubmit, ⟨0x91, [0x31]⟩, 2, 2⟩] := by decide +kernel

-- C81: two texts with the same number and count, of which one gets lost
example : ∃ sent : List (List TPDU),
    [([0x31], List.replicate 161 0x41), ([0x31], List.replicate 161 0x42)].map (fun m => Sms.Encode m.2 (Sms.To m.1 :: [].map .charsets)) =
      sent.map .ok ∧ sent.map List.length = [2, 2] := by
  refine ⟨([([0x31], List.replicate 161 0x41), ([0x31], List.replicate 161 0x42)].map (fun m =>
    (Sms.Encode m.2 (Sms.To m.1 :: [].map .charsets)).toOption.getD [])), by decide +kernel, by decide +kernel⟩

end Verif.Props
