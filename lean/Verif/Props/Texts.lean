import Verif.Props.Messages
import Verif.Props.Wire
import Verif.Props.Refs
import Verif.Props.SmsDecode

/-! C59: texts that are encoded by one encoder, sent over the wire, collected in any order, and decoded. -/

namespace Verif.Props

open Verif.Model Verif.Model.Collector Verif.Spec Verif.Proofs Verif.Proofs.Coll
open Verif.Spec.Reassembly (Parts Input Result)

/-- A call `Encode(text, options...)` of the encoder for a text that `C39_text_partial` is about. -/
structure Conveyable (e : Model.Sms.Encoder) (dopts : List CharsetOpt) (text : List UInt8)
    (options : List Model.Sms.EncoderOption) : Prop where
  template : Sendable (callTemplate e options)
  header : hdrLen (callTemplate e options).UDH ≤ 121
  indicator : (callTemplate e options).UDHI = true ↔ (callTemplate e options).UDH ≠ []
  fresh : (callTemplate e options).ConcatInfo = none
  coding : (callTemplate e options).Alphabet.1 = .a7Bit
  carry : ∀ a, Chosen (callTemplate e options).DCS (callCharsets e options) text a →
    CanCarry (group (callTemplate e options).DCS) a
  tables : Matching (callCharsets e options) dopts
  national : Representable .default text → ∀ ie ∈ (callTemplate e options).UDH, ie.ID ≠ 24 ∧ ie.ID ≠ 25
  noEscape : InSeptets (callCharsets e options) text → 0x1b ∉ text
  utf8 : ∃ rs, (∀ r ∈ rs, Scalar r) ∧ text = Unicode.encodeRunes rs
  nonempty : text ≠ []

/-- `SentAll pss qss`: the messages `pss` are marshalled and unmarshalled to `qss`, each as in `Sent`. -/
inductive SentAll : List (List TPDU) → List (List TPDU) → Prop
  | nil : SentAll [] []
  | cons {ps qs pss qss} : Sent ps qs → SentAll pss qss → SentAll (ps :: pss) (qs :: qss)

/-- The text of a message returned by `Collect`. -/
def textOf (dopts : List CharsetOpt) (d : Parts) : M (List UInt8) := Sms.Decode (d.filterMap id) dopts

/-! Helpers. -/

/-- A message on its way. -/
structure Item where
  pdus : List TPDU
  qs : List TPDU
  text : List UInt8
  type : UInt8
  address : Address

structure Good (dopts : List CharsetOpt) (i : Item) : Prop where
  sent : Sent i.pdus i.qs
  dec : Sms.Decode i.qs dopts = .ok i.text
  complete : i.pdus.length ≤ 255 → Sms.IsCompleteMessage i.qs = true
  udh : i.qs.map TPDU.UDH = i.pdus.map TPDU.UDH
  route : ∀ q ∈ i.qs, q.SmsType = i.type ∧ peer q = i.address
  supported : i.type = SmsSubmit ∨ i.type = SmsDeliver
  direction : ∀ p ∈ i.pdus, p.Direction = directionOf i.type

theorem apply_counters' (options : List Model.Sms.EncoderOption) : ∀ (e : Model.Sms.Encoder) (a b : Counter),
    options.foldl Model.Sms.Encoder.apply { e with MsgCount := a, ConcatRef := b } =
      { options.foldl Model.Sms.Encoder.apply e with MsgCount := a, ConcatRef := b } := by
  induction options with
  | nil => intro e a b; rfl
  | cons o options ih =>
    intro e a b
    have hstep : Model.Sms.Encoder.apply { e with MsgCount := a, ConcatRef := b } o =
        { Model.Sms.Encoder.apply e o with MsgCount := a, ConcatRef := b } := by
      cases o with
      | template t => rfl
      | charsets c => rfl
      | templateOption t => cases h : TpduOption.apply e.pdu t <;> simp [Model.Sms.Encoder.apply, h]
    rw [List.foldl_cons, List.foldl_cons, hstep, ih]

theorem callTemplate_counters (e : Model.Sms.Encoder) (options : List Model.Sms.EncoderOption) (a b : Counter) :
    callTemplate { e with MsgCount := a, ConcatRef := b } options = callTemplate e options := by
  unfold callTemplate; rw [apply_counters']

theorem conveyable_counters {e : Model.Sms.Encoder} {dopts : List CharsetOpt} {text : List UInt8}
    {options : List Model.Sms.EncoderOption} (a b : Counter) (h : Conveyable e dopts text options) :
    Conveyable { e with MsgCount := a, ConcatRef := b } dopts text options := by
  have h1 : callTemplate { e with MsgCount := a, ConcatRef := b } options = callTemplate e options := by
    unfold callTemplate; rw [apply_counters']
  have h2 : callCharsets { e with MsgCount := a, ConcatRef := b } options = callCharsets e options := by
    unfold callCharsets; rw [apply_counters']
  constructor <;> (try simp only [h1, h2])
  · exact h.template
  · exact h.header
  · exact h.indicator
  · exact h.fresh
  · exact h.coding
  · exact h.carry
  · exact h.tables
  · exact h.national
  · exact h.noEscape
  · exact h.utf8
  · exact h.nonempty

theorem item_of (dopts : List CharsetOpt) (e : Model.Sms.Encoder) (text : List UInt8)
    (options : List Model.Sms.EncoderOption) (hc : Conveyable e dopts text options) :
    ∃ r qs, e.Encode text options = .ok r ∧
      Good dopts ⟨r.pdus, qs, text, (callTemplate e options).SmsType, peer (callTemplate e options)⟩ := by
  obtain ⟨a, ha, _⟩ := C41_chosen (callTemplate e options).DCS (callCharsets e options) text
  obtain ⟨r, hr, qs, h1, h2, h3, h4, h5, h6⟩ := C39_text_partial e text options dopts a hc.template hc.header hc.indicator hc.fresh
    hc.coding ha (hc.carry a ha) hc.tables hc.national (by
      rintro rfl
      apply hc.noEscape
      cases ha with
      | septets _ h => exact h) hc.utf8
  refine ⟨r, qs, hr, h1, h2, h3 ?_, h4, h5, sendable_type _ hc.template, h6⟩
  intro h0
  have hq : qs = [] := by
    have := congrArg List.length h4
    rw [h0] at this
    exact List.eq_nil_of_length_eq_zero (by simpa using this)
  rw [hq] at h2
  cases h2
  exact hc.nonempty rfl

theorem items_of (dopts : List CharsetOpt) (calls : List (List UInt8 × List Model.Sms.EncoderOption)) :
    ∀ e : Model.Sms.Encoder, (∀ c ∈ calls, Conveyable e dopts c.1 c.2) →
    ∃ items : List Item, items.map (·.pdus) = encodes e calls ∧
      items.map (fun i => (i.text, i.type, i.address)) =
        calls.map (fun c => (c.1, (callTemplate e c.2).SmsType, peer (callTemplate e c.2))) ∧
      ∀ i ∈ items, Good dopts i := by
  induction calls with
  | nil => intro e _; exact ⟨[], rfl, rfl, by simp⟩
  | cons c calls ih =>
    intro e h
    obtain ⟨text, options⟩ := c
    obtain ⟨r, qs, hr, hgood⟩ := item_of dopts e text options (h (text, options) (by simp))
    obtain ⟨items, g1, g2, g3⟩ := ih { e with MsgCount := r.MsgCount, ConcatRef := r.ConcatRef }
      (fun c' hc' => conveyable_counters _ _ (h c' (by simp [hc'])))
    refine ⟨⟨r.pdus, qs, text, (callTemplate e options).SmsType, peer (callTemplate e options)⟩ :: items, ?_, ?_, ?_⟩
    · rw [encodes, hr, List.map_cons, g1]
    · rw [List.map_cons, List.map_cons, g2]
      simp only [callTemplate_counters]
    · intro i hi
      rcases List.mem_cons.1 hi with rfl | hi
      · exact hgood
      · exact g3 i hi

/-- What identifies the message. -/
def Item.ident (i : Item) : Ident :=
  ⟨i.type, i.address, ((i.qs.head?.bind TPDU.ConcatInfo).map (·.mref)).getD 0, i.qs.length⟩

theorem item_length {dopts : List CharsetOpt} {i : Item} (h : Good dopts i) : i.qs.length = i.pdus.length := by
  have := congrArg List.length h.udh
  simpa using this

theorem item_segments {dopts : List CharsetOpt} {i : Item} (h : Good dopts i) (hn : i.pdus.length ≤ 255) (h2 : 2 ≤ i.pdus.length) :
    SegmentsOf i.ident i.qs := by
  have hl := item_length h
  rcases (C47_complete_iff _).1 (h.complete hn) with ⟨q, hq, _⟩ | ⟨hne, ref, hall⟩
  · rw [hq] at hl; simp at hl; omega
  · have href : i.ident = ⟨i.type, i.address, ref, i.qs.length⟩ := by
      unfold Item.ident
      match hqs : i.qs with
      | [] => exact absurd hqs hne
      | q :: qs =>
        have := hall 0 q (by rw [hqs]; rfl)
        simp [this]
    rw [href]
    refine ⟨rfl, by simp only; omega, ?_⟩
    intro j q hj
    have hq := List.mem_of_getElem? hj
    obtain ⟨r1, r2⟩ := h.route q hq
    refine ⟨⟨hall j q hj, by simp only; omega, by omega, ?_⟩, ?_, r1, r2⟩
    · have := get_lt hj
      simp only; omega
    · unfold Supported
      rw [r1]
      exact h.supported

theorem item_single {dopts : List CharsetOpt} {i : Item} (h : Good dopts i) (hn : i.pdus.length ≤ 255) (h2 : ¬ 2 ≤ i.pdus.length) :
    ∃ q, i.qs = [q] ∧ ¬ MultiPart q := by
  have hl := item_length h
  rcases (C47_complete_iff _).1 (h.complete hn) with ⟨q, hq, hc⟩ | ⟨hne, ref, hall⟩
  · refine ⟨q, hq, ?_⟩
    rintro ⟨c, hc', _⟩
    rw [hc] at hc'; cases hc'
  · match hqs : i.qs with
    | [] => exact absurd hqs hne
    | [q] =>
      refine ⟨q, rfl, ?_⟩
      rintro ⟨c, hc', hc2⟩
      rw [hall 0 q (by rw [hqs]; rfl)] at hc'
      cases hc'
      rw [hqs] at hc2
      simp at hc2
    | q :: q' :: qs => rw [hqs] at hl; simp at hl; omega

theorem concat_last (udh : UDH) (r n k : UInt8) (h : udh.getLast? = some ⟨0, [r, n, k]⟩) :
    UDH.ConcatInfo udh = some ⟨n.toNat, k.toNat, r.toNat⟩ := by
  obtain ⟨l, rfl⟩ := List.getLast?_eq_some_iff.1 h
  unfold UDH.ConcatInfo
  rw [if_neg (by simp)]
  unfold UDH.ConcatInfo8
  have : UDH.IE (l ++ [⟨0, [r, n, k]⟩]) 0 = some ⟨0, [r, n, k]⟩ := by simp [UDH.IE]
  rw [this]

/-- The references of the messages of several TPDUs. -/
theorem item_refs (dopts : List CharsetOpt) (options : List Model.Sms.EncoderOption)
    (calls : List (List UInt8 × List Model.Sms.EncoderOption)) (items : List Item)
    (h1 : items.map (·.pdus) = encodes (Sms.NewEncoder options) calls) (hg : ∀ i ∈ items, Good dopts i) :
    (items.filter (fun i => 2 ≤ i.pdus.length)).map (fun i => i.ident.ref) =
      (List.range (items.filter (fun i => 2 ≤ i.pdus.length)).length).map (fun k => (k + 1) % 256) := by
  apply List.ext_getElem?
  intro k
  rw [List.getElem?_map, List.getElem?_map]
  cases hk : (items.filter (fun i => 2 ≤ i.pdus.length))[k]? with
  | none =>
    rw [List.getElem?_eq_none]
    · rfl
    · have := List.getElem?_eq_none_iff.1 hk
      simpa using this
  | some i =>
    have hlt := get_lt hk
    have hr : (List.range (items.filter (fun i => 2 ≤ i.pdus.length)).length)[k]? = some k := by
      rw [List.getElem?_range hlt]
    rw [hr]
    simp only [Option.map_some]
    congr 1
    obtain ⟨hmem, h2⟩ := List.mem_filter.1 (List.mem_of_getElem? hk)
    have h2 : 2 ≤ i.pdus.length := by simpa using h2
    have hgood := hg i hmem
    have hl := item_length hgood
    have hp : ((encodes (Sms.NewEncoder options) calls).filter (fun pdus => 2 ≤ pdus.length))[k]? = some i.pdus := by
      rw [← h1, List.filter_map, List.getElem?_map]
      have : (fun pdus => decide (2 ≤ List.length pdus)) ∘ (fun i : Item => i.pdus) = fun i => decide (2 ≤ i.pdus.length) := rfl
      rw [this, hk]
      rfl
    match hps : i.pdus, hqs : i.qs with
    | [], _ => rw [hps] at h2; simp at h2
    | p :: ps, [] => rw [hps, hqs] at hl; simp at hl
    | p :: ps, q :: qs =>
      have hc := C43_concat options calls k i.pdus hp 0 p (by rw [hps]; rfl)
      have hu := hgood.udh
      rw [hps, hqs] at hu
      simp only [List.map_cons, List.cons.injEq] at hu
      rw [← hu.1] at hc
      have hci : q.ConcatInfo = _ := concat_last _ _ _ _ hc
      unfold Item.ident
      simp only [hqs, List.head?_cons, Option.bind_some, hci, Option.map_some, Option.getD_some, UInt8.toNat_ofNat']

theorem range_refs_nodup (n : Nat) (h : n ≤ 256) : ((List.range n).map (fun k => (k + 1) % 256)).Nodup := by
  rw [List.nodup_iff_pairwise_ne, List.pairwise_map]
  apply List.Pairwise.imp_of_mem _ List.nodup_range
  intro a b ha hb hne e
  have ha := List.mem_range.1 ha
  have hb := List.mem_range.1 hb
  omega

theorem nodup_of_map {α β : Type} (f : α → β) (l : List α) (h : (l.map f).Nodup) : l.Nodup := by
  rw [List.nodup_iff_pairwise_ne, List.pairwise_map] at h
  rw [List.nodup_iff_pairwise_ne]
  exact h.imp (fun hne e => hne (congrArg f e))

theorem flatten_singles (l : List TPDU) : (l.map (fun pdu => [pdu])).flatten = l := by
  induction l with
  | nil => rfl
  | cons a l ih => rw [List.map_cons, List.flatten_cons, ih]; rfl

theorem sentAll_items (items : List Item) (dopts : List CharsetOpt) (h : ∀ i ∈ items, Good dopts i) :
    SentAll (items.map (·.pdus)) (items.map (·.qs)) := by
  induction items with
  | nil => exact .nil
  | cons i items ih => exact .cons (h i (by simp)).sent (ih (fun j hj => h j (by simp [hj])))

/-- The messages that the Collector returns when their TPDUs arrive in any order. -/
theorem items_collected_idents (timeout handler : Bool) (dopts : List CharsetOpt) (items : List Item)
    (h3 : ∀ i ∈ items, Good dopts i) (hsz : ∀ i ∈ items, i.pdus.length ≤ 255)
    (hids : ((items.filter (fun i => 2 ≤ i.pdus.length)).map Item.ident).Nodup)
    (arrival : List TPDU) (ha : arrival.Perm (items.map (·.qs)).flatten) :
    ∃ s os, run (New timeout handler) (arrival.map .collect) = .ok (s, os) ∧
      (returns os).Perm (items.map (fun i => i.qs.map some)) ∧
      (∀ d err, .returned d err ∈ os → err = none) ∧ Pipes s = [] := by
  -- messages of several TPDUs and of one
  have hcut : (items.filter (fun i => ! decide (2 ≤ i.pdus.length)) ++ items.filter (fun i => 2 ≤ i.pdus.length)).Perm items :=
    (List.perm_append_comm).trans (List.filter_append_perm _ _)
  have hone : ∀ (l : List Item), (∀ i ∈ l, Good dopts i ∧ i.pdus.length ≤ 255 ∧ ¬ 2 ≤ i.pdus.length) →
      ∃ singles : List TPDU, (∀ pdu ∈ singles, ¬ MultiPart pdu) ∧ l.map (·.qs) = singles.map (fun pdu => [pdu]) := by
    intro l
    induction l with
    | nil => intro _; exact ⟨[], by simp, rfl⟩
    | cons i l ih =>
      intro h
      obtain ⟨g1, g2, g3⟩ := h i (by simp)
      obtain ⟨q, hq, hm⟩ := item_single g1 g2 g3
      obtain ⟨singles, hs, he⟩ := ih (fun j hj => h j (by simp [hj]))
      refine ⟨q :: singles, ?_, by rw [List.map_cons, List.map_cons, he, hq]⟩
      intro pdu hp
      rcases List.mem_cons.1 hp with rfl | hp
      · exact hm
      · exact hs pdu hp
  obtain ⟨singles, hs1, hs2⟩ := hone (items.filter (fun i => ! decide (2 ≤ i.pdus.length))) (by
    intro i hi
    obtain ⟨hi, hn⟩ := List.mem_filter.1 hi
    exact ⟨h3 i hi, hsz i hi, by simpa using hn⟩)
  have hsegs : ∀ x ∈ (items.filter (fun i => 2 ≤ i.pdus.length)).map (fun i => (i.ident, i.qs)), SegmentsOf x.1 x.2 := by
    intro x hx
    obtain ⟨i, hi, rfl⟩ := List.mem_map.1 hx
    obtain ⟨hi, hn⟩ := List.mem_filter.1 hi
    exact item_segments (h3 i hi) (hsz i hi) (by simpa using hn)
  have hnd : (((items.filter (fun i => 2 ≤ i.pdus.length)).map (fun i => (i.ident, i.qs))).map (·.1)).Nodup := by
    rw [List.map_map]
    exact hids
  have hperm : arrival.Perm (singles ++ (((items.filter (fun i => 2 ≤ i.pdus.length)).map (fun i => (i.ident, i.qs))).map (·.2)).flatten) := by
    refine ha.trans ((hcut.map (·.qs)).symm.flatten.trans ?_)
    rw [List.map_append, List.flatten_append, hs2, List.map_map]
    rw [flatten_singles]
    exact .refl _
  obtain ⟨s, os, r1, r2, r3, r4⟩ := C59_messages timeout handler singles _ hs1 hsegs hnd arrival hperm
  refine ⟨s, os, r1, r2.trans ?_, r3, r4⟩
  have htexts : (singles.map (fun pdu => [some pdu]) ++
      ((items.filter (fun i => 2 ≤ i.pdus.length)).map (fun i => (i.ident, i.qs))).map (fun x => x.2.map some)) =
      (items.filter (fun i => ! decide (2 ≤ i.pdus.length)) ++ items.filter (fun i => 2 ≤ i.pdus.length)).map (fun i => i.qs.map some) := by
    rw [List.map_append, List.map_map]
    congr 1
    have := congrArg (List.map (List.map some)) hs2
    rw [List.map_map, List.map_map] at this
    exact this.symm
  rw [htexts]
  exact hcut.map (fun i => i.qs.map some)

theorem items_collected_refs (timeout handler : Bool) (dopts : List CharsetOpt) (items : List Item)
    (h3 : ∀ i ∈ items, Good dopts i) (hsz : ∀ i ∈ items, i.pdus.length ≤ 255)
    (hrefs : ((items.filter (fun i => 2 ≤ i.pdus.length)).map (fun i => i.ident.ref)).Nodup)
    (arrival : List TPDU) (ha : arrival.Perm (items.map (·.qs)).flatten) :
    ∃ s os, run (New timeout handler) (arrival.map .collect) = .ok (s, os) ∧
      (returns os).Perm (items.map (fun i => i.qs.map some)) ∧
      (∀ d err, .returned d err ∈ os → err = none) ∧ Pipes s = [] := by
  refine items_collected_idents timeout handler dopts items h3 hsz ?_ arrival ha
  apply nodup_of_map Ident.ref
  rw [List.map_map]
  exact hrefs

theorem items_collected (timeout handler : Bool) (options : List Model.Sms.EncoderOption) (dopts : List CharsetOpt)
    (calls : List (List UInt8 × List Model.Sms.EncoderOption)) (items : List Item)
    (h1 : items.map (·.pdus) = encodes (Sms.NewEncoder options) calls) (h3 : ∀ i ∈ items, Good dopts i)
    (hsize : ∀ pdus ∈ encodes (Sms.NewEncoder options) calls, pdus.length ≤ 255)
    (hmany : ((encodes (Sms.NewEncoder options) calls).filter (fun pdus => 2 ≤ pdus.length)).length ≤ 256)
    (arrival : List TPDU) (ha : arrival.Perm (items.map (·.qs)).flatten) :
    ∃ s os, run (New timeout handler) (arrival.map .collect) = .ok (s, os) ∧
      (returns os).Perm (items.map (fun i => i.qs.map some)) ∧
      (∀ d err, .returned d err ∈ os → err = none) ∧ Pipes s = [] := by
  refine items_collected_refs timeout handler dopts items h3 ?_ ?_ arrival ha
  · intro i hi
    exact hsize _ (by rw [← h1]; exact List.mem_map.2 ⟨i, hi, rfl⟩)
  · rw [item_refs dopts options calls items h1 h3]
    apply range_refs_nodup
    rw [← h1, List.filter_map, List.length_map] at hmany
    exact hmany

/-- C59, partial: texts are encoded by one encoder, with options that may differ from call to call, and the
TPDUs are marshalled.  The octets are unmarshalled and collected in any order.  Then decoding the messages
that the Collector returns gives the texts, each once; no call reports an error, and nothing is left pending.
A text is sent in at most 255 TPDUs, and at most 256 of the texts need more than one, as the references repeat
after that.  Missing: the texts that C38 and C39 exclude. -/
theorem C59_texts_partial (timeout handler : Bool) (options : List Model.Sms.EncoderOption) (dopts : List CharsetOpt)
    (calls : List (List UInt8 × List Model.Sms.EncoderOption))
    (hcalls : ∀ c ∈ calls, Conveyable (Sms.NewEncoder options) dopts c.1 c.2)
    (hsize : ∀ pdus ∈ encodes (Sms.NewEncoder options) calls, pdus.length ≤ 255)
    (hmany : ((encodes (Sms.NewEncoder options) calls).filter (fun pdus => 2 ≤ pdus.length)).length ≤ 256) :
    ∃ received, SentAll (encodes (Sms.NewEncoder options) calls) received ∧
      ∀ arrival : List TPDU, arrival.Perm received.flatten →
        ∃ s os, run (New timeout handler) (arrival.map .collect) = .ok (s, os) ∧
          ((returns os).map (textOf dopts)).Perm (calls.map (fun c => .ok c.1)) ∧
          (∀ d err, .returned d err ∈ os → err = none) ∧ Pipes s = [] := by
  obtain ⟨items, h1, h2, h3⟩ := items_of dopts calls (Sms.NewEncoder options) hcalls
  refine ⟨items.map (·.qs), ?_, ?_⟩
  · rw [← h1]; exact sentAll_items items dopts h3
  intro arrival ha
  obtain ⟨s, os, r1, r2, r3, r4⟩ := items_collected timeout handler options dopts calls items h1 h3 hsize hmany arrival ha
  refine ⟨s, os, r1, (r2.map (textOf dopts)).trans ?_, r3, r4⟩
  have : calls.map (fun c => (.ok c.1 : M (List UInt8))) = (calls.map (·.1)).map .ok := by rw [List.map_map]; rfl
  have h2 : items.map (·.text) = calls.map (·.1) := by
    have := congrArg (List.map (·.1)) h2
    rw [List.map_map, List.map_map] at this
    exact this
  rw [this, ← h2, List.map_map, List.map_map]
  apply List.Perm.of_eq
  apply List.map_congr_left
  intro i hi
  show Sms.Decode ((i.qs.map some).filterMap id) dopts = .ok i.text
  rw [List.filterMap_map]
  have : i.qs.filterMap (id ∘ some) = i.qs := by simp
  rw [this]
  exact (h3 i hi).dec

theorem submit_call (digits : List UInt8) (cs : List CharsetOpt) (hd : Digits digits) :
    callTemplate (Sms.NewEncoder (Sms.AsSubmit :: cs.map .charsets)) [Sms.To digits] =
      { Direction := MO, FirstOctet := 1, DA := ⟨0x91, digits⟩ } ∧
    callCharsets (Sms.NewEncoder (Sms.AsSubmit :: cs.map .charsets)) [Sms.To digits] = cs := by
  have hplus : digits.head? ≠ some 0x2b := by
    intro h
    have : (0x2b : UInt8) ∈ digits := by
      cases digits with
      | nil => cases h
      | cons x xs => cases h; simp
    exact absurd (hd _ this) (by decide)
  have hnum : Address.NewFromNumber digits = ⟨0x91, digits⟩ := (C57_number digits hplus).2.2.1
  have key : ∀ (cs : List CharsetOpt) (e : Model.Sms.Encoder),
      (cs.map Model.Sms.EncoderOption.charsets).foldl Model.Sms.Encoder.apply e = { e with eopts := e.eopts ++ cs } := by
    intro cs
    induction cs with
    | nil => intro e; simp
    | cons c cs ih => intro e; rw [List.map_cons, List.foldl_cons, ih]; simp [Model.Sms.Encoder.apply]
  have henc : [Sms.To digits].foldl Model.Sms.Encoder.apply (Sms.NewEncoder (Sms.AsSubmit :: cs.map .charsets)) =
      ⟨cs, { Direction := MO, FirstOctet := 1, DA := ⟨0x91, digits⟩ }, Model.Sms.newCounter, Model.Sms.newCounter⟩ := by
    unfold Model.Sms.NewEncoder
    rw [List.foldl_cons, List.foldl_nil, List.foldl_cons, key, ← hnum]
    rfl
  have ht : callTemplate (Sms.NewEncoder (Sms.AsSubmit :: cs.map .charsets)) [Sms.To digits] =
      { Direction := MO, FirstOctet := 1, DA := ⟨0x91, digits⟩ } := by
    unfold callTemplate; rw [henc]
  have hc : callCharsets (Sms.NewEncoder (Sms.AsSubmit :: cs.map .charsets)) [Sms.To digits] = cs := by
    unfold callCharsets; rw [henc]
  exact ⟨ht, hc⟩

theorem conveyable_submit (digits text : List UInt8) (cs dopts : List CharsetOpt) (hd : Digits digits) (hl : digits.length ≤ 255)
    (hm : Matching cs dopts) (hesc : InSeptets cs text → 0x1b ∉ text) (hne : text ≠ [])
    (hutf : ∃ rs, (∀ r ∈ rs, Scalar r) ∧ text = Unicode.encodeRunes rs) :
    Conveyable (Sms.NewEncoder (Sms.AsSubmit :: cs.map .charsets)) dopts text [Sms.To digits] := by
  obtain ⟨ht, hc⟩ := submit_call digits cs hd
  constructor <;> (try simp only [ht, hc])
  · exact .submit rfl (by show FirstOctet.MTI 1 = 1; decide) (.inl ⟨by show ((0x91 : UInt8) >>> 4) &&& 0x07 ≠ 5; decide, hd, hl⟩) .absent (by show FirstOctet.VPF 1 = VpfNotPresent; decide)
  · exact Nat.zero_le _
  · show FirstOctet.UDHI 1 = true ↔ ([] : UDH) ≠ []
    decide
  · rfl
  · show (DCS.Alphabet 0).1 = .a7Bit
    decide
  · intro a ha
    cases ha <;> decide
  · exact hm
  · intro _ ie hie; cases hie
  · exact hesc
  · exact hutf
  · exact hne

/-- C59, partial: the plain use of the library.  An encoder for submissions with any charset options sends texts
to numbers of up to 255 digits.  Missing: the same as above. -/
theorem C59_submit_partial (timeout handler : Bool) (cs dopts : List CharsetOpt) (hm : Matching cs dopts)
    (msgs : List (List UInt8 × List UInt8))
    (hmsgs : ∀ digits text, (digits, text) ∈ msgs → Digits digits ∧ digits.length ≤ 255 ∧ text ≠ [] ∧
      (InSeptets cs text → 0x1b ∉ text) ∧ ∃ rs, (∀ r ∈ rs, Scalar r) ∧ text = Unicode.encodeRunes rs) :
    let sent := encodes (Sms.NewEncoder (Sms.AsSubmit :: cs.map .charsets)) (msgs.map (fun m => (m.2, [Sms.To m.1])))
    (∀ pdus ∈ sent, pdus.length ≤ 255) → (sent.filter (fun pdus => 2 ≤ pdus.length)).length ≤ 256 →
    ∃ received, SentAll sent received ∧ ∀ arrival : List TPDU, arrival.Perm received.flatten →
      ∃ s os, run (New timeout handler) (arrival.map .collect) = .ok (s, os) ∧
        ((returns os).map (textOf dopts)).Perm (msgs.map (fun m => .ok m.2)) ∧
        (∀ d err, .returned d err ∈ os → err = none) ∧ Pipes s = [] := by
  intro sent h1 h2
  have := C59_texts_partial timeout handler (Sms.AsSubmit :: cs.map .charsets) dopts (msgs.map (fun m => (m.2, [Sms.To m.1]))) (by
    intro c hc
    obtain ⟨m, hm', rfl⟩ := List.mem_map.1 hc
    obtain ⟨g1, g2, g3, g4, g5⟩ := hmsgs m.1 m.2 hm'
    exact conveyable_submit m.1 m.2 cs dopts g1 g2 hm g4 g3 g5) h1 h2
  rw [List.map_map] at this
  exact this

/-- Beside C59: a long text, and a short one to another number. -/
example : (∀ digits text, (digits, text) ∈ [([0x31], List.replicate 200 0x41), ([0x32, 0x33], [0x42, 0xc3, 0xa9])] →
      Digits digits ∧ digits.length ≤ 255 ∧ text ≠ [] ∧ (InSeptets [] text → 0x1b ∉ text) ∧
      ∃ rs, (∀ r ∈ rs, Scalar r) ∧ text = Unicode.encodeRunes rs) ∧ Matching [] [] ∧
    (encodes (Sms.NewEncoder [Sms.AsSubmit]) [(List.replicate 200 0x41, [Sms.To [0x31]]), ([0x42, 0xc3, 0xa9], [Sms.To [0x32, 0x33]])]).map
      List.length = [2, 1] := by
  refine ⟨?_, (C38_matching []).1, by decide +kernel⟩
  intro digits text h
  simp only [List.mem_cons, Prod.mk.injEq, List.not_mem_nil, or_false] at h
  rcases h with ⟨rfl, rfl⟩ | ⟨rfl, rfl⟩
  · refine ⟨by unfold Digits; decide, by decide, by decide, fun _ => by decide, List.replicate 200 0x41, ?_, by decide +kernel⟩
    intro r hr
    rw [(List.mem_replicate.1 hr).2]
    unfold Scalar; decide
  · refine ⟨by unfold Digits; decide, by decide, by decide, fun _ => by decide, [0x42, 0xe9], ?_, by decide⟩
    intro r hr
    simp only [List.mem_cons, List.not_mem_nil, or_false] at hr
    rcases hr with rfl | rfl <;> (unfold Scalar; decide)

end Verif.Props
