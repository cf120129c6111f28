import Verif.Props.Concurrent
import Verif.Props.Texts

/-! C82: texts that are encoded concurrently by one encoder, sent over the wire, collected in any order, and decoded. -/

namespace Verif.Props

open Verif.Model Verif.Model.Collector Verif.Model.Concurrent Verif.Spec Verif.Proofs Verif.Proofs.Coll
open Verif.Spec.Reassembly (Parts Input Result)

/-! Helpers. -/

theorem item_ref {dopts : List CharsetOpt} {i : Item} (h : Good dopts i) (p : TPDU) (hp : i.pdus[0]? = some p) (r n k : UInt8)
    (hl : p.UDH.getLast? = some ⟨0, [r, n, k]⟩) : i.ident.ref = r.toNat := by
  have hu : (i.qs.map TPDU.UDH)[0]? = some p.UDH := by rw [h.udh, List.getElem?_map, hp]; rfl
  match hqs : i.qs with
  | [] => rw [hqs] at hu; cases hu
  | q :: qs =>
    rw [hqs] at hu
    simp only [List.map_cons, List.getElem?_cons_zero, Option.some.injEq] at hu
    rw [← hu] at hl
    have hci : q.ConcatInfo = _ := concat_last _ _ _ _ hl
    unfold Item.ident
    simp only [hqs, List.head?_cons, Option.bind_some, hci, Option.map_some, Option.getD_some]

theorem choose_list {α β γ} (f : γ → α) (g : γ → β) (P : γ → Prop) (l : List α) : ∀ l2 : List β, l.length = l2.length →
    (∀ (i : Nat) (a : α) (b : β), l[i]? = some a → l2[i]? = some b → ∃ c, f c = a ∧ g c = b ∧ P c) →
    ∃ cs : List γ, cs.map f = l ∧ cs.map g = l2 ∧ ∀ c ∈ cs, P c := by
  induction l with
  | nil =>
    intro l2 hl _
    exact ⟨[], rfl, (List.eq_nil_of_length_eq_zero hl.symm).symm, by simp⟩
  | cons a l ih =>
    intro l2 hl h
    cases l2 with
    | nil => cases hl
    | cons b l2 =>
      obtain ⟨c, h1, h2, h3⟩ := h 0 a b rfl rfl
      obtain ⟨cs, g1, g2, g3⟩ := ih l2 (by simpa using hl) (fun i a b ha hb => h (i + 1) a b ha hb)
      refine ⟨c :: cs, by rw [List.map_cons, h1, g1], by rw [List.map_cons, h2, g2], ?_⟩
      intro x hx
      rcases List.mem_cons.1 hx with rfl | hx
      · exact h3
      · exact g3 x hx

/-- C82, partial: texts are encoded by one encoder, all at the same time and each by a goroutine of its own, and the TPDUs
are marshalled.  The octets are unmarshalled and collected in any order.  Then decoding the messages that the
Collector returns gives the texts, each once; no call reports an error, and nothing is left pending.  Charset options
are given to the encoder and not to the calls (C64).  A text is sent in at most 255 TPDUs, and at most 256 of the
texts need more than one.  Missing: the texts that C38 and C39 exclude. -/
theorem C82_texts_partial (w : Nat) (h8 : 8 ≤ w) (hw : w ≤ 64) (timeout handler : Bool) (e : Model.Sms.Encoder)
    (dopts : List CharsetOpt) (calls : List (List UInt8 × List Model.Sms.EncoderOption)) (hm hc : List Atomic.Event)
    (results : List (List TPDU)) (h : Concurrently w e calls hm hc results)
    (_hplain : ∀ c ∈ calls, ∀ cs, .charsets cs ∉ c.2)
    (hcalls : ∀ c ∈ calls, Conveyable e dopts c.1 c.2) (hsize : ∀ pdus ∈ results, pdus.length ≤ 255)
    (hmany : (results.filter (fun pdus => 2 ≤ pdus.length)).length ≤ 256) :
    ∃ received, SentAll results received ∧
      ∀ arrival : List TPDU, arrival.Perm received.flatten →
        ∃ s os, run (New timeout handler) (arrival.map .collect) = .ok (s, os) ∧
          ((returns os).map (textOf dopts)).Perm (calls.map (fun c => .ok c.1)) ∧
          (∀ d err, .returned d err ∈ os → err = none) ∧ Pipes s = [] := by
  obtain ⟨items, h1, h2, h3⟩ := choose_list (fun i : Item => i.pdus) (fun i : Item => i.text) (Good dopts) results
    (calls.map (·.1)) (by rw [List.length_map]; exact h.length) (by
      intro i pdus text hp ht
      rw [List.getElem?_map] at ht
      obtain ⟨⟨text', options⟩, hcl, rfl⟩ := Option.map_eq_some_iff.1 ht
      have hd := h.call i text' options pdus hcl hp
      obtain ⟨r, qs, hr, hgood⟩ := item_of dopts _ text' options
        (conveyable_counters (seen (returnsTo i hm)) (seen (returnsTo i hc)) (hcalls _ (List.mem_of_getElem? hcl)))
      rw [hr] at hd
      obtain ⟨rfl, _⟩ := hd
      exact ⟨_, rfl, rfl, hgood⟩)
  have hrefs : ((items.filter (fun i => 2 ≤ i.pdus.length)).map (fun i => i.ident.ref)).Nodup := by
    obtain ⟨refs, hp, hr⟩ := C80_concat w h8 hw e calls hm hc results h
    have hlen : refs.length = (results.filter (fun pdus => 2 ≤ pdus.length)).length := by simpa using hp.length_eq
    have hf : results.filter (fun pdus => 2 ≤ pdus.length) = (items.filter (fun i => 2 ≤ i.pdus.length)).map (·.pdus) := by
      rw [← h1, List.filter_map]; rfl
    have heq : (items.filter (fun i => 2 ≤ i.pdus.length)).map (fun i => i.ident.ref) = refs.map UInt8.toNat := by
      rw [hf, List.length_map] at hlen
      apply List.ext_getElem
      · simp only [List.length_map]; exact hlen.symm
      · intro k hk1 hk2
        rw [List.length_map] at hk1 hk2
        rw [List.getElem_map, List.getElem_map]
        have hk := List.getElem?_eq_getElem hk1
        obtain ⟨hmem, hn⟩ := List.mem_filter.1 (List.mem_of_getElem? hk)
        have hn : 0 < ((items.filter (fun i => 2 ≤ i.pdus.length))[k]).pdus.length := by
          have : 2 ≤ ((items.filter (fun i => 2 ≤ i.pdus.length))[k]).pdus.length := by simpa using hn
          omega
        have hp0 := List.getElem?_eq_getElem hn
        refine item_ref (h3 _ hmem) _ hp0 _ _ _ (hr k refs[k] _ (List.getElem?_eq_getElem hk2) ?_ 0 _ hp0)
        rw [hf, List.getElem?_map, hk]; rfl
    rw [heq, List.nodup_iff_pairwise_ne, List.pairwise_map]
    have hnd := hp.nodup_iff.mpr (nodup_bytes _ hmany)
    exact hnd.imp (fun hne e => hne (UInt8.toNat_inj.mp e))
  refine ⟨items.map (·.qs), ?_, ?_⟩
  · rw [← h1]; exact sentAll_items items dopts h3
  intro arrival ha
  obtain ⟨s, os, r1, r2, r3, r4⟩ := items_collected_refs timeout handler dopts items h3 (by
    intro i hi
    exact hsize _ (by rw [← h1]; exact List.mem_map.2 ⟨i, hi, rfl⟩)) hrefs arrival ha
  refine ⟨s, os, r1, (r2.map (textOf dopts)).trans ?_, r3, r4⟩
  have : calls.map (fun c => (.ok c.1 : M (List UInt8))) = (calls.map (·.1)).map .ok := by rw [List.map_map]; rfl
  rw [this, ← h2, List.map_map, List.map_map]
  apply List.Perm.of_eq
  apply List.map_congr_left
  intro i hi
  simp only [Function.comp_apply, textOf, List.filterMap_map]
  have : (id ∘ some : TPDU → Option TPDU) = some := rfl
  rw [this, List.filterMap_some]
  exact (h3 i hi).dec

end Verif.Props
