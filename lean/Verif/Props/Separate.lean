import Verif.Props.ConcurrentTexts

/-! C81: texts that are encoded by separate calls of the function `sms.Encode`, sent over the wire, collected in any
order, and decoded. -/

namespace Verif.Props

open Verif.Model Verif.Model.Collector Verif.Spec Verif.Proofs Verif.Proofs.Coll
open Verif.Spec.Reassembly (Parts Input Result)

/-! Helpers. -/

theorem fold_charsets (cs : List CharsetOpt) : ∀ e : Model.Sms.Encoder,
    (cs.map Model.Sms.EncoderOption.charsets).foldl Model.Sms.Encoder.apply e = { e with eopts := e.eopts ++ cs } := by
  induction cs with
  | nil => intro e; simp
  | cons c cs ih => intro e; rw [List.map_cons, List.foldl_cons, ih]; simp [Model.Sms.Encoder.apply]

theorem digits_noplus {digits : List UInt8} (hd : Digits digits) : digits.head? ≠ some 0x2b := by
  intro h
  have : (0x2b : UInt8) ∈ digits := by
    cases digits with
    | nil => cases h
    | cons x xs => cases h; simp
  exact absurd (hd _ this) (by decide)

/-- The function `Encode` is the method of a new encoder. -/
theorem encode_fun (digits text : List UInt8) (cs : List CharsetOpt) :
    Sms.Encode text (Sms.To digits :: cs.map .charsets) =
      (do let r ← (Sms.NewEncoder (Sms.AsSubmit :: cs.map .charsets)).Encode text [Sms.To digits]; return r.pdus) := by
  have h : (Sms.NewEncoder (Sms.AsSubmit :: Sms.To digits :: cs.map .charsets)).Encode text [] =
      (Sms.NewEncoder (Sms.AsSubmit :: cs.map .charsets)).Encode text [Sms.To digits] := by
    have h1 : Sms.NewEncoder (Sms.AsSubmit :: Sms.To digits :: cs.map .charsets) =
        [Sms.To digits].foldl Model.Sms.Encoder.apply (Sms.NewEncoder (Sms.AsSubmit :: cs.map .charsets)) := by
      unfold Model.Sms.NewEncoder
      rw [List.foldl_cons, List.foldl_cons, fold_charsets, List.foldl_cons, List.foldl_nil, List.foldl_cons, fold_charsets]
      rfl
    unfold Model.Sms.Encoder.Encode
    rw [List.foldl_nil, h1]
  unfold Model.Sms.Encode
  rw [h]

theorem submit_peer (digits : List UInt8) (cs : List CharsetOpt) (hd : Digits digits) :
    peer (callTemplate (Sms.NewEncoder (Sms.AsSubmit :: cs.map .charsets)) [Sms.To digits]) = ⟨0x91, digits⟩ := by
  have hnum : Address.NewFromNumber digits = ⟨0x91, digits⟩ := (C57_number digits (digits_noplus hd)).2.2.1
  have ht : callTemplate (Sms.NewEncoder (Sms.AsSubmit :: cs.map .charsets)) [Sms.To digits] =
      { Direction := MO, FirstOctet := 1, DA := ⟨0x91, digits⟩ } := by
    unfold callTemplate Model.Sms.NewEncoder
    rw [List.foldl_cons, List.foldl_nil, List.foldl_cons, fold_charsets, ← hnum]
    rfl
  rw [ht]
  unfold peer
  exact if_pos (by show smsType (FirstOctet.MTI 1) MO = SmsSubmit; decide)

/-- C81, partial: each text is encoded by a call of `Encode` of its own and the TPDUs are marshalled.  The octets are
unmarshalled and collected in any order.  Then decoding the messages that the Collector returns gives the texts, each
once; no call reports an error, and nothing is left pending.  A text is sent in at most 255 TPDUs.  Missing: two texts
to the same number that need the same number of TPDUs, more than one (`C81_counterexample`), and the texts that C38 and
C39 exclude. -/
theorem C81_texts_partial (timeout handler : Bool) (cs dopts : List CharsetOpt) (hm : Matching cs dopts)
    (msgs : List (List UInt8 × List UInt8))
    (hmsgs : ∀ digits text, (digits, text) ∈ msgs → Digits digits ∧ digits.length ≤ 255 ∧ text ≠ [] ∧
      (InSeptets cs text → 0x1b ∉ text) ∧ ∃ rs, (∀ r ∈ rs, Scalar r) ∧ text = Unicode.encodeRunes rs)
    (sent : List (List TPDU))
    (hsent : msgs.map (fun m => Sms.Encode m.2 (Sms.To m.1 :: cs.map .charsets)) = sent.map .ok)
    (hsize : ∀ pdus ∈ sent, pdus.length ≤ 255)
    (hkeys : (((msgs.zip sent).filter (fun x => 2 ≤ x.2.length)).map (fun x => (x.1.1, x.2.length))).Nodup) :
    ∃ received, SentAll sent received ∧ ∀ arrival : List TPDU, arrival.Perm received.flatten →
      ∃ s os, run (New timeout handler) (arrival.map .collect) = .ok (s, os) ∧
        ((returns os).map (textOf dopts)).Perm (msgs.map (fun m => .ok m.2)) ∧
        (∀ d err, .returned d err ∈ os → err = none) ∧ Pipes s = [] := by
  have hlen : msgs.length = sent.length := by
    have := congrArg List.length hsent
    simpa using this
  obtain ⟨items, h1, h2, h3⟩ := choose_list (fun i : Item × (List UInt8 × List UInt8) => i.1.pdus)
    (fun i => i.2) (fun i => Good dopts i.1 ∧ i.1.text = i.2.2 ∧ i.1.address = ⟨0x91, i.2.1⟩) sent msgs hlen.symm (by
      intro i pdus m hp hmi
      obtain ⟨digits, text⟩ := m
      obtain ⟨g1, g2, g3, g4, g5⟩ := hmsgs digits text (List.mem_of_getElem? hmi)
      obtain ⟨r, qs, hr, hgood⟩ := item_of dopts _ text [Sms.To digits] (conveyable_submit digits text cs dopts g1 g2 hm g4 g3 g5)
      have he := congrArg (fun l => l[i]?) hsent
      simp only [List.getElem?_map, hmi, hp, Option.map_some, Option.some.injEq] at he
      rw [encode_fun, hr] at he
      cases he
      exact ⟨(_, _), rfl, rfl, hgood, rfl, submit_peer digits cs g1⟩)
  have hg : ∀ i ∈ items.map (·.1), Good dopts i := by
    intro i hi
    obtain ⟨x, hx, rfl⟩ := List.mem_map.1 hi
    exact (h3 x hx).1
  have hids : (((items.map (·.1)).filter (fun i => 2 ≤ i.pdus.length)).map Item.ident).Nodup := by
    rw [List.filter_map, List.map_map]
    have hz : msgs.zip sent = items.map (fun i => (i.2, i.1.pdus)) := by
      rw [← h1, ← h2, List.zip_map']
    rw [hz, List.filter_map, List.map_map] at hkeys
    rw [List.nodup_iff_pairwise_ne, List.pairwise_map] at hkeys ⊢
    refine List.Pairwise.imp_of_mem ?_ hkeys
    intro a b ha hb hne heq
    have ha := h3 a (List.mem_filter.1 ha).1
    have hb := h3 b (List.mem_filter.1 hb).1
    apply hne
    simp only [Function.comp_apply, Item.ident, Ident.mk.injEq] at heq ⊢
    obtain ⟨_, e1, _, e2⟩ := heq
    rw [ha.2.2, hb.2.2] at e1
    rw [item_length ha.1, item_length hb.1] at e2
    simp only [Address.mk.injEq, true_and] at e1
    rw [e1, e2]
  refine ⟨(items.map (·.1)).map (·.qs), ?_, ?_⟩
  · have := sentAll_items (items.map (·.1)) dopts hg
    rw [List.map_map] at this
    rw [← h1]; exact this
  intro arrival ha
  obtain ⟨s, os, r1, r2, r3, r4⟩ := items_collected_idents timeout handler dopts (items.map (·.1)) hg (by
    intro i hi
    obtain ⟨x, hx, rfl⟩ := List.mem_map.1 hi
    exact hsize _ (by rw [← h1]; exact List.mem_map.2 ⟨x, hx, rfl⟩)) hids arrival ha
  refine ⟨s, os, r1, (r2.map (textOf dopts)).trans ?_, r3, r4⟩
  rw [← h2, List.map_map, List.map_map, List.map_map]
  apply List.Perm.of_eq
  apply List.map_congr_left
  intro i hi
  simp only [Function.comp_apply, textOf, List.filterMap_map]
  have : (id ∘ some : TPDU → Option TPDU) = some := rfl
  rw [this, List.filterMap_some, ← (h3 i hi).2.1]
  exact (h3 i hi).1.dec

/-- The texts that the Collector returns for these TPDUs. -/
def arrive (arrival : List TPDU) : List (M (List UInt8)) :=
  match run (New false false) (arrival.map .collect) with
  | .ok (_, os) => (returns os).map (textOf [])
  | .error _ => []

theorem arrive_two (r s : M (List TPDU)) (l : List (M (List UInt8)))
    (h : (match r, s with
      | .ok [a₁, a₂], .ok [b₁, b₂] => decide (arrive [a₁, b₂, b₁, a₂] = l)
      | _, _ => false) = true) :
    ∃ a₁ a₂ b₁ b₂, r = .ok [a₁, a₂] ∧ s = .ok [b₁, b₂] ∧ arrive [a₁, b₂, b₁, a₂] = l := by
  split at h
  · exact ⟨_, _, _, _, rfl, rfl, of_decide_eq_true h⟩
  · cases h

/-- C81 is false as stated: of two texts to the same number, both sent in two TPDUs, either may get the end of the
other. -/
theorem C81_counterexample : ∃ a₁ a₂ b₁ b₂,
    Sms.Encode (List.replicate 161 0x41) [Sms.To [0x31]] = .ok [a₁, a₂] ∧
    Sms.Encode (List.replicate 161 0x42) [Sms.To [0x31]] = .ok [b₁, b₂] ∧
    arrive [a₁, b₂, b₁, a₂] =
      [.ok (List.replicate 153 0x41 ++ List.replicate 8 0x42), .ok (List.replicate 153 0x42 ++ List.replicate 8 0x41)] := by
  exact arrive_two _ _ _ (by decide +kernel)

/-- Beside C81: three texts, one short and two long ones, of which one is to another number. -/
example :
    let msgs : List (List UInt8 × List UInt8) := [([0x31], [0x42]), ([0x31], List.replicate 200 0x41), ([0x32], List.replicate 200 0x41)]
    let sent := msgs.map (fun m => (Sms.Encode m.2 [Sms.To m.1]))
    sent.map (fun r => match r with | .ok pdus => pdus.length | .error _ => 0) = [1, 2, 2] := by decide +kernel

end Verif.Props
