import Verif.Spec.Size
import Verif.Proofs.Layout
import Verif.Proofs.RelayExact
import Verif.Proofs.Segment2
import Verif.Proofs.EncodeSms

/-! The number of octets of what is marshalled, and of the pieces of a message. -/

namespace Verif.Proofs.Size
open Verif.Model Verif.Spec Verif.Proofs

theorem semi_length (p : Bytes) : (p.flatMap nibbles).length = 2 * p.length := by
  induction p with
  | nil => rfl
  | cons x p ih => rw [List.flatMap_cons, List.length_append, ih]; simp [nibbles]; omega

theorem pack_length (u : Bytes) (f : Nat) (hf : f ≤ 7) (hne : u ≠ []) : (Gsm7.Pack7Bit u f).length = (7 * u.length + f + 7) / 8 := by
  unfold Gsm7.Pack7Bit
  rw [if_neg (by simpa using hne)]
  exact packLoop_length u 0 f hf

theorem addr_len (a : Address) : Post a.MarshalBinary (fun p => p.length = Size.addr a) := by
  unfold Address.MarshalBinary Size.addr
  split
  · rename_i ht
    rw [if_pos ((ton_toNat a).1 ht)]
    refine Post.bind' (Q := fun g => g.length = (Unicode.decodeRunes a.Addr).length) (post_wrapE fun g hg => ?_) ?_
    · rw [encoder_encode_eq] at hg
      simpa using congrArg List.length (plain_chars _ g hg)
    · intro g hg
      refine .ok ?_
      rw [← hg]
      by_cases h0 : g = []
      · subst h0; rfl
      · simp only [List.length_cons, pack_length g 0 (by omega) h0]; omega
  · rename_i ht
    rw [if_neg (fun x => ht ((ton_toNat a).2 x))]
    refine Post.bind' (Q := fun body => body.length = (a.Addr.length + 1) / 2) (post_wrapE fun p hp => ?_) ?_
    · have hd : Digits a.Addr := Classical.byContradiction fun hd => by
        obtain ⟨_, d, _, _, _, _, e⟩ := encodeLoop_error a.Addr none hd
        rw [Semioctet.Encode, e] at hp; cases hp
      obtain ⟨p', e1, e2⟩ := encodeLoop_ok a.Addr none (by simp) hd
      rw [Semioctet.Encode, e1] at hp; cases hp
      have := congrArg List.length e2
      rw [semi_length] at this
      simp only [List.length_append, List.length_map] at this
      split at this <;> simp at this <;> omega
    · intro b hb
      refine .ok ?_
      simp only [List.length_cons, hb]; omega

theorem header_eq (udh : UDH) : hdrLen udh = Size.header udh := by
  rw [hdrLen_def]
  unfold Size.header
  have : udh.UDHL = (udh.map fun ie => 2 + ie.Data.length).sum := by
    induction udh with
    | nil => rfl
    | cons ie u ih => rw [udhl_cons, ih]; simp
  rw [this]
  split <;> omega

theorem ud_len (t : TPDU) : Post t.encodeUserData (fun p => p.length = Size.userData t) := by
  intro e h
  unfold TPDU.encodeUserData at h
  unfold Size.userData
  have hl := (hdrLen_eq t.UDH).trans (header_eq t.UDH)
  generalize t.Alphabet = al at *
  obtain ⟨a, o⟩ := al
  cases o with
  | some x => simp [fail] at h
  | none =>
    simp only at h ⊢
    split at h
    · rename_i ha
      cases h
      simp only [List.length_cons, List.length_append, List.cons_append, hl]
      by_cases hne : t.UD = []
      · have e : ∀ x y : Nat, (if a = Alphabet.a7Bit ∧ t.UD ≠ [] then x else y) = y := fun x y => if_neg (fun h => h.2 hne)
        rw [e, hne]
        unfold Gsm7.Pack7Bit
        simp; omega
      · have e : ∀ x y : Nat, (if a = Alphabet.a7Bit ∧ t.UD ≠ [] then x else y) = x := fun x y => if_pos ⟨ha, hne⟩
        rw [e]
        rw [pack_length _ _ (by split <;> omega) hne]
        split <;> omega
    · rename_i ha
      rw [if_neg (fun x => ha x.1)]
      split at h
      · cases h
      · cases h
        simp only [List.length_cons, List.length_append, List.cons_append, hl]; omega

theorem time_len' (t : GoTime) : Post (Timestamp.MarshalBinary t) (fun p => p.length = 7) := fun _ h => time_len h

theorem vp_len (v : ValidityPeriod) : Post v.MarshalBinary (fun p => p.length = Size.period v) := by
  intro p h
  unfold ValidityPeriod.MarshalBinary at h
  unfold Size.period
  split at h
  · rename_i hf
    rw [hf, if_neg (by decide), if_neg (by decide)]
    exact time_len h
  split at h
  · rename_i hf
    rw [hf, if_neg (by decide), if_neg (by decide)]
    simp only at h
    split at h
    · cases h
    split at h
    · cases h; rfl
    split at h
    · cases h; rfl
    split at h
    · obtain ⟨_, _, h⟩ := bind_eq_ok.1 h
      obtain ⟨_, _, h⟩ := bind_eq_ok.1 h
      obtain ⟨_, _, h⟩ := bind_eq_ok.1 h
      cases h; rfl
    · cases h; rfl
  split at h
  · rename_i hf
    rw [hf, if_neg (by decide), if_pos (by decide)]
    cases h; rfl
  split at h
  · rename_i hf
    rw [hf, if_pos (by decide)]
    cases h; rfl
  · cases h

theorem pi_bits (b : UInt8) : (PI.PID b = b.toNat.testBit 0) ∧ (PI.DCS b = b.toNat.testBit 1) ∧ (PI.UDL b = b.toNat.testBit 2) := by
  revert b; apply forall_u8; decide +kernel

theorem opt_len (t : TPDU) : Post t.optUserData (fun ud => t.piOctets.length + ud.length = Size.optional t) := by
  obtain ⟨h1, h2, h3⟩ := pi_bits t.PI
  unfold TPDU.optUserData Size.optional TPDU.piOctets
  rw [h1, h2, h3]
  have hp : ((if t.PI.toNat.testBit 0 = true then [t.PID] else []) ++ (if t.PI.toNat.testBit 1 = true then [t.DCS] else [])).length =
      (if t.PI.toNat.testBit 0 then 1 else 0) + (if t.PI.toNat.testBit 1 then 1 else 0) := by
    rw [List.length_append]; split <;> split <;> rfl
  rw [hp]
  split
  · refine fun ud h => ?_
    show _ + ud.length = _
    rw [show ud.length = _ from post_wrapE (ud_len t) ud h]
  · exact .ok rfl

/-- What is marshalled has as many octets as its fields take. -/
theorem tpdu_len (t : TPDU) : Post t.MarshalBinary (fun p => p.length = Size.tpdu t) := by
  have hc : (if t.FCS ≠ 0 then [t.FCS] else []).length = Size.cause t := by
    unfold Size.cause; split <;> simp_all
  unfold TPDU.MarshalBinary Size.tpdu Size.address
  simp only
  split
  · refine post_wrapE ?_
    unfold TPDU.marshalDeliver
    refine Post.bind' (post_wrapE (addr_len _)) ?_; intro oa hoa
    refine Post.bind' (post_wrapE (time_len' _)) ?_; intro ts hts
    refine Post.bind' (post_wrapE (ud_len _)) ?_; intro ud hud
    exact .ok (by simp only [List.length_append, List.length_cons, List.length_nil]; omega)
  split
  · refine post_wrapE ?_
    unfold TPDU.marshalDeliverReport
    refine Post.bind' (opt_len t) ?_; intro ud hud
    exact .ok (by simp only [List.length_append, List.length_cons, List.length_nil, hc]; omega)
  split
  · refine post_wrapE ?_
    unfold TPDU.marshalSubmitReport
    refine Post.bind' (post_wrapE (time_len' _)) ?_; intro ts hts
    refine Post.bind' (opt_len t) ?_; intro ud hud
    exact .ok (by simp only [List.length_append, List.length_cons, List.length_nil, hc]; omega)
  split
  · rename_i hs
    rw [if_neg (by rw [hs]; decide), if_pos (.inl hs)]
    refine post_wrapE ?_
    unfold TPDU.marshalSubmit
    refine Post.bind' (post_wrapE (addr_len _)) ?_; intro da hda
    refine Post.bind' (post_wrapE (ud_len _)) ?_; intro ud hud
    have fin : ∀ vp : Bytes, vp.length = Size.period t.VP → ([t.FirstOctet, t.MR] ++ da ++ [t.PID, t.DCS] ++ vp ++ ud).length =
        1 + 1 + Size.addr t.DA + 1 + 1 + Size.period t.VP + Size.userData t := fun vp hvp => by
      simp only [List.length_append, List.length_cons, List.length_nil]; omega
    split
    · exact Post.bind' (post_wrapE (vp_len _)) fun vp hvp => .ok (fin vp hvp)
    · rename_i h
      refine .ok (fin [] ?_)
      have : t.VP.Format = 0 := Classical.byContradiction h
      unfold Size.period; rw [if_pos this]; rfl
  split
  · refine post_wrapE ?_
    unfold TPDU.marshalStatusReport
    refine Post.bind' (post_wrapE (addr_len _)) ?_; intro ra hra
    refine Post.bind' (post_wrapE (time_len' _)) ?_; intro ts hts
    refine Post.bind' (post_wrapE (time_len' _)) ?_; intro dt hdt
    refine Post.bind' (opt_len t) ?_; intro ud hud
    simp only
    split
    · exact .ok (by simp only [List.length_append, List.length_cons, List.length_nil]; omega)
    · exact .ok (by simp only [List.length_append, List.length_cons, List.length_nil]; omega)
  split
  · rename_i hs
    rw [if_pos (.inr hs)]
    refine post_wrapE ?_
    unfold TPDU.marshalCommand
    refine Post.bind' (post_wrapE (addr_len _)) ?_; intro da hda
    exact .ok (by simp only [List.length_append, List.length_cons, List.length_nil]; omega)
  · exact .fail

/-! ### The pieces of a message -/

theorem slice_len {l r : Bytes} {a b : Int} (h : slice l a b = .ok r) : (r.length : Int) = b - a ∧ 0 ≤ a := by
  unfold slice at h
  split at h
  · cases h
    simp only [List.length_drop, List.length_take]; omega
  · cases h

theorem chunk8_le (msg : Bytes) (bs : Int) : ∀ fuel s, Post (chunk8Loop msg bs fuel s) (fun cs => ∀ c ∈ cs, (c.length : Int) ≤ bs) := by
  intro fuel
  induction fuel with
  | zero => intro s _ h; cases h
  | succ fuel ih =>
    intro s
    unfold chunk8Loop
    simp only
    split
    · refine Post.bind' (Q := fun c => (c.length : Int) ≤ bs) (fun c hc => by have := slice_len hc; omega) ?_
      intro c hc
      split
      · intro _ h; cases h
      · refine Post.bind' (ih _) ?_
        intro cs hcs
        refine .ok ?_
        intro x hx
        rcases List.mem_cons.1 hx with rfl | hx
        · exact hc
        · exact hcs x hx
    · refine Post.bind' (Q := fun c => (c.length : Int) ≤ bs) (fun c hc => by have := slice_len hc; omega) ?_
      intro c hc
      exact .ok (by simpa using hc)

theorem chunk7_le (msg : Bytes) (bs : Int) : ∀ fuel s, Post (chunk7Loop msg bs fuel s) (fun cs => ∀ c ∈ cs, (c.length : Int) ≤ bs) := by
  intro fuel
  induction fuel with
  | zero => intro s _ h; cases h
  | succ fuel ih =>
    intro s
    unfold chunk7Loop
    simp only
    split
    · refine Post.bind fun e1 => ?_
      refine Post.bind' (Q := fun b : Int => b ≤ s + bs) ?_ ?_
      · split
        · refine Post.bind fun e2 => .ok ?_
          split <;> omega
        · exact .ok (by omega)
      intro b hb
      refine Post.bind' (Q := fun c => (c.length : Int) ≤ bs) (fun c hc => by have := slice_len hc; omega) ?_
      intro c hc
      split
      · intro _ h; cases h
      · refine Post.bind' (ih _) ?_
        intro cs hcs
        refine .ok ?_
        intro x hx
        rcases List.mem_cons.1 hx with rfl | hx
        · exact hc
        · exact hcs x hx
    · refine Post.bind' (Q := fun c => (c.length : Int) ≤ bs) (fun c hc => by have := slice_len hc; omega) ?_
      intro c hc
      exact .ok (by simpa using hc)

theorem chunkU_le (msg : Bytes) (bs : Int) : ∀ fuel s, Post (chunkUCS2Loop msg bs fuel s) (fun cs => ∀ c ∈ cs, (c.length : Int) ≤ bs) := by
  intro fuel
  induction fuel with
  | zero => intro s _ h; cases h
  | succ fuel ih =>
    intro s
    unfold chunkUCS2Loop
    simp only
    split
    · refine Post.bind fun s2 => ?_
      refine Post.bind fun r => ?_
      have hb : (if 0xd800 ≤ r ∧ r < 0xdc00 then s + bs - 2 else s + bs) ≤ s + bs := by split <;> omega
      generalize (if 0xd800 ≤ r ∧ r < 0xdc00 then s + bs - 2 else s + bs) = b at *
      refine Post.bind' (Q := fun c => (c.length : Int) ≤ bs) (fun c hc => by have := slice_len hc; omega) ?_
      intro c hc
      split
      · intro _ h; cases h
      · refine Post.bind' (ih _) ?_
        intro cs hcs
        refine .ok ?_
        intro x hx
        rcases List.mem_cons.1 hx with rfl | hx
        · exact hc
        · exact hcs x hx
    · refine Post.bind' (Q := fun c => (c.length : Int) ≤ bs) (fun c hc => by have := slice_len hc; omega) ?_
      intro c hc
      exact .ok (by simpa using hc)

theorem chunk_le (msg : Bytes) (a : Alphabet) (bs : Int) : Post (chunk msg a bs) (fun cs => ∀ c ∈ cs, (c.length : Int) ≤ bs) := by
  unfold chunk
  split
  · unfold chunkUCS2
    split
    · exact .ok (by simp)
    · refine Post.bind fun _ => ?_
      intro cs h c hc
      have := chunkU_le _ _ _ _ cs h c hc
      omega
  · unfold chunk8Bit
    split
    · exact .ok (by simp)
    · exact Post.bind fun _ => chunk8_le _ _ _ _
  · unfold chunk7Bit
    split
    · exact .ok (by simp)
    · exact Post.bind fun _ => chunk7_le _ _ _ _

/-- The TPDUs of a message that is cut up, whatever the template: nothing but these fields differs from the template, and
what each carries is within its block size. -/
theorem segment_le (t : TPDU) (msg : Bytes) (cfg : SegCfg) : Post (t.Segment msg cfg) (fun res => ∀ p ∈ res.pdus,
    (p.UD.length : Int) ≤ p.UDBlockSize ∧ p.SmsType = t.SmsType ∧ p.DA = t.DA ∧ p.OA = t.OA ∧ p.RA = t.RA ∧ p.VP = t.VP ∧ p.DCS = t.DCS) := by
  intro res h p hp
  by_cases hne : msg = []
  · subst hne; cases h; cases hp
  by_cases hbig : (msg.length : Int) ≤ t.UDBlockSize
  · have hl : ¬ msg.length = 0 := by simpa using hne
    unfold TPDU.Segment at h
    rw [if_neg hl] at h
    simp only at h
    rw [if_pos hbig] at h
    cases h
    cases hmr : cfg.mr <;> simp only [setMR, hmr, List.mem_singleton] at hp <;> subst hp <;>
      exact ⟨hbig, rfl, rfl, rfl, rfl, rfl, rfl⟩
  · obtain ⟨h1, h2⟩ := segment_chunks t msg cfg hne hbig
    cases hc : chunk msg t.Alphabet.1 (segTemplate t cfg).UDBlockSize with
    | error f => rw [h2 f hc] at h; cases h
    | ok cs =>
      obtain ⟨res', e1, e2, e3, e4⟩ := h1 cs hc
      rw [h] at e1; cases e1
      rw [e2] at hp
      obtain ⟨k, hk, rfl⟩ := List.mem_mapIdx.1 hp
      have := chunk_le _ _ _ cs hc _ (List.getElem_mem hk)
      refine ⟨by rw [segPdu_blockSize]; exact this, ?_, rfl, rfl, rfl, rfl, rfl⟩
      show smsType (FirstOctet.MTI (t.FirstOctet ||| 0x40)) t.Direction = smsType (FirstOctet.MTI t.FirstOctet) t.Direction
      rw [show FirstOctet.MTI (t.FirstOctet ||| 0x40) = FirstOctet.MTI t.FirstOctet from
        (show ∀ f : UInt8, FirstOctet.MTI (f ||| 0x40) = FirstOctet.MTI f by apply forall_u8; decide +kernel) _]

end Verif.Proofs.Size
