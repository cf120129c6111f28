import Verif.Proofs.Dump
import Verif.Props.CmdSafe
import Verif.Spec.Fields

/-! The lines that smsdecode prints, one for each field. -/

namespace Verif.Proofs.Print
open Verif.Model Verif.Spec Verif.Proofs Verif.Proofs.Key Verif.Model.SmsDecode Verif.Props

/-! Values. -/

/-- The text says the value, on one line. -/
def Good (x : Value) (v : Bytes) : Prop := Spells x v ∧ OneLine v

theorem good_flag (o mask : UInt8) (b : Bool) (h : b = decide (o &&& mask ≠ 0)) : Good (.flag (o &&& mask ≠ 0)) (showBool b) := by
  refine ⟨?_, showBool_line _⟩
  subst h
  rfl

theorem writes_decimal (n : Nat) : Writes (decimal n) n := ⟨decimal_ne_nil n, decimal_digits n, decimal_value n⟩

theorem writes_pad (w n : Nat) : Writes (padDecimal w n) n := by
  refine ⟨?_, pad_digits w n, pad_value w n⟩
  unfold padDecimal
  exact fun h => decimal_ne_nil n (List.append_eq_nil_iff.1 h).2

theorem good_decimal (n : Nat) : Good (.decimal n) (decimal n) := ⟨writes_decimal n, dec_line n⟩

theorem hexDig_lower (n : Nat) (h : n < 16) : hexLower[n]? = some (hexDig n) := by
  have : ∀ n < 16, hexLower[n]? = some (hexDig n) := by decide +kernel
  exact this n h

theorem hex02_text (o : UInt8) : HexText (hex02 o) [o] := by
  have := o.toNat_lt
  have e : UInt8.ofNat (16 * (o.toNat / 16) + o.toNat % 16) = o := by
    rw [Nat.div_add_mod]
    exact UInt8.ofNat_toNat
  have h := HexText.cons (.inr (hexDig_lower (o.toNat / 16) (by omega))) (.inr (hexDig_lower (o.toNat % 16) (by omega))) .nil
  rw [e] at h
  exact h

theorem good_octet (o : UInt8) (rest : Bytes) (h : rest = [] ∨ rest.head? = some 0x20) (hl : OneLine rest) :
    Good (.octet o) (b!"0x" ++ hex02 o ++ rest) := by
  refine ⟨⟨_, _, rest, rfl, hex02_text o, h⟩, .append (.append (by decide) (hex02_line o)) hl⟩

theorem good_hex (o : UInt8) : Good (.octet o) (b!"0x" ++ hex02 o) := by
  have := good_octet o [] (.inl rfl) (by decide)
  rwa [List.append_nil] at this

theorem good_dcs (d : UInt8) : Good (.octet d) (DCS.String d) := by
  unfold DCS.String
  simp only
  split
  · exact good_hex d
  · exact good_octet d _ (.inr rfl) (by decide)
  · exact good_octet d _ (.inr rfl) (by decide)
  · exact good_octet d _ (.inr rfl) (by decide)
  · exact good_hex d

theorem good_text (s : Bytes) (h : OneLine s) : Good (.text s) s := ⟨rfl, h⟩

theorem good_pi (p : UInt8) : Good (.parameters p) (PI.String p) := by
  refine ⟨?_, pi_line p⟩
  unfold Spells
  revert p
  apply forall_u8
  decide +kernel

theorem good_time (t : GoTime) (h : Clean t) : Good (.time t) (Timestamp.String t) := by
  refine ⟨?_, timestamp_line t⟩
  have m : 60 * t.off.tdiv 60 = t.off := Int.mul_tdiv_cancel' (Int.dvd_of_emod_eq_zero h.2)
  have e1 : (t.off.tdiv 60).natAbs / 60 = t.off.natAbs / 3600 := by omega
  have e2 : (t.off.tdiv 60).natAbs % 60 = t.off.natAbs / 60 % 60 := by omega
  have e3 : (t.off.tdiv 60 < 0) = (t.off < 0) := propext (by omega)
  refine ⟨padDecimal 4 t.Year.natAbs, padDecimal 2 t.Month.toNat, padDecimal 2 t.Day.toNat, padDecimal 2 t.Hour.toNat,
    padDecimal 2 t.Minute.toNat, padDecimal 2 t.Second.toNat, padDecimal 2 (t.off.natAbs / 3600), padDecimal 2 (t.off.natAbs / 60 % 60),
    writes_pad _ _, writes_pad _ _, writes_pad _ _, writes_pad _ _, writes_pad _ _, writes_pad _ _, writes_pad _ _, writes_pad _ _,
    pad_two _ (by omega), ?_⟩
  unfold Timestamp.String showYear showZone
  simp only [e1, e2, e3, List.append_assoc]

/-! Labels. -/

/-- The line of a field. -/
def Pair (p : Bytes × Value) (l : Bytes) : Prop := ∃ v, l = p.1 ++ b!": " ++ v ∧ Good p.2 v

/-- The lines are those of the fields, in this order. -/
inductive Pairs : List (Bytes × Value) → List Bytes → Prop
  | nil : Pairs [] []
  | cons {p l fs ls} : Pair p l → Pairs fs ls → Pairs (p :: fs) (l :: ls)

theorem Pairs.append {fs ls} (h : Pairs fs ls) {gs ms} (h' : Pairs gs ms) : Pairs (fs ++ gs) (ls ++ ms) := by
  induction h with
  | nil => exact h'
  | cons p _ ih => exact .cons p ih

/-- The labels of lines that are not those of `fields`. -/
def others : List Bytes := [b!"TP-VP", b!"TP-UDH", b!"TP-UD", b!"TP-CD"]

/-- A label that is used for one line only. -/
def Label (k : Bytes) : Prop := (0x3a : UInt8) ∉ k ∧ (0x0a : UInt8) ∉ k ∧ k.head? = some 0x54 ∧ k ∉ others

instance (k : Bytes) : Decidable (Label k) := by unfold Label; infer_instance

/-- A line with another label, or with none. -/
def Other (l : Bytes) : Prop := Inner l ∨ ∃ k ∈ others, ∃ v, l = k ++ b!": " ++ v

theorem prefix_label (a b v : Bytes) (ha : (0x3a : UInt8) ∉ a) (hb : (0x3a : UInt8) ∉ b) :
    ((a ++ b!": ").isPrefixOf (b ++ b!": " ++ v) = true) ↔ a = b := by
  rw [List.isPrefixOf_iff_prefix]
  constructor
  · rintro ⟨r, h⟩
    have h' : a ++ 0x3a :: (0x20 :: r) = b ++ 0x3a :: (0x20 :: v) := by simpa using h
    exact (split_colon _ _ _ _ ha hb h').1
  · rintro rfl
    exact ⟨v, rfl⟩

theorem other_label {k l : Bytes} (hk : Label k) (hl : Other l) : (k ++ b!": ").isPrefixOf l = false := by
  rw [Bool.eq_false_iff]
  intro h
  rcases hl with hl | ⟨j, hj, v, rfl⟩
  · rw [List.isPrefixOf_iff_prefix] at h
    obtain ⟨r, rfl⟩ := h
    obtain ⟨_, _, h3, _⟩ := hk
    cases k with
    | nil => cases h3
    | cons c k =>
      unfold Inner at hl
      simp only [List.cons_append, List.head?_cons] at hl h3
      rw [hl] at h3
      revert h3
      decide
  · have : (0x3a : UInt8) ∉ j := by
      have : ∀ j ∈ others, (0x3a : UInt8) ∉ j := by decide
      exact this j hj
    exact hk.2.2.2 ((prefix_label k j v hk.1 this).1 h ▸ hj)

theorem filter_none {ls : List Bytes} {f : Bytes → Bool} (h : ∀ l ∈ ls, f l = false) : ls.filter f = [] := by
  rw [List.filter_eq_nil_iff]
  intro l hl
  rw [h l hl]
  decide

theorem pairs_none {fs ls} (h : Pairs fs ls) (hf : ∀ p ∈ fs, Label p.1) (k : Bytes) (hk : Label k) (hn : k ∉ fs.map Prod.fst) :
    ls.filter ((k ++ b!": ").isPrefixOf ·) = [] := by
  induction h with
  | nil => rfl
  | @cons p l fs ls hp _ ih =>
    obtain ⟨v, rfl, _⟩ := hp
    rw [List.map_cons, List.mem_cons, not_or] at hn
    have := mt (prefix_label k p.1 v hk.1 (hf p (by simp)).1).1 hn.1
    rw [List.filter_cons, if_neg this]
    exact ih (fun q hq => hf q (by simp [hq])) hn.2

theorem pairs_shows {fs ls} (h : Pairs fs ls) (hf : ∀ p ∈ fs, Label p.1) (hn : (fs.map Prod.fst).Nodup) :
    ∀ p ∈ fs, Shows ls p.1 p.2 := by
  induction h with
  | nil => nofun
  | @cons p l fs ls hp hs ih =>
    obtain ⟨v, rfl, hv⟩ := hp
    rw [List.map_cons, List.nodup_cons] at hn
    have lp := hf p (by simp)
    have lf : ∀ q ∈ fs, Label q.1 := fun q hq => hf q (by simp [hq])
    intro q hq
    rw [List.mem_cons] at hq
    rcases hq with rfl | hq
    · refine ⟨v, ?_, hv.1⟩
      rw [List.filter_cons, if_pos ((prefix_label _ _ _ lp.1 lp.1).2 rfl), pairs_none hs lf _ lp hn.1]
    · obtain ⟨w, hw, sw⟩ := ih lf hn.2 q hq
      refine ⟨w, ?_, sw⟩
      have ne : q.1 ≠ p.1 := fun e => hn.1 (e ▸ List.mem_map.2 ⟨q, hq, rfl⟩)
      rw [List.filter_cons, if_neg (mt (prefix_label q.1 p.1 v (lf q hq).1 lp.1).1 ne), hw]

theorem shows_among {ls : List Bytes} {k : Bytes} {x : Value} (h : Shows ls k x) (pre post : List Bytes)
    (h1 : ∀ l ∈ pre, (k ++ b!": ").isPrefixOf l = false) (h2 : ∀ l ∈ post, (k ++ b!": ").isPrefixOf l = false) :
    Shows (pre ++ (ls ++ post)) k x := by
  obtain ⟨v, hv, sv⟩ := h
  refine ⟨v, ?_, sv⟩
  rw [List.filter_append, List.filter_append, filter_none h1, filter_none h2, hv]
  rfl

theorem pairs_lines {fs ls} (h : Pairs fs ls) (hf : ∀ p ∈ fs, Label p.1) : ∀ l ∈ ls, OneLine l := by
  induction h with
  | nil => nofun
  | @cons p l fs ls hp _ ih =>
    obtain ⟨v, rfl, hv⟩ := hp
    intro m hm
    rw [List.mem_cons] at hm
    rcases hm with rfl | hm
    · exact .append (.append (hf p (by simp)).2.1 (by decide)) hv.2
    · exact ih (fun q hq => hf q (by simp [hq])) m hm

theorem fields_label (t : TPDU) : ∀ p ∈ fields t, Label p.1 := by
  suffices ∀ k ∈ (fields t).map Prod.fst, Label k from fun p hp => this _ (List.mem_map.2 ⟨p, hp, rfl⟩)
  unfold fields optionalFields
  repeat' split
  all_goals
    simp only [List.cons_append, List.nil_append, List.append_nil, List.map_cons, List.map_nil]
    decide +kernel

theorem fields_nodup (t : TPDU) : ((fields t).map Prod.fst).Nodup := by
  unfold fields optionalFields
  repeat' split
  all_goals
    simp only [List.cons_append, List.nil_append, List.append_nil, List.map_cons, List.map_nil]
    decide +kernel

/-! Lines with other labels. -/

theorem inner_other {ls : List Bytes} (h : ∀ l ∈ ls, Inner l) : ∀ l ∈ ls, Other l := fun l hl => .inl (h l hl)

theorem udh_other (g : UDH) : ∀ l ∈ dumpUDH g, Other l := by
  cases g with
  | nil => nofun
  | cons x g =>
    intro l hl
    simp only [dumpUDH, List.mem_cons] at hl
    rcases hl with rfl | hl
    · exact .inr ⟨b!"TP-UDH", by decide, _, rfl⟩
    · exact .inl (indented_inner _ l hl)

theorem ud_other (u : Bytes) : ∀ l ∈ dumpUD u, Other l := by
  obtain ⟨l, ls, h, _⟩ := ud_shape u
  rw [h]
  intro m hm
  rw [List.mem_cons] at hm
  rcases hm with rfl | hm
  · exact .inr ⟨b!"TP-UD", by decide, _, rfl⟩
  · exact .inl (indented_inner _ m hm)

theorem cd_other (u : Bytes) : ∀ l ∈ dumpCD u, Other l := by
  obtain ⟨l, ls, h, _⟩ := cd_shape u
  rw [h]
  intro m hm
  rw [List.mem_cons] at hm
  rcases hm with rfl | hm
  · exact .inr ⟨b!"TP-CD", by decide, _, rfl⟩
  · exact .inl (indented_inner _ m hm)

theorem vp_other (v : ValidityPeriod) : ∀ l ∈ dumpVP v, Other l ∧ OneLine l := by
  have o : ∀ w, Other (b!"TP-VP: " ++ w) := fun w => .inr ⟨b!"TP-VP", by decide, w, rfl⟩
  unfold dumpVP
  repeat' split
  all_goals
    intro l hl
    simp only [List.mem_singleton, List.not_mem_nil] at hl
  all_goals subst hl
  · exact ⟨o _, by decide⟩
  · exact ⟨o _, .append (by decide) (timestamp_line _)⟩
  · refine ⟨o _, .append (.append (.append (by decide) (evpf_line _)) (by decide)) (duration_line _)⟩
  · exact ⟨o _, .append (by decide) (duration_line _)⟩

/-- A line with the label of the service centre is not that of a field. -/
theorem smsc_label {k : Bytes} (hk : Label k) (v : Bytes) : (k ++ b!": ").isPrefixOf (b!"SMSC: " ++ v) = false := by
  rw [Bool.eq_false_iff]
  intro h
  rw [List.isPrefixOf_iff_prefix] at h
  obtain ⟨r, hr⟩ := h
  obtain ⟨_, _, h3, _⟩ := hk
  cases k with
  | nil => cases h3
  | cons c k =>
    simp only [List.cons_append, List.cons.injEq, List.head?_cons] at hr h3
    rw [hr.1] at h3
    revert h3
    decide

theorem label_smsc {l : Bytes} (h : l.head? ≠ some 0x53) : b!"SMSC: ".isPrefixOf l = false := by
  rw [Bool.eq_false_iff]
  intro e
  rw [List.isPrefixOf_iff_prefix] at e
  obtain ⟨r, rfl⟩ := e
  exact h rfl

theorem other_head {l : Bytes} (h : Other l) : l.head? ≠ some 0x53 := by
  rcases h with h | ⟨k, hk, v, rfl⟩
  · rw [h]; decide
  · simp only [others, List.mem_cons, List.not_mem_nil, or_false] at hk
    rcases hk with rfl | rfl | rfl | rfl <;> simp

theorem pairs_head {fs ls} (h : Pairs fs ls) (hf : ∀ p ∈ fs, Label p.1) : ∀ l ∈ ls, l.head? ≠ some 0x53 := by
  induction h with
  | nil => nofun
  | @cons p l fs ls hp _ ih =>
    obtain ⟨v, rfl, hv⟩ := hp
    intro m hm
    rw [List.mem_cons] at hm
    rcases hm with rfl | hm
    · have := (hf p (by simp)).2.2.1
      cases hk : p.1 with
      | nil => rw [hk] at this; cases this
      | cons c k =>
        rw [hk] at this
        simp only [List.cons_append, List.head?_cons] at this ⊢
        rw [this]; decide
    · exact ih (fun q hq => hf q (by simp [hq])) m hm

/-! The lines of each type. -/

theorem pair (k : Bytes) {x : Value} {v l : Bytes} (hl : l = k ++ b!": " ++ v) (h : Good x v) : Pair (k, x) l := ⟨v, hl, h⟩

theorem flag_bits (o : UInt8) : FirstOctet.MMS o = decide (o &&& 0x04 ≠ 0) ∧ FirstOctet.RD o = decide (o &&& 0x04 ≠ 0) ∧
    FirstOctet.LP o = decide (o &&& 0x08 ≠ 0) ∧ FirstOctet.SRI o = decide (o &&& 0x20 ≠ 0) ∧ FirstOctet.SRR o = decide (o &&& 0x20 ≠ 0) ∧
    FirstOctet.SRQ o = decide (o &&& 0x20 ≠ 0) ∧ FirstOctet.UDHI o = decide (o &&& 0x40 ≠ 0) ∧ FirstOctet.RP o = decide (o &&& 0x80 ≠ 0) ∧
    FirstOctet.VPF o = (o >>> 3 &&& 3) := by
  revert o; apply forall_u8; decide +kernel

theorem pair_mti (t : TPDU) (o : UInt8) (h : SmsType.MTI t.SmsType = o) : Pair (b!"TP-MTI", .octet o) (mtiLine t) := by
  unfold mtiLine
  rw [h]
  refine ⟨b!"0x" ++ hex02 o ++ (b!" " ++ MessageType.String o), by simp, good_octet o _ (.inr rfl) ?_⟩
  exact .append (by decide) (mt_line _)

theorem pairs_opt (t : TPDU) : Pairs (optionalFields t) (optLines t) := by
  obtain ⟨_, _, h1, h2⟩ := pi_bits t.PI
  unfold optionalFields optLines
  refine .append ?_ ?_
  · by_cases h : t.PI &&& 1 ≠ 0
    · rw [if_pos h, if_pos (h1.2 h)]
      exact .cons (pair _ rfl (good_hex _)) .nil
    · rw [if_neg h, if_neg (mt h1.1 h)]
      exact .nil
  · by_cases h : t.PI &&& 2 ≠ 0
    · rw [if_pos h, if_pos (h2.2 h)]
      exact .cons (pair _ rfl (good_dcs _)) .nil
    · rw [if_neg h, if_neg (mt h2.1 h)]
      exact .nil

theorem shift (a : Bytes) (x u v : List Bytes) : [a] ++ (x ++ u ++ v) = (a :: x) ++ (u ++ v) := by simp

theorem shift_vp (a : Bytes) (x w u v : List Bytes) : [a] ++ (x ++ w ++ u ++ v) = (a :: x) ++ (w ++ (u ++ v)) := by simp

theorem shift_cd (a : Bytes) (x u : List Bytes) : [a] ++ (x ++ u) = (a :: x) ++ u := by simp

theorem shift_opt (a : Bytes) (x p q u v : List Bytes) : [a] ++ (x ++ p ++ q ++ u ++ v) = ((a :: x) ++ (p ++ q)) ++ (u ++ v) := by simp

/-- What is printed of a TPDU: the lines of its fields, then others. -/
theorem run_fields (t : TPDU) (d : Dump) (h : Seen t) (hd : dumpType d = t.SmsType) (hp : OneLine (party t)) :
    ∃ ls post, [b!"TPDU: " ++ d.name] ++ d.run t = ls ++ post ∧ Pairs (fields t) ls ∧ ∀ l ∈ post, Other l ∧ OneLine l := by
  obtain ⟨mms, rd, lp, sri, srr, srq, udhi, rp, vpf⟩ := flag_bits t.FirstOctet
  have tail : ∀ l ∈ dumpUDH t.UDH ++ dumpUD t.UD, Other l ∧ OneLine l := fun l hl =>
    ⟨forall_append (udh_other _) (ud_other _) l hl, forall_append (udh_line _) (ud_line _) l hl⟩
  cases d with
  | deliver =>
    have hd : t.SmsType = SmsDeliver := hd.symm
    unfold fields
    unfold party at hp
    rw [if_pos hd] at hp ⊢
    refine ⟨_, _, shift _ _ _ _, ?_, tail⟩
    exact .cons (pair _ rfl (good_text _ (by decide))) (.cons (pair_mti t 0 (by rw [hd]; decide)) (.cons (pair _ rfl (good_flag _ _ _ mms))
      (.cons (pair _ rfl (good_flag _ _ _ lp)) (.cons (pair _ rfl (good_flag _ _ _ rp)) (.cons (pair _ rfl (good_flag _ _ _ udhi))
      (.cons (pair _ rfl (good_flag _ _ _ sri)) (.cons (pair _ rfl (good_text _ hp)) (.cons (pair _ rfl (good_hex _))
      (.cons (pair _ rfl (good_dcs _)) (.cons (pair _ rfl (good_time _ h.scts)) .nil))))))))))
  | submit =>
    have hd : t.SmsType = SmsSubmit := hd.symm
    unfold fields
    unfold party at hp
    rw [if_neg (by rw [hd]; decide), if_pos (.inl hd)] at hp
    rw [if_neg (by rw [hd]; decide), if_pos hd]
    refine ⟨_, _, shift_vp _ _ _ _ _, ?_, forall_append (vp_other _) tail⟩
    refine .cons (pair _ rfl (good_text _ (by decide))) (.cons (pair_mti t 1 (by rw [hd]; decide)) (.cons (pair _ rfl (good_flag _ _ _ rd))
      (.cons ?_ (.cons (pair _ rfl (good_flag _ _ _ rp)) (.cons (pair _ rfl (good_flag _ _ _ udhi))
      (.cons (pair _ rfl (good_flag _ _ _ srr)) (.cons (pair _ rfl (good_decimal _)) (.cons (pair _ rfl (good_text _ hp)) (.cons (pair _ rfl (good_hex _))
      (.cons (pair _ rfl (good_dcs _)) .nil))))))))))
    rw [vpf]
    refine pair _ (v := b!"0x" ++ hex02 (t.FirstOctet >>> 3 &&& 3) ++ (b!" " ++ ValidityPeriodFormat.String (t.FirstOctet >>> 3 &&& 3))) (by simp)
      (good_octet _ _ (.inr rfl) ?_)
    exact .append (by decide) (vpf_line _)
  | command =>
    have hd : t.SmsType = SmsCommand := hd.symm
    unfold fields
    unfold party at hp
    rw [if_neg (by rw [hd]; decide), if_pos (.inr hd)] at hp
    rw [if_neg (by rw [hd]; decide), if_neg (by rw [hd]; decide), if_pos hd]
    refine ⟨_, _, shift_cd _ _ _, ?_, fun l hl => ⟨cd_other _ l hl, cd_line _ l hl⟩⟩
    exact .cons (pair _ rfl (good_text _ (by decide))) (.cons (pair_mti t 2 (by rw [hd]; decide)) (.cons (pair _ rfl (good_flag _ _ _ udhi))
      (.cons (pair _ rfl (good_flag _ _ _ srr)) (.cons (pair _ rfl (good_decimal _)) (.cons (pair _ rfl (good_hex _)) (.cons (pair _ rfl (good_hex _))
      (.cons (pair _ rfl (good_decimal _)) (.cons (pair _ rfl (good_text _ hp)) (.cons (pair _ rfl (good_time _ h.scts))
      (.cons (pair _ rfl (good_decimal _)) .nil))))))))))
  | deliverReport =>
    have hd : t.SmsType = SmsDeliverReport := hd.symm
    unfold fields
    rw [if_neg (by rw [hd]; decide), if_neg (by rw [hd]; decide), if_neg (by rw [hd]; decide), if_pos hd]
    refine ⟨_, _, shift_opt _ _ _ _ _ _, .append ?_ (pairs_opt t), tail⟩
    exact .cons (pair _ rfl (good_text _ (by decide))) (.cons (pair_mti t 0 (by rw [hd]; decide)) (.cons (pair _ rfl (good_flag _ _ _ udhi))
      (.cons (pair _ rfl (good_hex _)) (.cons (pair _ rfl (good_pi _)) .nil))))
  | submitReport =>
    have hd : t.SmsType = SmsSubmitReport := hd.symm
    unfold fields
    rw [if_neg (by rw [hd]; decide), if_neg (by rw [hd]; decide), if_neg (by rw [hd]; decide), if_neg (by rw [hd]; decide), if_pos hd]
    refine ⟨_, _, shift_opt _ _ _ _ _ _, .append ?_ (pairs_opt t), tail⟩
    exact .cons (pair _ rfl (good_text _ (by decide))) (.cons (pair_mti t 1 (by rw [hd]; decide)) (.cons (pair _ rfl (good_flag _ _ _ udhi))
      (.cons (pair _ rfl (good_hex _)) (.cons (pair _ rfl (good_pi _)) (.cons (pair _ rfl (good_time _ h.scts)) .nil)))))
  | statusReport =>
    have hd : t.SmsType = SmsStatusReport := hd.symm
    unfold fields
    unfold party at hp
    rw [if_neg (by rw [hd]; decide), if_neg (by rw [hd]; decide), if_pos hd] at hp
    rw [if_neg (by rw [hd]; decide), if_neg (by rw [hd]; decide), if_neg (by rw [hd]; decide), if_neg (by rw [hd]; decide),
      if_neg (by rw [hd]; decide)]
    refine ⟨_, _, shift_opt _ _ _ _ _ _, .append ?_ (pairs_opt t), tail⟩
    exact .cons (pair _ rfl (good_text _ (by decide))) (.cons (pair_mti t 2 (by rw [hd]; decide)) (.cons (pair _ rfl (good_flag _ _ _ udhi))
      (.cons (pair _ rfl (good_flag _ _ _ mms)) (.cons (pair _ rfl (good_flag _ _ _ lp)) (.cons (pair _ rfl (good_flag _ _ _ srq))
      (.cons (pair _ rfl (good_decimal _)) (.cons (pair _ rfl (good_text _ hp)) (.cons (pair _ rfl (good_time _ h.scts))
      (.cons (pair _ rfl (good_time _ h.dt)) (.cons (pair _ rfl (good_hex _)) (.cons (pair _ rfl (good_pi _)) .nil)))))))))))

end Verif.Proofs.Print
