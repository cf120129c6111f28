import Verif.Proofs.Dump
import Verif.Props.CmdSafe

/-! C84: what smsdecode prints. -/

namespace Verif.Props

open Verif.Model Verif.Spec Verif.Proofs Verif.Proofs.Print

theorem smsc_digits (src : Bytes) : Post (PDU.UnmarshalBinary src) (fun p => Digits p.SMSC.Addr) := by
  have z : Digits [] := by decide
  unfold PDU.UnmarshalBinary PDU.unmarshalBinary
  refine Post.bind' (Q := fun r => Digits r.1.Addr) ?_ ?_
  · unfold SMSCAddress.UnmarshalBinary
    split
    · exact .fail
    refine Post.bind ?_; intro l
    simp only
    split
    · exact .ok z
    split
    · exact .fail
    refine Post.bind ?_; intro toa
    split
    · exact .fail
    refine Post.bind ?_; intro s
    intro r hr
    obtain ⟨d, hd, hr⟩ := bind_eq_ok.1 hr
    obtain ⟨r', h1, _, h3, _⟩ := C06_decode_safe ((l.toNat - 1) * 2) s
    rw [hd] at h1
    cases h1
    split at hr
    · cases hr
    · rename_i ds hds
      cases hr
      exact (h3 ds hds).2.1
  · rintro ⟨a, n⟩ ha
    refine Post.bind ?_; intro t
    exact .ok ha

theorem digits_number {a : Address} (h : Digits a.Addr) : OneLine a.Number := by
  have hd : OneLine a.Addr := fun hm => by
    have := h _ hm
    revert this
    decide
  unfold Address.Number
  split
  · exact OneLine.append (a := [0x2b]) (by decide) hd
  · exact hd

/-- What is known of what `decode` returns. -/
theorem decode_seen (s : Bytes) (pm mo : Bool) (t : TPDU) (a : Option Address) (h : SmsDecode.decode s pm mo = .ok (t, a)) :
    Seen t ∧ Known t.SmsType ∧ (t.Direction = MO ∨ t.Direction = MT) ∧ ∀ x, a = some x → OneLine x.Number := by
  unfold SmsDecode.decode at h
  obtain ⟨b, _, h⟩ := bind_eq_ok.1 h
  obtain ⟨⟨c, x⟩, hc, h⟩ := bind_eq_ok.1 h
  obtain ⟨p, hp, h⟩ := bind_eq_ok.1 h
  cases h
  have hk := unmarshal_kind _ _ _ hp
  refine ⟨seen _ _ _ hp, hk.2.2, ?_, ?_⟩
  · rw [hk.2.1]
    cases mo
    · exact .inr rfl
    · exact .inl rfl
  · rintro x rfl
    cases pm with
    | false => cases hc
    | true =>
      simp only [if_true] at hc
      obtain ⟨pdu, hpdu, hc⟩ := bind_eq_ok.1 hc
      cases hc
      unfold PDU.UnmarshalHexString PDU.unmarshalHexString at hpdu
      obtain ⟨o, _, hpdu⟩ := bind_eq_ok.1 hpdu
      exact digits_number (smsc_digits o pdu hpdu)

theorem dump_name_inj {d d' : SmsDecode.Dump} (h : b!"TPDU: " ++ d.name = b!"TPDU: " ++ d'.name) : d = d' := by
  revert h
  cases d <;> cases d' <;> decide

theorem run_same (t t' : TPDU) (d : SmsDecode.Dump) (h : Seen t) (h' : Seen t') (hd : t.Direction = MO ∨ t.Direction = MT)
    (hd' : t'.Direction = MO ∨ t'.Direction = MT) (ht : dumpType d = t.SmsType) (ht' : dumpType d = t'.SmsType) :
    (d.run t).flatMap splitLF = (d.run t').flatMap splitLF ↔ LooksLike t t' := by
  have hs := ht.symm.trans ht'
  obtain ⟨m1, m2, m3, m4, m5, m6⟩ := type_mti t hd
  obtain ⟨n1, n2, n3, n4, n5, n6⟩ := type_mti t' hd'
  have no : ∀ {x : UInt8}, t.SmsType = x → ∀ {y : UInt8} {p : Prop}, x ≠ y → t.SmsType = y → p :=
    fun h1 _ _ h2 h3 => absurd (h1.symm.trans h3) h2
  unfold LooksLike
  cases d with
  | command =>
    have e : t.SmsType = SmsCommand := ht.symm
    have e' : t'.SmsType = SmsCommand := ht'.symm
    refine (command_same t t' h h' e e' ((m6 e).2.trans (n6 e').2.symm)).trans ⟨fun x => ?_, fun x => x.2.2.2.1 e⟩
    exact ⟨hs, no e (by decide), no e (by decide), fun _ => x, no e (by decide), no e (by decide), no e (by decide)⟩
  | deliver =>
    have e : t.SmsType = SmsDeliver := ht.symm
    have e' : t'.SmsType = SmsDeliver := ht'.symm
    refine (deliver_same t t' h h' hs ((m1 e).2.trans (n1 e').2.symm)).trans ⟨fun x => ?_, fun x => x.2.1 e⟩
    exact ⟨hs, fun _ => x, no e (by decide), no e (by decide), no e (by decide), no e (by decide), no e (by decide)⟩
  | deliverReport =>
    have e : t.SmsType = SmsDeliverReport := ht.symm
    have e' : t'.SmsType = SmsDeliverReport := ht'.symm
    refine (deliverReport_same t t' hs ((m2 e).2.trans (n2 e').2.symm)).trans ⟨fun x => ?_, fun x => x.2.2.2.2.1 e⟩
    exact ⟨hs, no e (by decide), no e (by decide), no e (by decide), fun _ => x, no e (by decide), no e (by decide)⟩
  | statusReport =>
    have e : t.SmsType = SmsStatusReport := ht.symm
    have e' : t'.SmsType = SmsStatusReport := ht'.symm
    refine (statusReport_same t t' h h' hs ((m5 e).2.trans (n5 e').2.symm)).trans ⟨fun x => ?_, fun x => x.2.2.2.2.2.2 e⟩
    exact ⟨hs, no e (by decide), no e (by decide), no e (by decide), no e (by decide), no e (by decide), fun _ => x⟩
  | submit =>
    have e : t.SmsType = SmsSubmit := ht.symm
    have e' : t'.SmsType = SmsSubmit := ht'.symm
    refine (submit_same t t' h h' e e' ((m4 e).2.trans (n4 e').2.symm)).trans ⟨fun x => ?_, fun x => x.2.2.1 e⟩
    exact ⟨hs, no e (by decide), fun _ => x, no e (by decide), no e (by decide), no e (by decide), no e (by decide)⟩
  | submitReport =>
    have e : t.SmsType = SmsSubmitReport := ht.symm
    have e' : t'.SmsType = SmsSubmitReport := ht'.symm
    refine (submitReport_same t t' h h' hs ((m3 e).2.trans (n3 e').2.symm)).trans ⟨fun x => ?_, fun x => x.2.2.2.2.2.1 e⟩
    exact ⟨hs, no e (by decide), no e (by decide), no e (by decide), no e (by decide), fun _ => x, no e (by decide)⟩

/-- C84: when an argument is decoded, smsdecode prints, and what it prints for two arguments is the same exactly if
the numbers of the service centres and the TPDUs look alike (`LooksLike`). -/
theorem C84_exact (s s' : List UInt8) (pm mo pm' mo' : Bool) (t t' : TPDU) (a a' : Option Address)
    (h : SmsDecode.decode s pm mo = .ok (t, a)) (h' : SmsDecode.decode s' pm' mo' = .ok (t', a')) :
    ∃ out out', SmsDecode.text s pm mo = .ok (.ok out) ∧ SmsDecode.text s' pm' mo' = .ok (.ok out') ∧
      (out = out' ↔ a.map Address.Number = a'.map Address.Number ∧ LooksLike t t') := by
  obtain ⟨i1, i2, i3, i4⟩ := decode_seen s pm mo t a h
  obtain ⟨j1, j2, j3, j4⟩ := decode_seen s' pm' mo' t' a' h'
  obtain ⟨d, hd, td⟩ := dump_known t i2
  obtain ⟨d', hd', td'⟩ := dump_known t' j2
  have text : ∀ (s : List UInt8) (pm mo : Bool) t a d, SmsDecode.decode s pm mo = .ok (t, a) → SmsDecode.dumpTPDU t = .ok d →
      SmsDecode.text s pm mo = .ok (.ok (unlines (SmsDecode.printed a t d))) := by
    intro s pm mo t a d h hd
    unfold SmsDecode.text SmsDecode.main
    rw [h]
    simp only [hd, ok_bind]
    rfl
  refine ⟨_, _, text s pm mo t a d h hd, text s' pm' mo' t' a' d' h' hd', ?_⟩
  -- the lines before those of the TPDU
  have shape : ∀ (a : Option Address) t (d : SmsDecode.Dump), (∀ x, a = some x → OneLine x.Number) →
      (SmsDecode.printed a t d).flatMap splitLF = (a.map fun x => b!"SMSC: " ++ x.Number).toList ++ [b!"TPDU: " ++ d.name] ++
        (d.run t).flatMap splitLF := by
    intro a t d ha
    unfold SmsDecode.printed
    rw [List.flatMap_append, List.flatMap_append]
    have e1 : [b!"TPDU: " ++ d.name].flatMap splitLF = [b!"TPDU: " ++ d.name] := by cases d <;> decide
    rw [e1]
    cases a with
    | none => rfl
    | some x =>
      simp only [SmsDecode.dumpSMSC, List.flatMap_cons, List.flatMap_nil, List.append_nil]
      rw [splitLF_line (.append (by decide) (ha x rfl))]
      rfl
  constructor
  · intro e
    have e := unlines_inj e
    rw [shape a t d i4, shape a' t' d' j4] at e
    have : a.map Address.Number = a'.map Address.Number ∧ d = d' ∧ (d.run t).flatMap splitLF = (d'.run t').flatMap splitLF := by
      cases a with
      | none =>
        cases a' with
        | none =>
          simp only [Option.map_none, Option.toList_none, List.nil_append, List.cons_append] at e
          rw [List.cons.injEq] at e
          exact ⟨rfl, dump_name_inj e.1, e.2⟩
        | some x => simp at e
      | some x =>
        cases a' with
        | none => simp at e
        | some y =>
          simp only [Option.map_some, Option.toList_some, List.append_assoc] at e
          obtain ⟨e1, e⟩ := List.append_inj e (by simp)
          obtain ⟨e2, e⟩ := List.append_inj e (by simp)
          rw [List.cons.injEq] at e1 e2
          exact ⟨by simp only [Option.map_some]; rw [List.append_cancel_left e1.1], dump_name_inj e2.1, e⟩
    obtain ⟨e1, rfl, e2⟩ := this
    exact ⟨e1, (run_same t t' d i1 j1 i3 j3 td td').1 e2⟩
  · rintro ⟨e1, e2⟩
    have hdd : d = d' := by
      have hst := td.trans (e2.1.trans td'.symm)
      revert hst
      cases d <;> cases d' <;> decide
    subst hdd
    have e3 := (run_same t t' d i1 j1 i3 j3 td td').2 e2
    have e4 : (SmsDecode.printed a t d).flatMap splitLF = (SmsDecode.printed a' t' d).flatMap splitLF := by
      rw [shape a t d i4, shape a' t' d j4, e3]
      congr 2
      cases a <;> cases a' <;> simp_all
    have f1 := splitLF_unlines (SmsDecode.printed a t d) []
    have f2 := splitLF_unlines (SmsDecode.printed a' t' d) []
    rw [List.append_nil] at f1 f2
    exact splitLF_inj (by rw [f1, f2, e4])

/-- Beside C84: two SMS-SUBMIT that differ in the numbering plan of the destination only look alike, and are
printed. -/
example : ∃ t t' out, SmsDecode.decode b!"010002912100000141" false true = .ok (t, none) ∧
    SmsDecode.decode b!"010002992100000141" false true = .ok (t', none) ∧ t ≠ t' ∧
    SmsDecode.text b!"010002912100000141" false true = .ok (.ok out) ∧
    SmsDecode.text b!"010002992100000141" false true = .ok (.ok out) :=
  ⟨{ Direction := MO, FirstOctet := 1, DA := ⟨0x91, [0x31, 0x32]⟩, UD := [0x41] },
    { Direction := MO, FirstOctet := 1, DA := ⟨0x99, [0x31, 0x32]⟩, UD := [0x41] }, _, by decide +kernel, by decide +kernel,
    by decide +kernel, (by decide +kernel : SmsDecode.text b!"010002912100000141" false true = .ok (.ok (unlines
      [b!"TPDU: SMS-SUBMIT", b!"TP-MTI: 0x01 Submit", b!"TP-RD: false", b!"TP-VPF: 0x00 Not Present", b!"TP-RP: false",
        b!"TP-UDHI: false", b!"TP-SRR: false", b!"TP-MR: 0", b!"TP-DA: +12", b!"TP-PID: 0x00", b!"TP-DCS: 0x00 7bit",
        b!"TP-VP: Not Present", b!"TP-UD: 00000000  41                                                |A|"]))),
    by decide +kernel⟩

/-- Beside C84: another message reference is seen. -/
example : (SmsDecode.text b!"010102912100000141" false true).toOption ≠ (SmsDecode.text b!"010002912100000141" false true).toOption := by
  decide +kernel

end Verif.Props
