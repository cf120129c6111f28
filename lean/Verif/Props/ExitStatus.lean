import Verif.Props.CommandLine

/-! C104: what the exit status of a program tells. -/

namespace Verif.Props
open Verif.Model Verif.Spec Verif.Proofs
open Verif.Proofs.Cli (Named parse_iff parse_help)

/-! Helpers. -/

theorem help_not_says {f : Flag.FlagSet} (hf : Named f) (hn : (f.map Prod.fst).Nodup) {args rest : List Bytes} {gs : List (Bytes × Bytes)}
    (h : ArgsSay (kinds f) args gs rest) (hr : Readable (kinds f) gs) : ¬ AsksHelp (kinds f) args := by
  obtain ⟨f', h1, _⟩ := parse_ok hf hn h hr
  rw [← parse_help hf, h1]
  simp

theorem decode_text (s : Bytes) (pm mo : Bool) :
    (∃ e, SmsDecode.text s pm mo = .ok (.error e) ∧ ¬ ∃ b t, Argument pm s b ∧ Sms.Unmarshal b (if mo then MO else MT) = .ok t) ∨
    ∃ out b t, SmsDecode.text s pm mo = .ok (.ok out) ∧ out ≠ [] ∧ Argument pm s b ∧ Sms.Unmarshal b (if mo then MO else MT) = .ok t := by
  rcases C67_decode s pm mo with ⟨e, he⟩ | ⟨b, smsc, t, d, hm, hx, _, hc⟩
  · left
    refine ⟨e, by unfold SmsDecode.text; rw [he]; rfl, ?_⟩
    rintro ⟨b, t, ha, hu⟩
    obtain ⟨dd, hdd, _⟩ := dump_known t (unmarshal_kind _ _ _ hu).2.2
    have hdec : ∃ a, SmsDecode.decode s pm mo = .ok (t, a) := by
      unfold SmsDecode.decode
      have ho := argument_octets ha
      unfold SmsDeliver.octets at ho
      obtain ⟨o, ho1, ho2⟩ := bind_eq_ok.1 ho
      rw [ho1, ok_bind]
      cases pm with
      | false =>
        cases ho2
        refine ⟨none, ?_⟩
        show (Sms.Unmarshal b (if mo then MO else MT) >>= _) = _
        rw [hu]; rfl
      | true =>
        rw [if_pos rfl] at ho2
        obtain ⟨pdu, hp1, hp2⟩ := bind_eq_ok.1 ho2
        cases hp2
        refine ⟨some pdu.SMSC, ?_⟩
        have : PDU.UnmarshalHexString s = .ok pdu := by
          unfold PDU.UnmarshalHexString PDU.unmarshalHexString
          rw [ho1]
          exact hp1
        rw [if_pos rfl, this]
        show (Sms.Unmarshal pdu.TPDU (if mo then MO else MT) >>= _) = _
        rw [hu]; rfl
    obtain ⟨a, hdec⟩ := hdec
    unfold SmsDecode.main at he
    rw [hdec] at he
    simp only at he
    rw [hdd] at he
    cases he
  · right
    have ha : ∃ b', Argument pm s b' ∧ Sms.Unmarshal b' (if mo then MO else MT) = .ok t := by
      cases pm with
      | false => exact ⟨b, by unfold Argument; simpa using hx, (by simpa using hc : _ ∧ _).2⟩
      | true =>
        rw [if_pos rfl] at hc
        obtain ⟨pdu, h1, _, h3⟩ := hc
        refine ⟨pdu.TPDU, octets_argument ?_, h3⟩
        unfold SmsDeliver.octets
        rw [(hex_iff _ s (Nat.le_refl _) b).2 hx, ok_bind, if_pos rfl, h1]
        rfl
    obtain ⟨b', h1, h2⟩ := ha
    refine ⟨_, b', t, by unfold SmsDecode.text; rw [hm]; rfl, ?_, h1, h2⟩
    unfold SmsDecode.printed
    cases smsc <;> simp [SmsDecode.dumpSMSC]

theorem fatal_iff (pm : Bool) : ∀ (args : List Bytes) (st : Collector.State) (lines : List SmsDeliver.Line), SmsDeliver.loop pm st args = .ok lines →
    ((∃ e, .fatal e ∈ lines) ↔ ∃ a ∈ args, ∀ b, ¬ Argument pm a b) := by
  intro args
  induction args with
  | nil =>
    intro st lines h
    rw [SmsDeliver.loop] at h
    cases h
    simp
  | cons a args ih =>
    intro st lines h
    rw [SmsDeliver.loop] at h
    rcases octets_cases pm a with ⟨e, he⟩ | ⟨b, hb⟩
    · rw [he] at h
      cases h
      refine ⟨fun _ => ⟨a, by simp, fun b hb => ?_⟩, fun _ => ⟨e, by simp⟩⟩
      rw [argument_octets hb] at he
      cases he
    · have harg := octets_argument hb
      have split : (∃ x ∈ a :: args, ∀ b, ¬ Argument pm x b) ↔ ∃ x ∈ args, ∀ b, ¬ Argument pm x b := by
        constructor
        · rintro ⟨x, hx, hb'⟩
          rcases List.mem_cons.1 hx with rfl | hx
          · exact absurd harg (hb' b)
          · exact ⟨x, hx, hb'⟩
        · rintro ⟨x, hx, h⟩
          exact ⟨x, by simp [hx], h⟩
      rw [split]
      rw [hb] at h
      simp only at h
      rcases C28_sms_no_panic b MT with ⟨t, ht⟩ | ⟨e, he⟩
      · rw [ht] at h
        simp only at h
        obtain ⟨⟨s1, o⟩, _, h⟩ := bind_eq_ok.1 h
        simp only at h
        cases o with
        | returned d err =>
          simp only at h
          obtain ⟨ls, hr, h⟩ := bind_eq_ok.1 h
          obtain ⟨rest, hl, h⟩ := bind_eq_ok.1 h
          cases h
          rw [← ih _ _ hl]
          have hnf : ∀ e, .fatal e ∉ ls := by
            unfold SmsDeliver.report at hr
            simp only at hr
            intro e hmem
            split at hr
            · cases hr; split at hmem <;> simp at hmem
            · split at hr
              · cases hr; split at hmem <;> simp at hmem
              · cases hr
              · obtain ⟨p0, _, hr⟩ := bind_eq_ok.1 hr
                cases p0 with
                | none => cases hr
                | some p => cases hr; split at hmem <;> simp at hmem
          constructor
          · rintro ⟨e, he⟩
            rcases List.mem_append.1 he with he | he
            · exact absurd he (hnf e)
            · exact ⟨e, he⟩
          · rintro ⟨e, he⟩
            exact ⟨e, List.mem_append.2 (.inr he)⟩
        | silent => exact ih _ _ h
        | handled d => exact ih _ _ h
      · rw [he] at h
        simp only at h
        obtain ⟨rest, hl, h⟩ := bind_eq_ok.1 h
        cases h
        rw [← ih _ _ hl]
        simp

/-- **C104**: smsdecode ends with status 0 exactly if it shows a TPDU, or help: it was given one argument, which is
that TPDU in hex.  It ends with status 2 if it cannot make out the flags, else with status 1, and then prints nothing. -/
theorem C104_decode (args : List Bytes) : ∃ e, SmsDecode.program args = .ok e ∧ (e.status = 0 ∨ e.status = 1 ∨ e.status = 2) ∧
    (e.stdout ≠ [] ↔ ∃ gs s pm mo b t, ArgsSay decodeFlags args gs [s] ∧ Readable decodeFlags gs ∧ SwitchOf gs b!"p" pm ∧ SwitchOf gs b!"o" mo ∧
      Argument pm s b ∧ Sms.Unmarshal b (if mo then MO else MT) = .ok t) ∧
    (e.status = 0 ↔ AsksHelp decodeFlags args ∨ e.stdout ≠ []) ∧
    (e.status = 2 ↔ ¬ AsksHelp decodeFlags args ∧ ¬ ∃ gs rest, ArgsSay decodeFlags args gs rest ∧ Readable decodeFlags gs) := by
  by_cases h : ∃ gs rest, ArgsSay decodeFlags args gs rest ∧ Readable decodeFlags gs
  · obtain ⟨gs, rest, h1, h2⟩ := h
    have hnh : ¬ AsksHelp decodeFlags args := by
      rw [← decode_kinds] at h1 h2 ⊢
      exact help_not_says decode_named (by decide) h1 h2
    have uniq : ∀ gs' rest', ArgsSay decodeFlags args gs' rest' → gs = gs' ∧ rest = rest' := fun gs' rest' h' =>
      C103_unambiguous decodeFlags (by rw [← decode_kinds]; exact name_of_kind decode_named) args rest rest' gs gs' h1 h'
    obtain ⟨f', h3, h4⟩ := parse_ok decode_named (by decide) (decode_kinds ▸ h1) (decode_kinds ▸ h2)
    have hp := settled_switch_of h4 (name := b!"p") rfl
    have ho := settled_switch_of h4 (name := b!"o") rfl
    by_cases hl : rest.length = 1
    · obtain ⟨s, rfl⟩ := List.length_eq_one_iff.1 hl
      have hprog := (C103_decode args [s] gs _ _ h1 h2 hp ho).2 s rfl
      rcases decode_text s (f'.bool b!"p") (f'.bool b!"o") with ⟨e, he, hno⟩ | ⟨out, b, t, he, hne, ha, hu⟩
      · rw [he] at hprog
        refine ⟨_, hprog, by simp, ?_, ?_, ?_⟩
        · constructor
          · intro h; exact absurd rfl h
          · rintro ⟨gs', s', pm, mo, b, t, k1, k2, k3, k4, k5, k6⟩
            obtain ⟨rfl, e⟩ := uniq _ _ k1
            cases e
            rw [← settled_switch h4 rfl k3] at k5
            rw [← settled_switch h4 rfl k4] at k6
            exact absurd ⟨b, t, k5, k6⟩ hno
        · simp [hnh]
        · simp only [hnh, not_false_eq_true, true_and]
          exact ⟨fun h => absurd h (by decide), fun h => absurd ⟨gs, _, h1, h2⟩ h⟩
      · rw [he] at hprog
        refine ⟨_, hprog, by simp, ?_, ?_, ?_⟩
        · exact ⟨fun _ => ⟨gs, s, _, _, b, t, h1, h2, hp, ho, ha, hu⟩, fun _ => hne⟩
        · simp [hne]
        · simp only [hnh, not_false_eq_true, true_and]
          exact ⟨fun h => absurd h (by decide), fun h => absurd ⟨gs, _, h1, h2⟩ h⟩
    · refine ⟨_, (C103_decode args rest gs _ _ h1 h2 hp ho).1 hl, by simp, ?_, ?_, ?_⟩
      · constructor
        · intro h; exact absurd rfl h
        · rintro ⟨gs', s', pm, mo, b, t, k1, _⟩
          obtain ⟨rfl, e⟩ := uniq _ _ k1
          subst e
          exact absurd rfl hl
      · simp [hnh]
      · simp only [hnh, not_false_eq_true, true_and]
        exact ⟨fun h => absurd h (by decide), fun h => absurd ⟨gs, _, h1, h2⟩ h⟩
  · obtain ⟨s, h1, h2, h3⟩ := (C103_refused args fun _ _ => []).2.2.2 h
    refine ⟨_, h1, by simp only; omega, ?_, ?_, ?_⟩
    · constructor
      · intro h; exact absurd rfl h
      · rintro ⟨gs', s', pm, mo, b, t, k1, k2, _⟩
        exact absurd ⟨gs', _, k1, k2⟩ h
    · simp [h3]
    · simp only [h, not_false_eq_true, and_true, ← h3]
      omega

/-- Beside C104: an SMS-SUBMIT is shown; without `-o`, it is not a TPDU. -/
example : (SmsDecode.program [b!"-o", b!"01000291210000" ++ b!"0141"]).map (·.status) = .ok 0 ∧
    (SmsDecode.program [b!"-o=false", b!"01000291210000" ++ b!"0141"]).map (·.status) = .ok 1 ∧
    (SmsDecode.program [b!"-x", b!"01000291210000" ++ b!"0141"]).map (·.status) = .ok 2 ∧
    (SmsDecode.program [b!"-o", b!"--help"]).map (·.status) = .ok 0 := by
  refine ⟨?_, ?_, ?_, ?_⟩ <;> decide +kernel

/-- C104: smscounter ends with status 0 exactly if it was given a message, which it counts, or asked for help. -/
theorem C104_counter (args : List Bytes) : ∃ e, SmsCounter.program args = .ok e ∧ (e.status = 0 ∨ e.status = 1 ∨ e.status = 2) ∧
    (e.stdout ≠ [] ↔ ∃ gs rest msg, ArgsSay counterFlags args gs rest ∧ Readable counterFlags gs ∧ TextOf gs b!"message" msg ∧ msg ≠ []) ∧
    (e.status = 0 ↔ AsksHelp counterFlags args ∨ e.stdout ≠ []) ∧
    (e.status = 2 ↔ ¬ AsksHelp counterFlags args ∧ ¬ ∃ gs rest, ArgsSay counterFlags args gs rest ∧ Readable counterFlags gs) := by
  by_cases h : ∃ gs rest, ArgsSay counterFlags args gs rest ∧ Readable counterFlags gs
  · obtain ⟨gs, rest, h1, h2⟩ := h
    have hnh : ¬ AsksHelp counterFlags args := by
      rw [← counter_kinds] at h1 h2 ⊢
      exact help_not_says counter_named (by decide) h1 h2
    have uniq : ∀ gs' rest', ArgsSay counterFlags args gs' rest' → gs = gs' ∧ rest = rest' := fun gs' rest' h' =>
      C103_unambiguous counterFlags (by rw [← counter_kinds]; exact name_of_kind counter_named) args rest rest' gs gs' h1 h'
    obtain ⟨f', h3, h4⟩ := parse_ok counter_named (by decide) (counter_kinds ▸ h1) (counter_kinds ▸ h2)
    have hl := settled_number_of h4 (name := b!"language") rfl
    generalize f'.int b!"language" = nli at hl
    obtain ⟨msg, hmsg⟩ : ∃ msg, TextOf gs b!"message" msg := ⟨_, rfl⟩
    have hprog := C103_counter args rest gs msg nli h1 h2 hmsg hl
    by_cases hm : msg = []
    · rw [(C89_printed msg nli).1 hm] at hprog
      refine ⟨_, hprog, by simp, ?_, ?_, ?_⟩
      · constructor
        · intro h; exact absurd rfl h
        · rintro ⟨gs', rest', msg', k1, k2, k3, k4⟩
          obtain ⟨rfl, _⟩ := uniq _ _ k1
          exact absurd (k3.trans (hmsg.symm.trans hm)) k4
      · simp [hnh]
      · simp only [hnh, not_false_eq_true, true_and]
        exact ⟨fun h => absurd h (by decide), fun h => absurd ⟨gs, _, h1, h2⟩ h⟩
    · obtain ⟨out, _, _, _, _, _, _, _, _, _, _, _, _, ho, _, _, hlines, _⟩ := (C89_printed msg nli).2 hm
      rw [ho] at hprog
      have hne : out ≠ [] := by rw [hlines.1]; simp
      refine ⟨_, hprog, by simp, ?_, ?_, ?_⟩
      · exact ⟨fun _ => ⟨gs, rest, msg, h1, h2, hmsg, hm⟩, fun _ => hne⟩
      · simp [hne]
      · simp only [hnh, not_false_eq_true, true_and]
        exact ⟨fun h => absurd h (by decide), fun h => absurd ⟨gs, _, h1, h2⟩ h⟩
  · obtain ⟨s, h1, h2, h3⟩ := (C103_refused args fun _ _ => []).2.1 h
    refine ⟨_, h1, by simp only; omega, ?_, ?_, ?_⟩
    · constructor
      · intro h; exact absurd rfl h
      · rintro ⟨gs', rest', msg', k1, k2, _⟩
        exact absurd ⟨gs', _, k1, k2⟩ h
    · simp [h3]
    · simp only [h, not_false_eq_true, and_true, ← h3]
      omega

/-- C104: smssubmit ends with status 0 exactly if it was given a number and a message, or asked for help. -/
theorem C104_submit (args : List Bytes) : ∃ e, SmsSubmit.program args = .ok e ∧ (e.status = 0 ∨ e.status = 1 ∨ e.status = 2) ∧
    (e.stdout ≠ [] ↔ ∃ gs rest number msg, ArgsSay submitFlags args gs rest ∧ Readable submitFlags gs ∧ TextOf gs b!"number" number ∧
      TextOf gs b!"message" msg ∧ number ≠ [] ∧ msg ≠ []) ∧
    (e.status = 0 ↔ AsksHelp submitFlags args ∨ e.stdout ≠ []) ∧
    (e.status = 2 ↔ ¬ AsksHelp submitFlags args ∧ ¬ ∃ gs rest, ArgsSay submitFlags args gs rest ∧ Readable submitFlags gs) := by
  by_cases h : ∃ gs rest, ArgsSay submitFlags args gs rest ∧ Readable submitFlags gs
  · obtain ⟨gs, rest, h1, h2⟩ := h
    have hnh : ¬ AsksHelp submitFlags args := by
      rw [← submit_kinds] at h1 h2 ⊢
      exact help_not_says submit_named (by decide) h1 h2
    have uniq : ∀ gs' rest', ArgsSay submitFlags args gs' rest' → gs = gs' ∧ rest = rest' := fun gs' rest' h' =>
      C103_unambiguous submitFlags (by rw [← submit_kinds]; exact name_of_kind submit_named) args rest rest' gs gs' h1 h'
    obtain ⟨f', h3, h4⟩ := parse_ok submit_named (by decide) (submit_kinds ▸ h1) (submit_kinds ▸ h2)
    have hl := settled_number_of h4 (name := b!"language") rfl
    generalize f'.int b!"language" = nli at hl
    obtain ⟨msg, hmsg⟩ : ∃ msg, TextOf gs b!"message" msg := ⟨_, rfl⟩
    obtain ⟨number, hnum⟩ : ∃ n, TextOf gs b!"number" n := ⟨_, rfl⟩
    have hprog := C103_submit args rest gs number msg nli h1 h2 hnum hmsg hl
    by_cases hm : number = [] ∨ msg = []
    · rw [(C65_usage number msg nli).1 hm] at hprog
      refine ⟨_, hprog, by simp, ?_, ?_, ?_⟩
      · constructor
        · intro h; exact absurd rfl h
        · rintro ⟨gs', rest', number', msg', k1, k2, k3, k4, k5, k6⟩
          obtain ⟨rfl, _⟩ := uniq _ _ k1
          rcases hm with hm | hm
          · exact absurd (k3.trans (hnum.symm.trans hm)) k5
          · exact absurd (k4.trans (hmsg.symm.trans hm)) k6
      · simp [hnh, SmsSubmit.stdout]
      · simp only [hnh, not_false_eq_true, true_and]
        exact ⟨fun h => absurd h (by simp), fun h => absurd ⟨gs, _, h1, h2⟩ h⟩
    · obtain ⟨lines, ho, hln⟩ := (C65_usage number msg nli).2 (fun e => hm (.inl e)) (fun e => hm (.inr e))
      rw [ho] at hprog
      have hne : SmsSubmit.stdout (.tpdus lines) ≠ [] := by
        rw [submit_stdout]
        match lines, hln with
        | l :: ls, _ => simp [blocks]
      refine ⟨_, hprog, by simp, ?_, ?_, ?_⟩
      · exact ⟨fun _ => ⟨gs, rest, number, msg, h1, h2, hnum, hmsg, fun e => hm (.inl e), fun e => hm (.inr e)⟩, fun _ => hne⟩
      · simp [hne]
      · simp only [hnh, not_false_eq_true, true_and]
        exact ⟨fun h => absurd h (by simp), fun h => absurd ⟨gs, _, h1, h2⟩ h⟩
  · obtain ⟨s, h1, h2, h3⟩ := (C103_refused args fun _ _ => []).1 h
    refine ⟨_, h1, by simp only; omega, ?_, ?_, ?_⟩
    · constructor
      · intro h; exact absurd rfl h
      · rintro ⟨gs', rest', number', msg', k1, k2, _⟩
        exact absurd ⟨gs', _, k1, k2⟩ h
    · simp [h3]
    · simp only [h, not_false_eq_true, and_true, ← h3]
      omega

/-- C104: but what it prints are TPDUs that bring the message exactly if the number is digits, at most 255, and the
text is UTF-8 and is sent in UCS-2 or has no U+001B: the whole program, from its arguments to its output. -/
theorem C104_submit_exact (args rest : List Bytes) (gs : List (Bytes × Bytes)) (number msg : Bytes) (nli : Int)
    (h : ArgsSay submitFlags args gs rest) (hr : Readable submitFlags gs)
    (hn : TextOf gs b!"number" number) (hm : TextOf gs b!"message" msg) (hl : NumberOf gs b!"language" nli)
    (hn0 : number ≠ []) (hm0 : msg ≠ []) :
    (∃ e ls wire qs, SmsSubmit.program args = .ok e ∧ e.status = 0 ∧ Lines e.stdout ls ∧ Spells (evenLines ls) wire ∧
      wire.map (fun b => Sms.Unmarshal b MO) = qs.map .ok ∧ Sms.Decode qs [] = .ok msg ∧
      ∀ q ∈ qs, q.SmsType = SmsSubmit ∧ q.DA = ⟨0x91, digitsOf number⟩) ↔
    Digits (digitsOf number) ∧ (digitsOf number).length ≤ 255 ∧ Utf8 msg ∧ (InSeptets (languageCharsets nli) msg → 0x1b ∉ msg) := by
  rw [← C96_exact number msg nli hn0 hm0, C103_submit args rest gs number msg nli h hr hn hm hl]
  obtain ⟨lines, ho, _⟩ := (C65_usage number msg nli).2 hn0 hm0
  rw [ho]
  constructor
  · rintro ⟨e, ls, wire, qs, he, _, k⟩
    cases he
    exact ⟨_, ls, wire, qs, rfl, k⟩
  · rintro ⟨out, ls, wire, qs, he, k⟩
    cases he
    exact ⟨_, ls, wire, qs, rfl, rfl, k⟩

/-- C104: the output of smssubmit is input for smsdecode: `smsdecode -o` ends with status 0 for every TPDU printed. -/
theorem C104_pipeline (args rest : List Bytes) (gs : List (Bytes × Bytes)) (number msg : Bytes) (nli : Int)
    (h : ArgsSay submitFlags args gs rest) (hr : Readable submitFlags gs)
    (hn : TextOf gs b!"number" number) (hm : TextOf gs b!"message" msg) (hl : NumberOf gs b!"language" nli)
    (hn0 : number ≠ []) (hm0 : msg ≠ []) (hd : Digits (digitsOf number)) (hd' : (digitsOf number).length ≤ 255) (hu : Utf8 msg)
    (he : InSeptets (languageCharsets nli) msg → 0x1b ∉ msg) :
    ∃ e ls, SmsSubmit.program args = .ok e ∧ Lines e.stdout ls ∧ evenLines ls ≠ [] ∧
      ∀ l ∈ evenLines ls, ∃ e', SmsDecode.program [b!"-o", l] = .ok e' ∧ e'.status = 0 ∧ e'.stdout ≠ [] := by
  obtain ⟨e, ls, wire, qs, h1, _, h3, h4, h5, h6, _⟩ :=
    (C104_submit_exact args rest gs number msg nli h hr hn hm hl hn0 hm0).2 ⟨hd, hd', hu, he⟩
  refine ⟨e, ls, h1, h3, ?_, fun l hl' => ?_⟩
  · intro hnil
    rw [hnil] at h4
    have hw : wire = [] := List.length_eq_zero_iff.1 h4.1.symm
    rw [hw] at h5
    have hq : qs = [] := by cases qs <;> simp_all
    rw [hq] at h6
    have : Sms.Decode [] [] = .ok [] := by decide
    rw [this] at h6
    cases h6
    exact hm0 rfl
  · obtain ⟨i, hi, rfl⟩ := List.mem_iff_getElem.1 hl'
    have hiw : i < wire.length := h4.1 ▸ hi
    have hx : HexText (evenLines ls)[i] wire[i] :=
      h4.2 ((evenLines ls)[i], wire[i]) (List.mem_iff_getElem.2 ⟨i, by rw [List.length_zip]; omega, by simp⟩)
    have hq : ∃ q, Sms.Unmarshal wire[i] MO = .ok q := by
      have : Sms.Unmarshal wire[i] MO ∈ wire.map (fun b => Sms.Unmarshal b MO) := List.mem_map.2 ⟨_, List.getElem_mem hiw, rfl⟩
      rw [h5] at this
      obtain ⟨q, _, hq⟩ := List.mem_map.1 this
      exact ⟨q, hq.symm⟩
    obtain ⟨q, hq⟩ := hq
    obtain ⟨e', k1, _, k2, k3, _⟩ := C104_decode [b!"-o", (evenLines ls)[i]]
    have hne := k2.2 ⟨[(b!"o", b!"true")], _, false, true, wire[i], q, .on (.inl rfl) rfl (.plain (hex_plain hx)), ?_, rfl, truth_true, ?_, hq⟩
    · exact ⟨e', k1, k3.2 (.inr hne), hne⟩
    · intro g hg
      rw [List.mem_singleton.1 hg]
      exact ⟨.switch, .bool true, rfl, .switch truth_true⟩
    · unfold Argument
      simpa using hx

/-- C104: unless it panics, smsdeliver ends with status 0 exactly if each argument is hex, with `-p` behind the
address of a service centre. -/
theorem C104_deliver (addr : Bytes → Nat → Bytes) (args rest : List Bytes) (gs : List (Bytes × Bytes)) (pm : Bool)
    (h : ArgsSay deliverFlags args gs rest) (hr : Readable deliverFlags gs) (hp : SwitchOf gs b!"p" pm) (e : Ended)
    (he : SmsDeliver.program addr args = .ok e) :
    (e.status = 0 ∨ e.status = 1) ∧ (e.status = 0 ↔ rest ≠ [] ∧ ∀ a ∈ rest, ∃ b, Argument pm a b) := by
  obtain ⟨h1, h2, h3⟩ := C103_deliver addr args rest gs pm h hr hp
  by_cases hrest : rest = []
  · rw [h1 hrest] at he
    cases he
    exact ⟨.inr rfl, by simp [hrest]⟩
  · cases hmain : SmsDeliver.main pm rest with
    | error f =>
      cases f with
      | panic k => rw [h3 hrest k hmain] at he; cases he
      | err x =>
        obtain ⟨ts, hts⟩ := C67_fed pm rest
        have := C67_exact pm rest ts hts
        rw [hmain] at this
        by_cases hc : Crashes none (ts.filterMap strayPart)
        · obtain ⟨k, hk⟩ := this.1.2 hc; cases hk
        · obtain ⟨k, hk⟩ := this.2.2 hc; cases hk
    | ok lines =>
      obtain ⟨s, k1, k2, k3⟩ := h2 hrest lines hmain
      rw [k1] at he
      cases he
      refine ⟨k2, ?_⟩
      have := fatal_iff pm rest _ lines hmain
      rw [this] at k3
      simp only
      constructor
      · intro hs
        refine ⟨hrest, fun a ha => ?_⟩
        by_cases hb : ∃ b, Argument pm a b
        · exact hb
        · have := k3.2 ⟨a, ha, fun b hb' => hb ⟨b, hb'⟩⟩
          omega
      · rintro ⟨_, hall⟩
        rcases k2 with k2 | k2
        · exact k2
        · obtain ⟨a, ha, hb⟩ := k3.1 k2
          obtain ⟨b, hb'⟩ := hall a ha
          exact absurd hb' (hb b)

/-- C104 is not so of smssubmit and smsdeliver: for a number that is not digits smssubmit prints an empty line and
ends with status 0, and so does smsdeliver, which prints nothing, for octets that are not a TPDU. -/
theorem C104_counterexample :
    SmsSubmit.program [b!"-number", b!"1x", b!"-message", b!"hi"] = .ok ⟨b!"Submit TPDU:\n\n", 0⟩ ∧
    ∀ addr, SmsDeliver.program addr [b!"03"] = .ok ⟨[], 0⟩ := by
  refine ⟨by decide +kernel, fun addr => ?_⟩
  have h : SmsDeliver.main false [b!"03"] = .ok [.unmarshalError (.decode "tpdu.firstOctet" 0 (.unsupportedSmsType 6))] := by decide +kernel
  have hp : Flag.Parse SmsDeliver.flags [b!"03"] = .ok (SmsDeliver.flags, [b!"03"]) := by decide +kernel
  unfold SmsDeliver.program
  rw [hp]
  simp only
  rw [if_neg (by simp), show SmsDeliver.flags.bool b!"p" = false from rfl, h]
  rfl

end Verif.Props
