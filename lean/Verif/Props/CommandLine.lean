import Verif.Proofs.CommandLine
import Verif.Props.CmdPrint
import Verif.Props.CounterPrint
import Verif.Props.CmdSafeExact
import Verif.Props.Dump

/-! C103: what a command line means.  C104: what the exit status tells. -/

namespace Verif.Props
open Verif.Model Verif.Spec Verif.Proofs
open Verif.Proofs.Cli (Named parse_iff parse_help args_scan parseInt_iff)

/-! Helpers. -/

theorem submit_named : Named SmsSubmit.flags := by
  intro name h
  simp only [SmsSubmit.flags, List.map_cons, List.map_nil, List.mem_cons, List.not_mem_nil, or_false] at h
  rcases h with rfl | rfl | rfl <;> exact ⟨_, _, rfl, by decide, by decide, by decide⟩

theorem counter_named : Named SmsCounter.flags := by
  intro name h
  simp only [SmsCounter.flags, List.map_cons, List.map_nil, List.mem_cons, List.not_mem_nil, or_false] at h
  rcases h with rfl | rfl <;> exact ⟨_, _, rfl, by decide, by decide, by decide⟩

theorem deliver_named : Named SmsDeliver.flags := by
  intro name h
  simp only [SmsDeliver.flags, List.map_cons, List.map_nil, List.mem_cons, List.not_mem_nil, or_false] at h
  rcases h with rfl <;> exact ⟨_, _, rfl, by decide, by decide, by decide⟩

theorem decode_named : Named SmsDecode.flags := by
  intro name h
  simp only [SmsDecode.flags, List.map_cons, List.map_nil, List.mem_cons, List.not_mem_nil, or_false] at h
  rcases h with rfl | rfl <;> exact ⟨_, _, rfl, by decide, by decide, by decide⟩

theorem submit_kinds : kinds SmsSubmit.flags = submitFlags := by
  funext name
  unfold kinds SmsSubmit.flags submitFlags
  simp only [List.lookup_cons, List.lookup_nil]
  by_cases h1 : name = b!"number"
  · subst h1; rfl
  by_cases h2 : name = b!"message"
  · subst h2; rfl
  by_cases h3 : name = b!"language"
  · subst h3; rfl
  simp only [beq_eq_false_iff_ne.2 h1, beq_eq_false_iff_ne.2 h2, beq_eq_false_iff_ne.2 h3, h1, h2, h3, or_self, if_false, Option.map_none]

theorem counter_kinds : kinds SmsCounter.flags = counterFlags := by
  funext name
  unfold kinds SmsCounter.flags counterFlags
  simp only [List.lookup_cons, List.lookup_nil]
  by_cases h2 : name = b!"message"
  · subst h2; rfl
  by_cases h3 : name = b!"language"
  · subst h3; rfl
  simp only [beq_eq_false_iff_ne.2 h2, beq_eq_false_iff_ne.2 h3, h2, h3, if_false, Option.map_none]

theorem deliver_kinds : kinds SmsDeliver.flags = deliverFlags := by
  funext name
  unfold kinds SmsDeliver.flags deliverFlags
  simp only [List.lookup_cons, List.lookup_nil]
  by_cases h2 : name = b!"p"
  · subst h2; rfl
  simp only [beq_eq_false_iff_ne.2 h2, h2, if_false, Option.map_none]

theorem decode_kinds : kinds SmsDecode.flags = decodeFlags := by
  funext name
  unfold kinds SmsDecode.flags decodeFlags
  simp only [List.lookup_cons, List.lookup_nil]
  by_cases h2 : name = b!"p"
  · subst h2; rfl
  by_cases h3 : name = b!"o"
  · subst h3; rfl
  simp only [beq_eq_false_iff_ne.2 h2, beq_eq_false_iff_ne.2 h3, h2, h3, or_self, if_false, Option.map_none]

/-- The value of a string flag. -/
theorem settled_text {f f' : Flag.FlagSet} {gs : List (Bytes × Bytes)} (h : Settled f gs f') {name : Bytes} (hf : f.lookup name = some (.string [])) {s : Bytes} (hs : TextOf gs name s) : f'.string name = s := by
  obtain ⟨v, hv, hm⟩ := h.2.2 name _ hf
  unfold Flag.FlagSet.string TextOf at *
  rw [hv, hs]
  cases hl : lastOf gs name with
  | none => rw [hl] at hm; subst hm; rfl
  | some t => rw [hl] at hm; cases hm; rfl

theorem settled_number {f f' : Flag.FlagSet} {gs : List (Bytes × Bytes)} (h : Settled f gs f') {name : Bytes} (hf : f.lookup name = some (.int 0)) {i : Int} (hs : NumberOf gs name i) : f'.int name = i := by
  obtain ⟨v, hv, hm⟩ := h.2.2 name _ hf
  unfold Flag.FlagSet.int NumberOf at *
  rw [hv]
  cases hl : lastOf gs name with
  | none => rw [hl] at hm hs; subst hm; exact hs.symm
  | some t =>
    rw [hl] at hm hs
    cases hm with
    | number h =>
      simp only at hs
      rw [← parseInt_iff] at h hs
      exact Option.some.inj (h.symm.trans hs)

theorem settled_switch {f f' : Flag.FlagSet} {gs : List (Bytes × Bytes)} (h : Settled f gs f') {name : Bytes} (hf : f.lookup name = some (.bool false)) {b : Bool} (hs : SwitchOf gs name b) : f'.bool name = b := by
  obtain ⟨v, hv, hm⟩ := h.2.2 name _ hf
  unfold Flag.FlagSet.bool SwitchOf at *
  rw [hv]
  cases hl : lastOf gs name with
  | none => rw [hl] at hm hs; subst hm; exact hs.symm
  | some t =>
    rw [hl] at hm hs
    cases hm with
    | switch h =>
      simp only at hs
      rw [← Cli.parseBool_iff] at h hs
      exact Option.some.inj (h.symm.trans hs)

/-- What was read of a number flag. -/
theorem settled_number_of {f f' : Flag.FlagSet} {gs : List (Bytes × Bytes)} (h : Settled f gs f') {name : Bytes} (hf : f.lookup name = some (.int 0)) : NumberOf gs name (f'.int name) := by
  obtain ⟨v, hv, hm⟩ := h.2.2 name _ hf
  unfold Flag.FlagSet.int NumberOf
  rw [hv]
  cases hl : lastOf gs name with
  | none => rw [hl] at hm; subst hm; rfl
  | some t =>
    rw [hl] at hm
    cases hm with
    | number h => exact h

theorem settled_switch_of {f f' : Flag.FlagSet} {gs : List (Bytes × Bytes)} (h : Settled f gs f') {name : Bytes} (hf : f.lookup name = some (.bool false)) : SwitchOf gs name (f'.bool name) := by
  obtain ⟨v, hv, hm⟩ := h.2.2 name _ hf
  unfold Flag.FlagSet.bool SwitchOf
  rw [hv]
  cases hl : lastOf gs name with
  | none => rw [hl] at hm; subst hm; rfl
  | some t =>
    rw [hl] at hm
    cases hm with
    | switch h => exact h

/-- Flags that can be read are read. -/
theorem parse_ok {f : Flag.FlagSet} (hf : Named f) (hn : (f.map Prod.fst).Nodup) {args rest : List Bytes} {gs : List (Bytes × Bytes)}
    (h : ArgsSay (kinds f) args gs rest) (hr : Readable (kinds f) gs) : ∃ f', Flag.Parse f args = .ok (f', rest) ∧ Settled f gs f' := by
  obtain ⟨f', h'⟩ := Cli.setAll_some gs f hr
  have := (Cli.setAll_iff hn).1 h'
  exact ⟨f', (parse_iff hf hn args rest).2 ⟨gs, h, this⟩, this⟩

theorem parse_error {f : Flag.FlagSet} (hf : Named f) (hn : (f.map Prod.fst).Nodup) {args : List Bytes}
    (h : ¬ ∃ gs rest, ArgsSay (kinds f) args gs rest ∧ Readable (kinds f) gs) :
    ∃ s, Flag.Parse f args = .error s ∧ (s = .help ↔ AsksHelp (kinds f) args) := by
  cases hp : Flag.Parse f args with
  | error s =>
    refine ⟨s, rfl, ?_⟩
    rw [← parse_help hf, hp]
    simp
  | ok r =>
    obtain ⟨f', rest⟩ := r
    obtain ⟨gs, h1, h2⟩ := (parse_iff hf hn args rest).1 hp
    exact absurd ⟨gs, rest, h1, h2.1⟩ h

theorem name_of_kind {f : Flag.FlagSet} (hf : Named f) (name : Bytes) (k : FlagKind) (h : kinds f name = some k) : FlagName name := by
  obtain ⟨v, hv, _⟩ := Cli.kinds_name h
  exact hf name (Cli.lookup_name f name v hv)

/-! C103. -/

/-- **C103**: the flags and the other arguments are read off the command line as they are written, the last of a name
counts, and a command line that is not written so is refused: for all sets of flags with different names. -/
theorem C103_grammar (f f' : Flag.FlagSet) (hf : ∀ name ∈ f.map Prod.fst, FlagName name) (hn : (f.map Prod.fst).Nodup)
    (args rest : List Bytes) :
    Flag.Parse f args = .ok (f', rest) ↔ ∃ gs, ArgsSay (kinds f) args gs rest ∧ Settled f gs f' :=
  parse_iff hf hn args rest

/-- C103: there is only one way to read a command line. -/
theorem C103_unambiguous (kind : Bytes → Option FlagKind) (hk : ∀ name k, kind name = some k → FlagName name) (args rest rest' : List Bytes)
    (gs gs' : List (Bytes × Bytes)) (h : ArgsSay kind args gs rest) (h' : ArgsSay kind args gs' rest') : gs = gs' ∧ rest = rest' := by
  have := (args_scan hk h).symm.trans (args_scan hk h')
  cases this
  exact ⟨rfl, rfl⟩

/-- C103: a command line that cannot be read ends the program before anything is printed, with status 2, or 0 if it
asks for help. -/
theorem C103_refused (args : List Bytes) (addr : Bytes → Nat → Bytes) :
    ((¬ ∃ gs rest, ArgsSay submitFlags args gs rest ∧ Readable submitFlags gs) →
      ∃ s, SmsSubmit.program args = .ok ⟨[], s⟩ ∧ (s = 0 ∨ s = 2) ∧ (s = 0 ↔ AsksHelp submitFlags args)) ∧
    ((¬ ∃ gs rest, ArgsSay counterFlags args gs rest ∧ Readable counterFlags gs) →
      ∃ s, SmsCounter.program args = .ok ⟨[], s⟩ ∧ (s = 0 ∨ s = 2) ∧ (s = 0 ↔ AsksHelp counterFlags args)) ∧
    ((¬ ∃ gs rest, ArgsSay deliverFlags args gs rest ∧ Readable deliverFlags gs) →
      ∃ s, SmsDeliver.program addr args = .ok ⟨[], s⟩ ∧ (s = 0 ∨ s = 2) ∧ (s = 0 ↔ AsksHelp deliverFlags args)) ∧
    ((¬ ∃ gs rest, ArgsSay decodeFlags args gs rest ∧ Readable decodeFlags gs) →
      ∃ s, SmsDecode.program args = .ok ⟨[], s⟩ ∧ (s = 0 ∨ s = 2) ∧ (s = 0 ↔ AsksHelp decodeFlags args)) := by
  have st : ∀ s : Flag.Stop, (s.status = 0 ∨ s.status = 2) ∧ (s.status = 0 ↔ s = .help) := by intro s; cases s <;> decide
  refine ⟨fun h => ?_, fun h => ?_, fun h => ?_, fun h => ?_⟩
  · rw [← submit_kinds] at h ⊢
    obtain ⟨s, h1, h2⟩ := parse_error submit_named (by decide) h
    exact ⟨s.status, by unfold SmsSubmit.program; rw [h1], (st s).1, (st s).2.trans h2⟩
  · rw [← counter_kinds] at h ⊢
    obtain ⟨s, h1, h2⟩ := parse_error counter_named (by decide) h
    exact ⟨s.status, by unfold SmsCounter.program; rw [h1], (st s).1, (st s).2.trans h2⟩
  · rw [← deliver_kinds] at h ⊢
    obtain ⟨s, h1, h2⟩ := parse_error deliver_named (by decide) h
    exact ⟨s.status, by unfold SmsDeliver.program; rw [h1], (st s).1, (st s).2.trans h2⟩
  · rw [← decode_kinds] at h ⊢
    obtain ⟨s, h1, h2⟩ := parse_error decode_named (by decide) h
    exact ⟨s.status, by unfold SmsDecode.program; rw [h1], (st s).1, (st s).2.trans h2⟩

/-- C103: smssubmit encodes the message given, for the number given, with the language given.  Their order, and how
they are written, do not matter. -/
theorem C103_submit (args rest : List Bytes) (gs : List (Bytes × Bytes)) (number msg : Bytes) (nli : Int)
    (h : ArgsSay submitFlags args gs rest) (hr : Readable submitFlags gs)
    (hn : TextOf gs b!"number" number) (hm : TextOf gs b!"message" msg) (hl : NumberOf gs b!"language" nli) :
    SmsSubmit.program args = (SmsSubmit.main number msg nli).map fun o => ⟨SmsSubmit.stdout o, if o = .usage then 1 else 0⟩ := by
  rw [← submit_kinds] at h hr
  obtain ⟨f', h1, h2⟩ := parse_ok submit_named (by decide) h hr
  unfold SmsSubmit.program
  rw [h1]
  simp only
  rw [settled_text h2 rfl hn, settled_text h2 rfl hm, settled_number h2 rfl hl]
  cases SmsSubmit.main number msg nli <;> rfl

/-- C103: and so does smscounter. -/
theorem C103_counter (args rest : List Bytes) (gs : List (Bytes × Bytes)) (msg : Bytes) (nli : Int)
    (h : ArgsSay counterFlags args gs rest) (hr : Readable counterFlags gs)
    (hm : TextOf gs b!"message" msg) (hl : NumberOf gs b!"language" nli) :
    SmsCounter.program args = (SmsCounter.main msg nli).map fun o => match o with
      | .printed out => ⟨out, 0⟩
      | _ => ⟨[], 1⟩ := by
  rw [← counter_kinds] at h hr
  obtain ⟨f', h1, h2⟩ := parse_ok counter_named (by decide) h hr
  unfold SmsCounter.program
  rw [h1]
  simp only
  rw [settled_text h2 rfl hm, settled_number h2 rfl hl]
  cases SmsCounter.main msg nli with
  | error f => rfl
  | ok o => cases o <;> rfl

/-- C103: smsdeliver reads all arguments behind the flags. -/
theorem C103_deliver (addr : Bytes → Nat → Bytes) (args rest : List Bytes) (gs : List (Bytes × Bytes)) (pm : Bool)
    (h : ArgsSay deliverFlags args gs rest) (hr : Readable deliverFlags gs) (hp : SwitchOf gs b!"p" pm) :
    (rest = [] → SmsDeliver.program addr args = .ok ⟨[], 1⟩) ∧
    (rest ≠ [] → ∀ lines, SmsDeliver.main pm rest = .ok lines →
      ∃ status, SmsDeliver.program addr args = .ok ⟨SmsDeliver.stdout addr lines, status⟩ ∧ (status = 0 ∨ status = 1) ∧
        (status = 1 ↔ ∃ e, .fatal e ∈ lines)) ∧
    (rest ≠ [] → ∀ k, SmsDeliver.main pm rest = .error (.panic k) → SmsDeliver.program addr args = .error (.panic k)) := by
  rw [← deliver_kinds] at h hr
  obtain ⟨f', h1, h2⟩ := parse_ok deliver_named (by decide) h hr
  unfold SmsDeliver.program
  rw [h1]
  simp only
  refine ⟨fun he => by rw [if_pos he], fun he lines hl => ?_, fun he k hk => ?_⟩
  · rw [if_neg he, settled_switch h2 rfl hp, hl]
    refine ⟨_, rfl, by split <;> simp, ?_⟩
    have : (lines.any (fun l => match l with | .fatal _ => true | _ => false) = true) ↔ ∃ e, .fatal e ∈ lines := by
      rw [List.any_eq_true]
      constructor
      · rintro ⟨l, hl, hx⟩
        cases l with
        | fatal e => exact ⟨e, hl⟩
        | _ => cases hx
      · rintro ⟨e, he⟩
        exact ⟨_, he, rfl⟩
    rw [← this]
    split
    · rename_i h; exact ⟨fun _ => h, fun _ => rfl⟩
    · rename_i h; exact ⟨fun h' => absurd h' (by decide), fun h' => absurd h' h⟩
  · rw [if_neg he, settled_switch h2 rfl hp, hk]
    rfl

/-- C103: smsdecode wants one argument behind the flags. -/
theorem C103_decode (args rest : List Bytes) (gs : List (Bytes × Bytes)) (pm mo : Bool)
    (h : ArgsSay decodeFlags args gs rest) (hr : Readable decodeFlags gs) (hp : SwitchOf gs b!"p" pm) (ho : SwitchOf gs b!"o" mo) :
    (rest.length ≠ 1 → SmsDecode.program args = .ok ⟨[], 1⟩) ∧
    (∀ s, rest = [s] → SmsDecode.program args = (SmsDecode.text s pm mo).map fun r => match r with
      | .ok out => ⟨out, 0⟩
      | .error _ => ⟨[], 1⟩) := by
  rw [← decode_kinds] at h hr
  obtain ⟨f', h1, h2⟩ := parse_ok decode_named (by decide) h hr
  unfold SmsDecode.program
  rw [h1]
  refine ⟨fun he => ?_, ?_⟩
  · match rest, he with
    | [], _ => rfl
    | [x], he => exact absurd rfl he
    | _ :: _ :: _, _ => rfl
  · rintro s rfl
    simp only
    rw [settled_switch h2 rfl hp, settled_switch h2 rfl ho]
    cases SmsDecode.text s pm mo with
    | error f => rfl
    | ok o => cases o <;> rfl

/-! Helpers: hex is not a flag, decimal numbers are numbers. -/

theorem hex_plain {a b : Bytes} (h : HexText a b) : ∀ c s, a ≠ 0x2d :: c :: s := by
  rintro c s rfl
  cases h with
  | cons h1 =>
    rcases h1 with h1 | h1
    · have := List.mem_of_getElem? h1; revert this; decide
    · have := List.mem_of_getElem? h1; revert this; decide

theorem argument_hex {pm : Bool} {a b : Bytes} (h : Argument pm a b) : ∃ o, HexText a o := by
  unfold Argument at h
  cases pm with
  | false => exact ⟨b, by simpa using h⟩
  | true =>
    rw [if_pos rfl] at h
    rcases h with h | ⟨toa, addr, _, h⟩
    · exact ⟨_, h⟩
    · exact ⟨_, h⟩

theorem truth_true : Truth b!"true" true := by unfold Truth; decide

theorem moreDigits_fold (ds : Bytes) (h : ∀ c ∈ ds, 0x30 ≤ c ∧ c ≤ 0x39) : ∀ n,
    MoreDigits 10 n ds (ds.foldl (fun a d => 10 * a + (d.toNat - 48)) n) := by
  induction ds with
  | nil => intro n; exact .nil
  | cons c ds ih =>
    intro n
    obtain ⟨h1, h2⟩ := h c (by simp)
    have h3 : 48 ≤ c.toNat := h1
    have h4 : c.toNat ≤ 57 := h2
    refine .digit (d := c.toNat - 48) (.inl ⟨by omega, ?_⟩) (by omega) ?_
    · rw [show 0x30 + (c.toNat - 48) = c.toNat by omega, UInt8.ofNat_toNat]
    · rw [List.foldl_cons, Nat.mul_comm n 10]
      exact ih (fun c hc => h c (by simp [hc])) _

theorem decimalAux_head (fuel : Nat) : ∀ n, 0 < n → n ≤ fuel → (decimalAux fuel n).head? ≠ some 0x30 := by
  induction fuel with
  | zero => intro n h1 h2; omega
  | succ fuel ih =>
    intro n h1 h2
    rw [decimalAux]
    split
    · intro h
      simp only [List.head?_cons, Option.some.injEq] at h
      have := congrArg UInt8.toNat h
      simp only [UInt8.toNat_ofNat', UInt8.reduceToNat] at this
      omega
    · have := ih (n / 10) (by omega) (by omega)
      cases hd : decimalAux fuel (n / 10) with
      | nil =>
        exfalso
        cases fuel with
        | zero => rw [decimalAux] at hd; cases hd
        | succ k => rw [decimalAux] at hd; split at hd <;> simp at hd
      | cons x xs => rw [hd] at this; simpa using this

theorem decimal_magnitude (n : Nat) : Magnitude (decimal n) n := by
  by_cases h0 : n = 0
  · subst h0; exact .zero .nil
  · have hw := Print.writes_decimal n
    have hh := decimalAux_head n n (by omega) (Nat.le_refl _)
    change (decimal n).head? ≠ some 0x30 at hh
    match hd : decimal n with
    | [] => exact absurd hd hw.1
    | c :: ds =>
      rw [hd] at hw hh
      obtain ⟨_, h1, h2⟩ := hw
      have hm := moreDigits_fold (c :: ds) h1 0
      have hv : (c :: ds).foldl (fun a d => 10 * a + (d.toNat - 48)) 0 = n := h2
      rw [hv] at hm
      cases hm with
      | @digit _ _ d _ _ hd1 hd2 hd3 =>
        refine .decimal hd1 hd2 ?_ (by simpa using hd3)
        rintro rfl
        rcases hd1 with ⟨_, rfl⟩ | ⟨h, _⟩
        · exact hh rfl
        · omega
      | underscore => exact absurd (h1 0x5f (by simp)) (by decide)

/-- C103: the PDUs, which are hex, are never taken for flags: `-p` in front of them is the switch, and they are all
read, as they are. -/
theorem C103_pdus (addr : Bytes → Nat → Bytes) (pm mo : Bool) (a o : Bytes) (rest : List Bytes) (h : HexText a o) :
    ArgsSay deliverFlags ((if pm then [b!"-p"] else []) ++ a :: rest) (if pm then [(b!"p", b!"true")] else []) (a :: rest) ∧
    (∀ lines, SmsDeliver.main pm (a :: rest) = .ok lines →
      (SmsDeliver.program addr ((if pm then [b!"-p"] else []) ++ a :: rest)).map (·.stdout) = .ok (SmsDeliver.stdout addr lines)) ∧
    SmsDecode.program ((if pm then [b!"-p"] else []) ++ (if mo then [b!"-o"] else []) ++ [a]) =
      (SmsDecode.text a pm mo).map fun r => match r with
        | .ok out => ⟨out, 0⟩
        | .error _ => ⟨[], 1⟩ := by
  have hplain := hex_plain h
  have h1 : ArgsSay deliverFlags ((if pm then [b!"-p"] else []) ++ a :: rest) (if pm then [(b!"p", b!"true")] else []) (a :: rest) := by
    cases pm
    · exact .plain hplain
    · exact .on (.inl rfl) rfl (.plain hplain)
  refine ⟨h1, ?_, ?_⟩
  · intro lines hl
    obtain ⟨s, hs, _⟩ := (C103_deliver addr _ _ _ pm h1 (by
      cases pm
      · intro g hg; simp at hg
      · intro g hg
        simp only [if_true, List.mem_singleton] at hg
        subst hg
        exact ⟨.switch, .bool true, rfl, .switch truth_true⟩) (by
      cases pm
      · rfl
      · exact truth_true)).2.1 (by simp) lines hl
    rw [hs]; rfl
  · have h2 : ArgsSay decodeFlags ((if pm then [b!"-p"] else []) ++ (if mo then [b!"-o"] else []) ++ [a])
        ((if pm then [(b!"p", b!"true")] else []) ++ (if mo then [(b!"o", b!"true")] else [])) [a] := by
      cases pm <;> cases mo
      · exact .plain hplain
      · exact .on (.inl rfl) rfl (.plain hplain)
      · exact .on (.inl rfl) rfl (.plain hplain)
      · exact .on (.inl rfl) rfl (.on (.inl rfl) rfl (.plain hplain))
    refine (C103_decode _ _ _ pm mo h2 ?_ ?_ ?_).2 a rfl
    · intro g hg
      have : g = (b!"p", b!"true") ∨ g = (b!"o", b!"true") := by
        cases pm <;> cases mo <;> simp at hg <;> simp_all
      rcases this with rfl | rfl
      · exact ⟨.switch, .bool true, rfl, .switch truth_true⟩
      · exact ⟨.switch, .bool true, rfl, .switch truth_true⟩
    · cases pm <;> cases mo <;> first | rfl | exact truth_true
    · cases pm <;> cases mo <;> first | rfl | exact truth_true

/-- C103: whatever octets the number and the message are, dashes and equals signs included, smssubmit gets them, in
either order; and whatever number of 64 bits the language is, in decimal. -/
theorem C103_any_message (number msg : Bytes) (nli : Int) (hlo : -2 ^ 63 ≤ nli) (hhi : nli < 2 ^ 63) :
    let ends : M SmsSubmit.Out → M Ended := fun r => r.map fun o => ⟨SmsSubmit.stdout o, if o = .usage then 1 else 0⟩
    SmsSubmit.program [b!"-number", number, b!"-message", msg] = ends (SmsSubmit.main number msg 0) ∧
    SmsSubmit.program [b!"-message", msg, b!"-number", number] = ends (SmsSubmit.main number msg 0) ∧
    SmsSubmit.program [b!"--message=" ++ msg, b!"--number=" ++ number] = ends (SmsSubmit.main number msg 0) ∧
    SmsSubmit.program [b!"-language", SmsCounter.showInt nli, b!"-number", number, b!"-message", msg] = ends (SmsSubmit.main number msg nli) := by
  have text : ∀ v : Bytes, Means .text v (.string v) := fun v => .text
  have num : Numeral (SmsCounter.showInt nli) nli := by
    unfold SmsCounter.showInt
    split
    · rename_i h
      have := Numeral.minus (decimal_magnitude nli.natAbs) (by omega)
      rwa [show -(nli.natAbs : Int) = nli by omega] at this
    · rename_i h
      have := Numeral.plain (decimal_magnitude nli.natAbs) (by omega)
      rwa [show (nli.natAbs : Int) = nli by omega] at this
  refine ⟨?_, ?_, ?_, ?_⟩
  · refine C103_submit _ [] [(b!"number", number), (b!"message", msg)] number msg 0 (.next (.inl rfl) (k := .text) rfl (by decide) (.next (.inl rfl) (k := .text) rfl (by decide) .none)) ?_ rfl rfl rfl
    intro g hg
    simp only [List.mem_cons, List.not_mem_nil, or_false] at hg
    rcases hg with rfl | rfl <;> exact ⟨.text, _, rfl, text _⟩
  · refine C103_submit _ [] [(b!"message", msg), (b!"number", number)] number msg 0 (.next (.inl rfl) (k := .text) rfl (by decide) (.next (.inl rfl) (k := .text) rfl (by decide) .none)) ?_ rfl rfl rfl
    intro g hg
    simp only [List.mem_cons, List.not_mem_nil, or_false] at hg
    rcases hg with rfl | rfl <;> exact ⟨.text, _, rfl, text _⟩
  · refine C103_submit _ [] [(b!"message", msg), (b!"number", number)] number msg 0
      (.equals (name := b!"message") (.inr rfl) (k := .text) rfl (.equals (name := b!"number") (.inr rfl) (k := .text) rfl .none)) ?_ rfl rfl rfl
    intro g hg
    simp only [List.mem_cons, List.not_mem_nil, or_false] at hg
    rcases hg with rfl | rfl <;> exact ⟨.text, _, rfl, text _⟩
  · refine C103_submit _ [] [(b!"language", SmsCounter.showInt nli), (b!"number", number), (b!"message", msg)] number msg nli
      (.next (.inl rfl) (k := .number) rfl (by decide) (.next (.inl rfl) (k := .text) rfl (by decide) (.next (.inl rfl) (k := .text) rfl (by decide) .none))) ?_ rfl rfl num
    intro g hg
    simp only [List.mem_cons, List.not_mem_nil, or_false] at hg
    rcases hg with rfl | rfl | rfl
    · exact ⟨.number, _, rfl, .number num⟩
    · exact ⟨.text, _, rfl, text _⟩
    · exact ⟨.text, _, rfl, text _⟩

/-- Beside C103: the last number counts; a number may begin with a dash. -/
example : ArgsSay submitFlags [b!"-number", b!"1", b!"--number=-2", b!"-message", b!"--", b!"x"]
      [(b!"number", b!"1"), (b!"number", b!"-2"), (b!"message", b!"--")] [b!"x"] :=
  .next (.inl rfl) (k := .text) rfl (by decide) (.equals (name := b!"number") (.inr rfl) (k := .text) rfl
    (.next (.inl rfl) (k := .text) rfl (by decide) (.plain (by intro c s h; cases h))))

/-- C103, what may surprise: a language in decimal digits with a zero in front is not the number that the digits write, and a
switch behind a PDU is taken for a PDU. -/
theorem C103_traps :
    SmsSubmit.program [b!"-language", b!"010", b!"-number", b!"1", b!"-message", [0xe0, 0xa4, 0x85]] =
      SmsSubmit.program [b!"-language", b!"8", b!"-number", b!"1", b!"-message", [0xe0, 0xa4, 0x85]] ∧
    SmsSubmit.program [b!"-language", b!"09", b!"-number", b!"1", b!"-message", b!"x"] = .ok ⟨[], 2⟩ ∧
    ∀ addr, SmsDeliver.program addr [b!"000191f10000111010000000000141", b!"-p"] = .ok ⟨b!"+1: A\n", 1⟩ := by
  refine ⟨by decide +kernel, by decide +kernel, fun addr => ?_⟩
  have h : SmsDeliver.main false [b!"000191f10000111010000000000141", b!"-p"] =
      .ok [.message b!"+1" b!"A", .fatal (.hexInvalidByte 0x2d)] := by decide +kernel
  have hp : Flag.Parse SmsDeliver.flags [b!"000191f10000111010000000000141", b!"-p"] =
      .ok (SmsDeliver.flags, [b!"000191f10000111010000000000141", b!"-p"]) := by decide +kernel
  unfold SmsDeliver.program
  rw [hp]
  simp only
  rw [if_neg (by simp), show SmsDeliver.flags.bool b!"p" = false from rfl, h]
  rfl

end Verif.Props
