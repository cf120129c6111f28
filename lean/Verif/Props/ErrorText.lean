import Verif.Proofs.ErrorText
import Verif.Proofs.Utf8
import Verif.Props.Failures
import Verif.Props.MarshalFault

/-! C91: the texts of errors. -/

namespace Verif.Props
open Verif.Model Verif.Model.Unicode Verif.Model.Charsets Verif.Model.SmsCounter Verif.Proofs Verif.Proofs.Print Verif.Proofs.Text Verif.Spec

theorem text_inj : ∀ (e e' : Err), Named e → Named e' → e.Error = e'.Error → e = e' := by
  intro e
  induction e with
  | unsupportedSmsType st =>
    intro e' _ _ h
    have hk := kind_eq h
    cases e' <;> first | cases hk | skip
    rw [UInt8.toNat_inj.1 (hexNat_inj (List.append_cancel_left h))]
  | bcdInvalidOctet b =>
    intro e' _ _ h
    have hk := kind_eq h
    cases e' <;> first | cases hk | skip
    rw [Text.hex02_inj (List.append_cancel_left h)]
  | bcdInvalidInteger i =>
    intro e' _ _ h
    have hk := kind_eq h
    cases e' <;> first | cases hk | skip
    rw [showInt_inj (List.append_cancel_left h)]
  | semiInvalidDigit b =>
    intro e' _ _ h
    have hk := kind_eq h
    cases e' <;> first | cases hk | skip
    have h := List.append_cancel_left h
    rw [List.append_assoc, List.append_assoc] at h
    rw [UInt8.toNat_inj.1 (hexNat_inj (List.append_cancel_left (rune_split h)))]
  | gsm7InvalidSeptet b =>
    intro e' _ _ h
    have hk := kind_eq h
    cases e' <;> first | cases hk | skip
    rw [Text.hex02_inj (List.append_cancel_left h)]
  | gsm7InvalidUTF8 r =>
    intro e' _ _ h
    have hk := kind_eq h
    cases e' <;> first | cases hk | skip
    have h := List.append_cancel_left h
    simp only [List.append_assoc] at h
    rw [hexU_inj (List.append_cancel_right (List.append_cancel_left (rune_split h)))]
  | ucs2Dangling bs =>
    intro e' _ _ h
    have hk := kind_eq h
    cases e' <;> first | cases hk | skip
    rw [goBytes_inj (List.append_cancel_left h)]
  | decode f o e ih =>
    intro e' hn hn' h
    have hk := kind_eq h
    cases e' <;> first | cases hk | skip
    have h := List.append_cancel_left h
    simp only [List.append_assoc] at h
    obtain ⟨h1, _, h⟩ := split_span IsField _ _ 0x20 0x20 _ _ (octets_field hn.1) (octets_field hn'.1) (by simp [IsField]) (by simp [IsField]) h
    have h := List.append_cancel_left (as := b!"at octet ") h
    obtain ⟨h2, _, h⟩ := split_digits _ _ 0x3a 0x3a _ _ (decimal_digits _) (decimal_digits _) (by decide) (by decide) h
    have h := (List.cons.inj h).2
    have h2 := congrArg Key.value h2
    rw [decimal_value, decimal_value] at h2
    rw [octets_inj hn.1 hn'.1 h1, h2, ih _ hn.2 hn'.2 h]
  | encode f e ih =>
    intro e' hn hn' h
    have hk := kind_eq h
    cases e' <;> first | cases hk | skip
    have h := List.append_cancel_left h
    simp only [List.append_assoc] at h
    obtain ⟨h1, _, h⟩ := split_span IsField _ _ 0x3a 0x3a _ _ (octets_field hn.1) (octets_field hn'.1) (by simp [IsField]) (by simp [IsField]) h
    have h := (List.cons.inj h).2
    rw [octets_inj hn.1 hn'.1 h1, ih _ hn.2 hn'.2 h]
  | hexInvalidByte b =>
    intro e' _ _ h
    have hk := kind_eq h
    cases e' <;> first | cases hk | skip
    have h := List.append_cancel_left h
    have hl : ∀ b : UInt8, (hexU b.toNat).length = 4 := by apply forall_u8; decide +kernel
    have := (List.append_inj h (by rw [hl, hl])).1
    rw [UInt8.toNat_inj.1 (hexU_inj this)]
  | _ =>
    intro e' _ _ h
    have hk := kind_eq h
    cases e' <;> first | cases hk | skip
    all_goals rfl

/-- C91: two errors whose fields have names of letters, digits and dots have the same text if and only if they are the same error. -/
theorem C91_exact (e e' : Err) (h : Named e) (h' : Named e') : e.Error = e'.Error ↔ e = e' :=
  ⟨text_inj e e' h h', fun h => by rw [h]⟩

instance (f : String) : Decidable (FieldName f) := by unfold FieldName; infer_instance

theorem cause_named {k : Cause} {c : Err} (h : k.Is c) : Named c := by
  cases k <;> simp only [Cause.Is] at h <;> first | (subst h; trivial) | (obtain ⟨_, rfl, _⟩ := h; trivial)

theorem fields_named (name : String) (h : name ∈ sixNames) (u : Bool) (v : Nat) (hv : v < 4) :
    ∀ p ∈ failures name u v, FieldName (name ++ "." ++ p.1) := by
  have : ∀ name ∈ sixNames, ∀ u : Bool, (∀ p ∈ failures name u 0, FieldName (name ++ "." ++ p.1)) ∧
      (∀ p ∈ failures name u 1, FieldName (name ++ "." ++ p.1)) ∧ (∀ p ∈ failures name u 2, FieldName (name ++ "." ++ p.1)) ∧
      ∀ p ∈ failures name u 3, FieldName (name ++ "." ++ p.1) := by decide +kernel
  obtain ⟨h0, h1, h2, h3⟩ := this name h u
  rcases v with _ | _ | _ | _ | v
  · exact h0
  · exact h1
  · exact h2
  · exact h3
  · omega

theorem unmarshal_named (d : Int) (hd : d = 0 ∨ d = 1) (src : List UInt8) (e : Err) (h : Sms.Unmarshal src d = .error (.err e)) : Named e := by
  rcases C90_total d hd src with ⟨t, h1⟩ | ⟨_, h1⟩ | ⟨_, _, st, _, _, h1⟩ | ⟨fo, body, name, f, o, c, rfl, hn, h1⟩
  · rw [h1] at h; cases h
  · rw [h1] at h; cases h; exact ⟨by decide +kernel, trivial⟩
  · rw [h1] at h; cases h; exact ⟨by decide +kernel, trivial⟩
  · obtain ⟨p, hp, h2, hc⟩ := (C90_exact d hd fo name hn _ _).1 ⟨body, o, h1⟩
    rw [h1] at h; cases h
    rw [h2]
    exact ⟨fields_named name (six_names hd hn) _ _ (by unfold vpfOf; omega) p hp, cause_named hc⟩

/-- The fields that `fault` names. -/
def faultFields : List String :=
  ["oa.addr", "da.addr", "ra.addr", "scts", "dt", "ud.alphabet", "ud.sm", "vp", "vp.fi", "vp.enhanced", "vp.vpf"]

/-- Errors that are not `EncodeError` or `DecodeError`. -/
def Flat (e : Err) : Prop := ∀ f o c, e ≠ .decode f o c ∧ e ≠ .encode f c

theorem Flat.named {e : Err} (h : Flat e) : Named e := by
  cases e <;> first | trivial | exact absurd rfl (h _ 0 _).2 | exact absurd rfl (h _ _ _).1

/-- What the fault functions return. -/
def Plain (o : Option (String × Err)) : Prop := ∀ p, o = some p → p.1 ∈ faultFields ∧ Flat p.2

theorem Plain.or {a b : Option (String × Err)} (ha : Plain a) (hb : Plain b) : Plain (a <|> b) := by
  rcases a with _ | a
  · exact hb
  · exact ha

theorem plain_addr (f : String) (hf : f ++ ".addr" ∈ faultFields) (a : Address) : Plain (addrIn f a) := by
  intro p h
  obtain ⟨e, he, rfl⟩ := Option.map_eq_some_iff.1 h
  refine ⟨hf, ?_⟩
  unfold addrFault at he
  split at he
  · obtain ⟨r, _, rfl⟩ := Option.map_eq_some_iff.1 he; intro _ _ _; exact ⟨nofun, nofun⟩
  · obtain ⟨r, _, rfl⟩ := Option.map_eq_some_iff.1 he; intro _ _ _; exact ⟨nofun, nofun⟩

theorem plain_time (f : String) (hf : f ∈ faultFields) (t : GoTime) : Plain (timeIn f t) := by
  intro p h
  obtain ⟨e, he, rfl⟩ := Option.map_eq_some_iff.1 h
  obtain ⟨i, rfl⟩ := timeFault_bcd he
  exact ⟨hf, fun _ _ _ => ⟨nofun, nofun⟩⟩

theorem plain_ud (t : TPDU) : Plain (udFault t) := by
  intro p h
  unfold udFault at h
  split at h
  · cases h; exact ⟨by decide +kernel, fun _ _ _ => ⟨nofun, nofun⟩⟩
  split at h
  · cases h; exact ⟨by decide +kernel, fun _ _ _ => ⟨nofun, nofun⟩⟩
  · cases h

theorem plain_opt (t : TPDU) : Plain (optFault t) := by
  unfold optFault
  split
  · exact plain_ud t
  · exact nofun

theorem plain_vp (v : ValidityPeriod) : Plain (vpFault v) := by
  intro p h
  unfold vpFault at h
  split at h
  · cases h
  split at h
  · obtain ⟨e, he, rfl⟩ := Option.map_eq_some_iff.1 h
    obtain ⟨i, rfl⟩ := timeFault_bcd he
    exact ⟨show "vp" ∈ faultFields by decide +kernel, fun _ _ _ => ⟨nofun, nofun⟩⟩
  split at h
  · split at h
    · cases h; exact ⟨by decide +kernel, fun _ _ _ => ⟨nofun, nofun⟩⟩
    split at h
    · obtain ⟨e, he, rfl⟩ := Option.map_eq_some_iff.1 h
      unfold hmsFault at he
      split at he
      · obtain ⟨n, _, rfl⟩ := Option.map_eq_some_iff.1 he
        exact ⟨show "vp.enhanced" ∈ faultFields by decide +kernel, fun _ _ _ => ⟨nofun, nofun⟩⟩
      · cases he
    · cases h
  · cases h; exact ⟨by decide +kernel, fun _ _ _ => ⟨nofun, nofun⟩⟩

theorem plain_fault (name : String) (t : TPDU) : Plain (fault name t) := by
  unfold fault
  split
  · exact (plain_addr _ (by decide +kernel) _).or ((plain_time _ (by decide +kernel) _).or (plain_ud t))
  split
  · exact plain_opt t
  split
  · exact (plain_time _ (by decide +kernel) _).or (plain_opt t)
  split
  · exact (plain_addr _ (by decide +kernel) _).or ((plain_ud t).or (plain_vp _))
  split
  · exact (plain_addr _ (by decide +kernel) _).or ((plain_time _ (by decide +kernel) _).or ((plain_time _ (by decide +kernel) _).or (plain_opt t)))
  split
  · exact plain_addr _ (by decide +kernel) _
  · exact nofun

theorem lookup_names {st : UInt8} {name : String} (h : typeNames.lookup st = some name) : name ∈ typeNames.map (·.2) :=
  List.mem_map.2 ⟨(st, name), lookup_mem h, rfl⟩

theorem marshal_named (t : TPDU) (e : Err) (h : t.MarshalBinary = .error (.err e)) : Named e := by
  rcases (C92_exact t e).1 h with ⟨_, rfl⟩ | ⟨name, f, c, hn, hf, rfl⟩
  · trivial
  · obtain ⟨h1, h2⟩ := plain_fault name t _ hf
    have : ∀ name ∈ typeNames.map (·.2), ∀ f ∈ faultFields, FieldName (name ++ "." ++ f) := by decide +kernel
    exact ⟨this _ (lookup_names hn) _ h1, h2.named⟩

/-- C91: two inputs for which `Unmarshal` fails get the same text if and only if they get the same error. -/
theorem C91_unmarshal (d d' : Int) (hd : d = 0 ∨ d = 1) (hd' : d' = 0 ∨ d' = 1) (src src' : List UInt8) (e e' : Err)
    (h : Sms.Unmarshal src d = .error (.err e)) (h' : Sms.Unmarshal src' d' = .error (.err e')) : e.Error = e'.Error ↔ e = e' :=
  C91_exact e e' (unmarshal_named d hd src e h) (unmarshal_named d' hd' src' e' h')

/-- C91: the same of `MarshalBinary`. -/
theorem C91_marshal (t t' : TPDU) (e e' : Err) (h : t.MarshalBinary = .error (.err e)) (h' : t'.MarshalBinary = .error (.err e')) :
    e.Error = e'.Error ↔ e = e' :=
  C91_exact e e' (marshal_named t e h) (marshal_named t' e' h')

private theorem utf8_ascii (l : Bytes) (h : ∀ c ∈ l, c.toNat ≤ 0x7f) : Utf8 l := by
  refine ⟨l.map ([·]), ?_, ?_⟩
  · intro c hc
    obtain ⟨x, hx, rfl⟩ := List.mem_map.1 hc
    exact h x hx
  · induction l with
    | nil => rfl
    | cons x l ih => simp [← ih (fun c hc => h c (by simp [hc]))]

private theorem rune_utf8 (r : Nat) : Utf8 (encodeRune r) := ⟨[encodeRune r], by simpa using encodeRune_char r, by simp⟩

private theorem hexNat_utf8 (n : Nat) : Utf8 (hexNat n) := by
  refine utf8_ascii _ (fun c hc => ?_)
  obtain ⟨k, hk, rfl⟩ := hexNat_digits n c hc
  exact (by decide : ∀ k < 16, (hexDig k).toNat ≤ 0x7f) k hk

private theorem hex02_utf8 (b : UInt8) : Utf8 (hex02 b) := by
  refine utf8_ascii _ (fun c hc => ?_)
  have hb := b.toNat_lt
  simp only [hex02, List.mem_cons, List.not_mem_nil, or_false] at hc
  have := (by decide : ∀ k < 16, (hexDig k).toNat ≤ 0x7f)
  rcases hc with rfl | rfl
  · exact this _ (by omega)
  · exact this _ (by omega)

private theorem hexU_utf8 (n : Nat) : Utf8 (hexU n) := by
  refine utf8_ascii _ (fun c hc => ?_)
  obtain ⟨k, hk, rfl⟩ := hexU_chars n c hc
  exact (by decide : ∀ k < 16, (upDig (hexDig k)).toNat ≤ 0x7f) k hk

private theorem goBytes_utf8 : ∀ l : Bytes, Utf8 (goBytes l)
  | [] => utf8_ascii _ (by decide)
  | [x] => by
    rw [goBytes]
    exact utf8_append (utf8_append (utf8_ascii _ (by decide)) (hexNat_utf8 _)) (utf8_ascii _ (by decide))
  | x :: y :: l => by
    rw [goBytes]
    · exact utf8_append (utf8_append (utf8_append (utf8_ascii _ (by decide)) (hexNat_utf8 _)) (utf8_ascii _ (by decide)))
        (goBytes_utf8 (y :: l))
    · simp

private theorem decimalAux_ascii : ∀ (f n : Nat), ∀ c ∈ decimalAux f n, c.toNat ≤ 0x7f
  | 0, n => by
    intro c hc
    simp only [decimalAux, List.mem_singleton] at hc
    subst hc
    simp; omega
  | f + 1, n => by
    intro c hc
    rw [decimalAux] at hc
    split at hc
    · simp only [List.mem_singleton] at hc; subst hc; simp; omega
    · rcases List.mem_append.1 hc with hc | hc
      · exact decimalAux_ascii f _ c hc
      · simp only [List.mem_singleton] at hc; subst hc; simp; omega

private theorem decimal_utf8 (n : Nat) : Utf8 (decimal n) := utf8_ascii _ (decimalAux_ascii n n)

private theorem octets_utf8 (f : String) (h : FieldName f) : Utf8 (SmsCounter.octets f) := by
  refine utf8_ascii _ (fun c hc => ?_)
  obtain ⟨x, hx, rfl⟩ := List.mem_map.1 hc
  have := (fieldName_char (h x hx)).1
  simp; omega

/-- C91: the text of every error is UTF-8, whatever octets and runes it speaks of. -/
theorem C91_utf8 (e : Err) (h : Named e) : Utf8 e.Error := by
  have a := fun l : Bytes => utf8_ascii l
  induction e with
  | decode f o e ih =>
    exact utf8_append (a _ (by decide)) (utf8_append (utf8_append (utf8_append (utf8_append (octets_utf8 f h.1)
      (a _ (by decide))) (decimal_utf8 o)) (a _ (by decide))) (ih h.2))
  | encode f e ih =>
    exact utf8_append (a _ (by decide)) (utf8_append (utf8_append (octets_utf8 f h.1) (a _ (by decide))) (ih h.2))
  | unsupportedSmsType st => exact utf8_append (a _ (by decide)) (hexNat_utf8 _)
  | bcdInvalidOctet b => exact utf8_append (a _ (by decide)) (hex02_utf8 _)
  | bcdInvalidInteger i =>
    refine utf8_append (a _ (by decide)) ?_
    unfold SmsCounter.showInt
    split
    · exact utf8_append (a _ (by decide)) (decimal_utf8 _)
    · exact decimal_utf8 _
  | semiInvalidDigit b =>
    exact utf8_append (a _ (by decide)) (utf8_append (utf8_append (rune_utf8 _) (a _ (by decide))) (hexNat_utf8 _))
  | gsm7InvalidSeptet b => exact utf8_append (a _ (by decide)) (hex02_utf8 _)
  | gsm7InvalidUTF8 r =>
    exact utf8_append (a _ (by decide)) (utf8_append (utf8_append (utf8_append (rune_utf8 _) (a _ (by decide))) (hexU_utf8 _))
      (a _ (by decide)))
  | ucs2Dangling b => exact utf8_append (a _ (by decide)) (goBytes_utf8 b)
  | hexInvalidByte b =>
    refine utf8_append (a _ (by decide)) (utf8_append (hexU_utf8 _) ?_)
    unfold quoted
    split
    · exact utf8_append (utf8_append (a _ (by decide)) (rune_utf8 _)) (a _ (by decide))
    · exact a _ (by simp)
  | _ => exact a _ (by decide)

/-- C91: an octet that is no hex digit is shown as a character only if that is none of the control characters,
U+0000 to U+001F and U+007F to U+009F; otherwise the text is of ASCII. -/
theorem C91_printable (b : UInt8) : (∀ c ∈ Err.Error (.hexInvalidByte b), 0x20 ≤ c ∧ c ≠ 0x7f) ∧
    (∀ x c y, Err.Error (.hexInvalidByte b) = x ++ 0xc2 :: c :: y → 0xa0 < c) := by
  have key : ∀ b : UInt8, (∀ c ∈ Err.Error (.hexInvalidByte b), 0x20 ≤ c ∧ c ≠ 0x7f) ∧
      (∀ i < (Err.Error (.hexInvalidByte b)).length, (Err.Error (.hexInvalidByte b))[i]? = some 0xc2 →
        ∀ c ∈ (Err.Error (.hexInvalidByte b))[i + 1]?, 0xa0 < c) := by
    apply forall_u8_dec; decide +kernel
  refine ⟨(key b).1, fun x c y h => (key b).2 x.length (by rw [h]; simp) (by rw [h]; simp) c ?_⟩
  rw [h]; simp

/-- A time stamp cut short, and an address with a letter. -/
example : Sms.Unmarshal [0x00, 0, 0, 0, 0, 0x1a] 0 = .error (.err (.decode "SmsDeliver.scts" 5 .underflow)) ∧
    Err.Error (.decode "SmsDeliver.scts" 5 .underflow) = b!"tpdu: error decoding SmsDeliver.scts at octet 5: underflow" ∧
    ({ Direction := MO, FirstOctet := 1, DA := ⟨0x91, [0x41]⟩ } : TPDU).MarshalBinary = .error (.err (.encode "SmsSubmit.da.addr" (.semiInvalidDigit 0x41))) ∧
    Err.Error (.encode "SmsSubmit.da.addr" (.semiInvalidDigit 0x41)) =
      b!"tpdu: error encoding SmsSubmit.da.addr: semioctet: invalid digit: 'A' - 0x41" := by decide +kernel

end Verif.Props
