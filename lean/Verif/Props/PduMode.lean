import Verif.Model.PduMode
import Verif.Props.Semioctet
import Verif.Spec.Hex

/-! C55, C56: PDU mode. -/

namespace Verif.Props

open Verif.Model Verif.Spec Verif.Proofs

/-! Helpers. -/

theorem flatMap_nibbles_length (l : List UInt8) : (l.flatMap nibbles).length = 2 * l.length := by
  induction l with
  | nil => rfl
  | cons a l ih => rw [List.flatMap_cons, List.length_append, ih, List.length_cons]; simp [nibbles]; omega

/-- With a buffer for two digits per octet, everything is read and nothing fails. -/
theorem semi_all (l : List UInt8) : ∃ ds, Semioctet.Decode (l.length * 2) l = .ok ⟨.ok ds, l.length⟩ ∧ Digits ds ∧
    ds.map digitCode = (l.flatMap nibbles).filter (· ≠ 15) := by
  obtain ⟨⟨digits, read⟩, h1, h2, h3, h4⟩ := C06_decode_safe (l.length * 2) l
  simp only at h2 h3 h4
  have hlen : ((l.take read).flatMap nibbles).length = 2 * read := by
    rw [flatMap_nibbles_length, List.length_take]; omega
  have hf := List.length_filter_le (fun x => decide (x ≠ 15)) ((l.take read).flatMap nibbles)
  cases digits with
  | error e =>
    have := (h4 e rfl).2
    rw [hlen] at hf
    omega
  | ok ds =>
    obtain ⟨g1, g2, g3, g4⟩ := h3 ds rfl
    have hr : read = l.length := by
      rcases g3 with h | h
      · exact h
      · have := congrArg List.length g4
        rw [List.length_map] at this
        rw [hlen] at hf
        omega
    subst hr
    rw [List.take_length] at g4
    exact ⟨ds, h1, g2, g4⟩

/-! C56 -/

/-- C56: the octet 0 stands for no SMSC address; the rest is the TPDU. -/
theorem C56_no_smsc (tpdu : List UInt8) : PDU.UnmarshalBinary (0 :: tpdu) = .ok ⟨⟨0, []⟩, tpdu⟩ := by
  unfold PDU.UnmarshalBinary PDU.unmarshalBinary SMSCAddress.UnmarshalBinary
  rw [if_neg (by simp)]
  simp only [idx_zero_cons, ok_bind]
  have := slice_ok (0 :: tpdu) 1 (tpdu.length + 1) (by omega) (by simp)
  simp only [UInt8.toNat_zero, if_true, pure_ok, ok_bind, List.length_cons, this]
  congr 2
  simp

/-- C56: otherwise there is a type octet and semi-octets, as many as the length octet says (it counts the type
octet); the address is made of the semi-octets that are not fill, and the TPDU is what follows. -/
theorem C56_smsc (toa : UInt8) (addr tpdu : List UInt8) (h : addr.length ≤ 254) :
    ∃ ds, PDU.UnmarshalBinary (UInt8.ofNat (addr.length + 1) :: toa :: (addr ++ tpdu)) = .ok ⟨⟨toa, ds⟩, tpdu⟩ ∧
      Digits ds ∧ ds.map digitCode = (addr.flatMap nibbles).filter (· ≠ 15) := by
  obtain ⟨ds, h1, h2, h3⟩ := semi_all addr
  refine ⟨ds, ?_, h2, h3⟩
  have hl : (UInt8.ofNat (addr.length + 1)).toNat = addr.length + 1 := by simp only [UInt8.toNat_ofNat']; omega
  unfold PDU.UnmarshalBinary PDU.unmarshalBinary SMSCAddress.UnmarshalBinary
  rw [if_neg (by simp)]
  simp only [idx_zero_cons, idx_one_cons, ok_bind, hl]
  rw [if_neg (by omega), if_neg (by simp)]
  simp only [Nat.add_sub_cancel]
  rw [if_neg (by simp; omega)]
  have hs : slice (UInt8.ofNat (addr.length + 1) :: toa :: (addr ++ tpdu)) ((2 : Nat) : Int) ((2 + addr.length : Nat) : Int) = .ok addr := by
    have := slice_at [UInt8.ofNat (addr.length + 1), toa] addr tpdu ((2 : Nat) : Int) ((2 + addr.length : Nat) : Int) rfl rfl
    simpa using this
  have he : slice (UInt8.ofNat (addr.length + 1) :: toa :: (addr ++ tpdu)) ((2 + addr.length : Nat) : Int)
      ((UInt8.ofNat (addr.length + 1) :: toa :: (addr ++ tpdu)).length : Int) = .ok tpdu := by
    have := slice_end ([UInt8.ofNat (addr.length + 1), toa] ++ addr) tpdu ((2 + addr.length : Nat) : Int)
      ((UInt8.ofNat (addr.length + 1) :: toa :: (addr ++ tpdu)).length : Int) (by simp; omega) (by simp)
    simpa using this
  rw [hs]
  simp only [ok_bind, h1, pure_ok, he]

/-- C56: the remaining octet strings, which are those that end before the SMSC address does, are rejected. -/
theorem C56_short (src : List UInt8) (h : src = [] ∨ ∃ l rest, src = l :: rest ∧ rest.length < l.toNat) :
    ∃ field offset, PDU.UnmarshalBinary src = fail (newDecodeError field offset .underflow) := by
  unfold PDU.UnmarshalBinary PDU.unmarshalBinary SMSCAddress.UnmarshalBinary
  rcases h with rfl | ⟨l, rest, rfl, h⟩
  · exact ⟨_, _, rfl⟩
  · rw [if_neg (by simp)]
    simp only [idx_zero_cons, ok_bind]
    rw [if_neg (by omega)]
    cases rest with
    | nil => rw [if_pos (by simp)]; exact ⟨_, _, rfl⟩
    | cons toa rest =>
      rw [if_neg (by simp)]
      simp only [idx_one_cons, ok_bind]
      rw [if_pos (by simp at h ⊢; omega)]
      exact ⟨_, _, rfl⟩

/-- C56: parsing never panics, and on success the TPDU is what follows the SMSC field. -/
theorem C56_safe (src : List UInt8) :
    (∃ e, PDU.UnmarshalBinary src = fail e) ∨
    ∃ p l, PDU.UnmarshalBinary src = .ok p ∧ src.head? = some l ∧ 1 + l.toNat ≤ src.length ∧ p.TPDU = src.drop (1 + l.toNat) := by
  cases src with
  | nil =>
    obtain ⟨f, o, h⟩ := C56_short [] (.inl rfl)
    exact .inl ⟨_, h⟩
  | cons l rest =>
    by_cases hlt : rest.length < l.toNat
    · obtain ⟨f, o, h⟩ := C56_short (l :: rest) (.inr ⟨l, rest, rfl, hlt⟩)
      exact .inl ⟨_, h⟩
    · right
      by_cases h0 : l = 0
      · subst h0
        refine ⟨_, 0, C56_no_smsc rest, rfl, by simp, ?_⟩
        show rest = _
        simp
      · have hpos : 0 < l.toNat := by
          rcases Nat.eq_zero_or_pos l.toNat with h | h
          · exact absurd (UInt8.toNat_inj.1 (by rw [h]; rfl)) h0
          · exact h
        cases rest with
        | nil => simp at hlt; omega
        | cons toa rest =>
          have hlt' := l.toNat_lt
          simp only [List.length_cons] at hlt
          have hta : (rest.take (l.toNat - 1)).length = l.toNat - 1 := by rw [List.length_take]; omega
          obtain ⟨ds, h1, _⟩ := C56_smsc toa (rest.take (l.toNat - 1)) (rest.drop (l.toNat - 1)) (by omega)
          rw [List.take_append_drop, hta, show l.toNat - 1 + 1 = l.toNat by omega, UInt8.ofNat_toNat] at h1
          refine ⟨_, l, h1, rfl, by simp; omega, ?_⟩
          show rest.drop _ = _
          rw [show 1 + l.toNat = (l.toNat - 1) + 1 + 1 by omega]
          rfl

/-- Beside C56: an SMSC address of two octets, a missing one, and a truncated one. -/
example : PDU.UnmarshalBinary [3, 0x91, 0x21, 0xf3, 1, 2] = .ok ⟨⟨0x91, [0x31, 0x32, 0x33]⟩, [1, 2]⟩ ∧
    PDU.UnmarshalBinary [0, 1] = .ok ⟨⟨0, []⟩, [1]⟩ ∧ (PDU.UnmarshalBinary [3, 0x91, 0x21]).toOption = none := by decide

theorem fromHexChar_eq : ∀ c : UInt8, Hex.fromHexChar c =
    if c ∈ hexUpper then some (UInt8.ofNat (hexUpper.idxOf c)) else if c ∈ hexLower then some (UInt8.ofNat (hexLower.idxOf c)) else none := by
  apply forall_u8; decide +kernel

theorem hex_idx (l : List UInt8) (hl : l = hexUpper ∨ l = hexLower) (c : UInt8) (v : Nat) : l[v]? = some c → l.idxOf c = v ∧ v < 16 := by
  intro h
  have hv : v < 16 := by
    have := (List.getElem?_eq_some_iff.1 h).1
    rcases hl with rfl | rfl <;> exact this
  have : ∀ v, v < 16 → (∀ c ∈ hexUpper[v]?, hexUpper.idxOf c = v) ∧ (∀ c ∈ hexLower[v]?, hexLower.idxOf c = v) := by decide +kernel
  rcases hl with rfl | rfl
  · exact ⟨(this v hv).1 c h, hv⟩
  · exact ⟨(this v hv).2 c h, hv⟩

theorem hex_both (c : UInt8) : c ∈ hexUpper → c ∈ hexLower → hexUpper.idxOf c = hexLower.idxOf c := by
  revert c; apply forall_u8; decide +kernel

/-- The value of a digit. -/
theorem fromHexChar_some (c : UInt8) (a : UInt8) : Hex.fromHexChar c = some a ↔ ∃ v, HexDigit c v ∧ v < 16 ∧ a = UInt8.ofNat v := by
  rw [fromHexChar_eq]
  constructor
  · intro h
    split at h
    · rename_i hm
      have := List.idxOf_lt_length_iff.2 hm
      exact ⟨_, .inl (by rw [List.getElem?_eq_getElem this, List.getElem_idxOf]), this, (Option.some.inj h).symm⟩
    · split at h
      · rename_i hm
        have := List.idxOf_lt_length_iff.2 hm
        exact ⟨_, .inr (by rw [List.getElem?_eq_getElem this, List.getElem_idxOf]), this, (Option.some.inj h).symm⟩
      · cases h
  · rintro ⟨v, h, _, rfl⟩
    rcases h with h | h
    · have := (hex_idx _ (.inl rfl) c v h).1
      rw [if_pos (List.mem_of_getElem? h), this]
    · have h1 := (hex_idx _ (.inr rfl) c v h).1
      have h2 := List.mem_of_getElem? h
      split
      · rename_i hm
        rw [hex_both c hm h2, h1]
      · rw [h1]

theorem hex_byte : ∀ x, x < 16 → ∀ y, y < 16 → ((UInt8.ofNat x <<< 4) ||| UInt8.ofNat y) = UInt8.ofNat (16 * x + y) := by
  decide +kernel

/-- `hex.DecodeString` succeeds on exactly the texts that spell octets. -/
theorem hex_iff : ∀ (n : Nat) (s : List UInt8), s.length ≤ n → ∀ b, Hex.DecodeString s = .ok b ↔ HexText s b := by
  intro n
  induction n with
  | zero =>
    intro s hs b
    cases s with
    | nil => exact ⟨fun h => by cases h; exact .nil, fun h => by cases h; rfl⟩
    | cons a s => simp at hs
  | succ n ih =>
    intro s hs b
    match s, hs with
    | [], _ => exact ⟨fun h => by cases h; exact .nil, fun h => by cases h; rfl⟩
    | [c], _ =>
      constructor
      · intro h
        unfold Hex.DecodeString at h
        split at h <;> cases h
      · intro h; cases h
    | c :: d :: s, hs =>
      constructor
      · intro h
        unfold Hex.DecodeString at h
        split at h
        · cases h
        · rename_i a ha
          split at h
          · cases h
          · rename_i a' ha'
            obtain ⟨r, hr, h⟩ := bind_eq_ok.1 h
            cases h
            obtain ⟨x, hx, hx', rfl⟩ := (fromHexChar_some c a).1 ha
            obtain ⟨y, hy, hy', rfl⟩ := (fromHexChar_some d a').1 ha'
            rw [hex_byte x hx' y hy']
            exact .cons hx hy ((ih s (by simp at hs; omega) r).1 hr)
      · intro h
        cases h with
        | @cons _ _ x y _ r hx hy hr =>
          have hx' : x < 16 := by
            rcases hx with h | h
            · exact (hex_idx _ (.inl rfl) c x h).2
            · exact (hex_idx _ (.inr rfl) c x h).2
          have hy' : y < 16 := by
            rcases hy with h | h
            · exact (hex_idx _ (.inl rfl) d y h).2
            · exact (hex_idx _ (.inr rfl) d y h).2
          unfold Hex.DecodeString
          rw [(fromHexChar_some c _).2 ⟨x, hx, hx', rfl⟩, (fromHexChar_some d _).2 ⟨y, hy, hy', rfl⟩]
          simp only
          rw [(ih s (by simp at hs; omega) r).2 hr, ok_bind, hex_byte x hx' y hy']
          rfl

theorem hex_safe : ∀ (n : Nat) (s : List UInt8), s.length ≤ n → ∀ k, Hex.DecodeString s ≠ panicM k := by
  intro n
  induction n with
  | zero =>
    intro s hs k
    cases s with
    | nil => intro h; cases h
    | cons a s => simp at hs
  | succ n ih =>
    intro s hs k
    match s, hs with
    | [], _ => intro h; cases h
    | [c], _ =>
      intro h
      unfold Hex.DecodeString at h
      split at h <;> cases h
    | c :: d :: s, hs =>
      intro h
      unfold Hex.DecodeString at h
      split at h
      · cases h
      · split at h
        · cases h
        · have := ih s (by simp at hs; omega)
          cases hr : Hex.DecodeString s with
          | ok r => rw [hr] at h; cases h
          | error f =>
            rw [hr] at h
            cases h
            exact this k hr

/-- C56: text that spells octets, in either case, is parsed as the octets. -/
theorem C56_hex (s b : List UInt8) (h : HexText s b) : PDU.UnmarshalHexString s = PDU.UnmarshalBinary b := by
  unfold PDU.UnmarshalHexString PDU.unmarshalHexString
  rw [(hex_iff _ s (Nat.le_refl _) b).2 h]
  rfl

/-- C56: other text is rejected, without panic. -/
theorem C56_hex_reject (s : List UInt8) (h : ∀ b, ¬ HexText s b) : ∃ e, PDU.UnmarshalHexString s = fail e := by
  unfold PDU.UnmarshalHexString PDU.unmarshalHexString
  cases hd : Hex.DecodeString s with
  | ok b => exact absurd ((hex_iff _ s (Nat.le_refl _) b).1 hd) (h b)
  | error f =>
    cases f with
    | err e => exact ⟨e, rfl⟩
    | panic k => exact absurd hd (hex_safe _ s (Nat.le_refl _) k)

/-- C56: parsing text never panics; on success the text spells octets that parse to the result. -/
theorem C56_hex_safe (s : List UInt8) :
    (∃ e, PDU.UnmarshalHexString s = fail e) ∨
    ∃ b p, HexText s b ∧ PDU.UnmarshalBinary b = .ok p ∧ PDU.UnmarshalHexString s = .ok p := by
  by_cases h : ∃ b, HexText s b
  · obtain ⟨b, hb⟩ := h
    rw [C56_hex s b hb]
    rcases C56_safe b with ⟨e, he⟩ | ⟨p, _, hp, _⟩
    · exact .inl ⟨e, he⟩
    · exact .inr ⟨b, p, hb, hp, hp⟩
  · exact .inl (C56_hex_reject s (fun b hb => h ⟨b, hb⟩))

/-- Beside C56: "0aF" is not octets, "000aFb" is. -/
example : (∀ b, ¬ HexText [0x30, 0x61, 0x46] b) ∧ HexText [0x30, 0x30, 0x30, 0x61, 0x46, 0x62] [0, 0x0a, 0xfb] := by
  constructor
  · intro b h
    cases h with
    | cons _ _ h => cases h
  · exact .cons (x := 0) (y := 0) (.inl (by decide)) (.inl (by decide)) (.cons (x := 0) (y := 10) (.inl (by decide)) (.inr (by decide))
      (.cons (x := 15) (y := 11) (.inl (by decide)) (.inr (by decide)) .nil))

/-! C55 -/

/-- C55: marshalling an SMSC address of at most 508 digits and a TPDU, and parsing the result, gives the TPDU and
the address; except that of an address without digits the type of address is lost, which then is 0. -/
theorem C55_exact (a : Address) (tpdu : List UInt8) (hd : Digits a.Addr) (hl : a.Addr.length ≤ 508) :
    ∃ b, (⟨a, tpdu⟩ : PDU).MarshalBinary = .ok b ∧
      PDU.UnmarshalBinary b = .ok ⟨if a.Addr = [] then ⟨0, []⟩ else a, tpdu⟩ := by
  obtain ⟨p, h1, h2, h3⟩ := C05_encode a.Addr hd
  obtain ⟨toa, addr⟩ := a
  simp only at *
  by_cases he : addr = []
  · subst he
    cases h1
    refine ⟨0 :: tpdu, rfl, ?_⟩
    rw [if_pos rfl]
    exact C56_no_smsc tpdu
  · have hlen : addr.length ≠ 0 := fun h => he (List.length_eq_zero_iff.1 h)
    obtain ⟨ds, g1, g2, g3⟩ := C56_smsc toa p tpdu (by omega)
    refine ⟨UInt8.ofNat (p.length + 1) :: toa :: (p ++ tpdu), ?_, ?_⟩
    · unfold PDU.MarshalBinary SMSCAddress.MarshalBinary wrapE
      simp only [h1, ok_bind]
      rw [if_neg (by omega)]
      simp only [pure_ok, ok_bind, List.cons_append]
      rw [← byteOf_natCast]
    · rw [if_neg he, g1]
      have : ds = addr := by
        have hr := C05_roundtrip addr p (p.length * 2) hd h1 (by omega)
        obtain ⟨ds', k1, _, k3⟩ := semi_all p
        rw [hr] at k1
        cases k1
        have hinj : ∀ (x y : List UInt8), Digits x → Digits y → x.map digitCode = y.map digitCode → x = y := by
          intro x
          induction x with
          | nil => intro y _ _ h; cases y with | nil => rfl | cons => simp at h
          | cons c x ih =>
            intro y hx hy h
            cases y with
            | nil => simp at h
            | cons c' y =>
              simp only [List.map_cons, List.cons.injEq] at h
              have e1 := digitChars_code c (hx c (by simp))
              have e2 := digitChars_code c' (hy c' (by simp))
              rw [h.1, e2] at e1
              rw [Option.some.inj e1, ih y (fun z hz => hx z (by simp [hz])) (fun z hz => hy z (by simp [hz])) h.2]
        exact hinj _ _ g2 hd (g3.trans k3.symm)
      rw [this]

/-- C55, partial: the round trip for addresses with digits, and for the zero address.  Missing: addresses that
have a type but no digits, see `C55_counterexample`. -/
theorem C55_roundtrip_partial (a : Address) (tpdu : List UInt8) (hd : Digits a.Addr) (hl : a.Addr.length ≤ 508)
    (hne : a.Addr ≠ [] ∨ a.TOA = 0) :
    ∃ b, (⟨a, tpdu⟩ : PDU).MarshalBinary = .ok b ∧ PDU.UnmarshalBinary b = .ok ⟨a, tpdu⟩ := by
  obtain ⟨b, h1, h2⟩ := C55_exact a tpdu hd hl
  refine ⟨b, h1, ?_⟩
  rw [h2]
  rcases hne with h | h
  · rw [if_neg h]
  · split
    · rename_i h'
      obtain ⟨toa, addr⟩ := a
      simp only at h h'
      rw [h, h']
    · rfl

theorem hex_encode (b : List UInt8) : HexText (Hex.EncodeToString b) b := by
  induction b with
  | nil => exact .nil
  | cons v b ih =>
    have h : ∀ v : UInt8, hexLower[(v >>> 4).toNat]? = some (Hex.hexDigit (v >>> 4)) ∧
        hexLower[(v &&& 0x0f).toNat]? = some (Hex.hexDigit (v &&& 0x0f)) ∧
        UInt8.ofNat (16 * (v >>> 4).toNat + (v &&& 0x0f).toNat) = v := by
      apply forall_u8; decide +kernel
    obtain ⟨h1, h2, h3⟩ := h v
    have := HexText.cons (.inr h1) (.inr h2) ih
    rw [h3] at this
    exact this

/-- C55: the same through text: the text spells the octets, and any text that does so is parsed to the PDU. -/
theorem C55_hex_partial (a : Address) (tpdu : List UInt8) (hd : Digits a.Addr) (hl : a.Addr.length ≤ 508)
    (hne : a.Addr ≠ [] ∨ a.TOA = 0) :
    ∃ b s, (⟨a, tpdu⟩ : PDU).MarshalBinary = .ok b ∧ (⟨a, tpdu⟩ : PDU).MarshalHexString = .ok s ∧ HexText s b ∧
      ∀ s', HexText s' b → PDU.UnmarshalHexString s' = .ok ⟨a, tpdu⟩ := by
  obtain ⟨b, h1, h2⟩ := C55_roundtrip_partial a tpdu hd hl hne
  refine ⟨b, Hex.EncodeToString b, h1, ?_, hex_encode b, ?_⟩
  · unfold PDU.MarshalHexString
    rw [h1]
    rfl
  · intro s' hs'
    rw [C56_hex s' b hs', h2]

/-- C55: an SMSC address with an invalid digit is rejected. -/
theorem C55_invalid_digit (a : Address) (tpdu : List UInt8) (hd : ¬ Digits a.Addr) :
    ∃ d ∈ a.Addr, d ∉ digitChars ∧ (⟨a, tpdu⟩ : PDU).MarshalBinary = fail (.encode "addr" (.semiInvalidDigit d)) := by
  obtain ⟨x, d, y, h1, _, h2, h3⟩ := C05_encode_error a.Addr hd
  refine ⟨d, by rw [h1]; simp, h2, ?_⟩
  unfold PDU.MarshalBinary SMSCAddress.MarshalBinary wrapE
  rw [h3]
  rfl

/-- C55 is false of an address that has a type but no digits. -/
theorem C55_counterexample : (do
    let b ← (⟨⟨0x91, []⟩, [1, 2]⟩ : PDU).MarshalBinary
    PDU.UnmarshalBinary b) = .ok ⟨⟨0, []⟩, [1, 2]⟩ := by decide

/-- The bound of C55 is needed: with 509 digits the length octet is 0, and the SMSC field is taken for a TPDU. -/
theorem C55_bound : (do
    let b ← (⟨⟨0x91, List.replicate 509 0x31⟩, []⟩ : PDU).MarshalBinary
    PDU.UnmarshalBinary b) = .ok ⟨⟨0, []⟩, 0x91 :: (List.replicate 254 0x11 ++ [0xf1])⟩ := by decide +kernel

/-- Beside C55: an address of three digits. -/
example : Digits [0x31, 0x32, 0x33] ∧ (⟨⟨0x91, [0x31, 0x32, 0x33]⟩, [1, 2]⟩ : PDU).MarshalBinary = .ok [3, 0x91, 0x21, 0xf3, 1, 2] ∧
    (⟨⟨0x91, [0x31]⟩, [0xab]⟩ : PDU).MarshalHexString = .ok [0x30, 0x32, 0x39, 0x31, 0x66, 0x31, 0x61, 0x62] := by decide

end Verif.Props
