import Verif.Model.ErrorText
import Verif.Spec.ErrorText
import Verif.Proofs.Charsets
import Verif.Proofs.Utf8
import Verif.Props.CounterPrint

/-! The texts of errors can be told apart. -/

namespace Verif.Proofs.Text
open Verif.Model Verif.Model.Unicode Verif.Model.Charsets Verif.Model.SmsCounter Verif.Proofs Verif.Proofs.Page Verif.Proofs.Print Verif.Spec

/-- Two runs of characters of a class, each followed by one that is not. -/
theorem split_span (P : UInt8 → Prop) : ∀ (a b : Bytes) (x y : UInt8) (r s : Bytes), (∀ c ∈ a, P c) → (∀ c ∈ b, P c) → ¬ P x → ¬ P y →
    a ++ x :: r = b ++ y :: s → a = b ∧ x = y ∧ r = s
  | [], [], _, _, _, _, _, _, _, _, h => by
    have := List.cons.inj h
    exact ⟨rfl, this.1, this.2⟩
  | [], b :: bs, x, y, r, s, _, hb, hx, _, h => by
    have := List.cons.inj h
    exact absurd (this.1 ▸ hb b (by simp)) hx
  | a :: as, [], x, y, r, s, ha, _, _, hy, h => by
    have := List.cons.inj h
    exact absurd (this.1 ▸ ha a (by simp)) hy
  | a :: as, b :: bs, x, y, r, s, ha, hb, hx, hy, h => by
    have := List.cons.inj h
    obtain ⟨h1, h2⟩ := split_span P as bs x y r s (fun c hc => ha c (by simp [hc])) (fun c hc => hb c (by simp [hc])) hx hy this.2
    exact ⟨by rw [this.1, h1], h2⟩

theorem hexNat_value (n : Nat) : hexValue (hexNat n) = n := (hexAux_value n n (Nat.le_refl _)).1
theorem hexNat_digits (n : Nat) : ∀ c ∈ hexNat n, ∃ k < 16, c = hexDig k := (hexAux_value n n (Nat.le_refl _)).2

theorem hexNat_inj {m n : Nat} (h : hexNat m = hexNat n) : m = n := by
  rw [← hexNat_value m, h, hexNat_value]

theorem hex02_inj {a b : UInt8} (h : hex02 a = hex02 b) : a = b := by
  have hd : ∀ n < 16, ∀ m < 16, hexDig n = hexDig m → n = m := by decide +kernel
  have h1 := List.cons.inj h
  have h2 := List.cons.inj h1.2
  have ha := a.toNat_lt
  have hb := b.toNat_lt
  have e1 := hd _ (by omega) _ (by omega) h1.1
  have e2 := hd _ (by omega) _ (by omega) h2.1
  apply UInt8.toNat_inj.1
  omega

def downDig (c : UInt8) : UInt8 := if c < 0x40 then c else c + 32

theorem down_up : ∀ k < 16, downDig (upDig (hexDig k)) = hexDig k := by decide +kernel

theorem hexU_down (n : Nat) : (hexU n).map downDig = hex04 n := by
  unfold hexU
  rw [List.map_map]
  conv => rhs; rw [← List.map_id (hex04 n)]
  apply List.map_congr_left
  intro c hc
  obtain ⟨k, hk, rfl⟩ := hex04_digits n c hc
  exact down_up k hk

theorem hexU_inj {m n : Nat} (h : hexU m = hexU n) : m = n := by
  rw [← hex04_value m, ← hexU_down, h, hexU_down, hex04_value]

theorem hexU_chars (n : Nat) : ∀ c ∈ hexU n, ∃ k < 16, c = upDig (hexDig k) := by
  intro c hc
  obtain ⟨x, hx, rfl⟩ := List.mem_map.1 hc
  obtain ⟨k, hk, rfl⟩ := hex04_digits n x hx
  exact ⟨k, hk, rfl⟩

/-- A hex digit. -/
def IsHex (c : UInt8) : Prop := ∃ k < 16, c = hexDig k

theorem not_hex : ∀ x ∈ [(0x7d : UInt8), 0x2c], ¬ IsHex x := by
  have : ∀ x ∈ [(0x7d : UInt8), 0x2c], ∀ k < 16, x ≠ hexDig k := by decide +kernel
  rintro x hx ⟨k, hk, e⟩
  exact this x hx k hk e

theorem goBytes_cons (x w : UInt8) (a : Bytes) :
    goBytes (x :: w :: a) = 0x30 :: 0x78 :: (hexNat x.toNat ++ 0x2c :: 0x20 :: goBytes (w :: a)) := by
  show b!"0x" ++ hexNat x.toNat ++ b!", " ++ goBytes (w :: a) = _
  simp

theorem goBytes_one (x : UInt8) : goBytes [x] = 0x30 :: 0x78 :: (hexNat x.toNat ++ [0x7d]) := rfl

theorem goBytes_inj : ∀ {a b : Bytes}, goBytes a = goBytes b → a = b
  | [], [], _ => rfl
  | [], [_], h => absurd (List.cons.inj h).1 (by decide)
  | [], _ :: _ :: _, h => absurd (List.cons.inj h).1 (by decide)
  | [_], [], h => absurd (List.cons.inj h).1 (by decide)
  | _ :: _ :: _, [], h => absurd (List.cons.inj h).1 (by decide)
  | [x], [y], h => by
    have h := (List.cons.inj (List.cons.inj h).2).2
    obtain ⟨h1, _⟩ := split_span IsHex _ _ 0x7d 0x7d [] [] (hexNat_digits x.toNat) (hexNat_digits y.toNat) (not_hex _ (by decide)) (not_hex _ (by decide)) h
    rw [UInt8.toNat_inj.1 (hexNat_inj h1)]
  | [x], y :: z :: b, h => by
    rw [goBytes_one, goBytes_cons] at h
    have h := (List.cons.inj (List.cons.inj h).2).2
    obtain ⟨_, h2, _⟩ := split_span IsHex _ _ 0x7d 0x2c [] (0x20 :: goBytes (z :: b)) (hexNat_digits x.toNat) (hexNat_digits y.toNat) (not_hex _ (by decide)) (not_hex _ (by decide)) h
    exact absurd h2 (by decide)
  | y :: z :: b, [x], h => by
    rw [goBytes_one, goBytes_cons] at h
    have h := (List.cons.inj (List.cons.inj h).2).2
    obtain ⟨_, h2, _⟩ := split_span IsHex _ _ 0x2c 0x7d (0x20 :: goBytes (z :: b)) [] (hexNat_digits y.toNat) (hexNat_digits x.toNat) (not_hex _ (by decide)) (not_hex _ (by decide)) h
    exact absurd h2 (by decide)
  | x :: w :: a, y :: z :: b, h => by
    rw [goBytes_cons, goBytes_cons] at h
    have h := (List.cons.inj (List.cons.inj h).2).2
    obtain ⟨h1, _, h3⟩ := split_span IsHex _ _ 0x2c 0x2c (0x20 :: goBytes (w :: a)) (0x20 :: goBytes (z :: b)) (hexNat_digits x.toNat) (hexNat_digits y.toNat) (not_hex _ (by decide)) (not_hex _ (by decide)) h
    have h3 := goBytes_inj (List.cons.inj h3).2
    rw [UInt8.toNat_inj.1 (hexNat_inj h1), h3]

/-- The octets of a field name, none of them a space or a colon. -/
def IsField (c : UInt8) : Prop := c ≠ 0x20 ∧ c ≠ 0x3a

theorem fieldName_char {c : Char} (h : c.isAlphanum ∨ c = '.') : c.toNat < 128 ∧ c.toNat ≠ 0x20 ∧ c.toNat ≠ 0x3a := by
  rcases h with h | rfl
  · simp only [Char.isAlphanum, Char.isAlpha, Char.isUpper, Char.isLower, Char.isDigit, Bool.or_eq_true, Bool.and_eq_true, decide_eq_true_eq] at h
    have e : c.toNat = c.val.toNat := rfl
    rw [e]
    rcases h with (⟨h1, h2⟩ | ⟨h1, h2⟩) | ⟨h1, h2⟩ <;>
    · have h1 := UInt32.le_iff_toNat_le.1 h1
      have h2 := UInt32.le_iff_toNat_le.1 h2
      have k1 : ∀ n : UInt32, n.toNat = n.toNat := fun _ => rfl
      simp at h1 h2
      omega
  · decide

theorem octets_field {f : String} (h : FieldName f) : ∀ c ∈ octets f, IsField c := by
  intro c hc
  obtain ⟨x, hx, rfl⟩ := List.mem_map.1 hc
  obtain ⟨h1, h2, h3⟩ := fieldName_char (h x hx)
  constructor <;> intro e <;> have e := congrArg UInt8.toNat e <;> simp [UInt8.toNat_ofNat] at e <;> omega

theorem octets_inj {f g : String} (hf : FieldName f) (hg : FieldName g) (h : octets f = octets g) : f = g := by
  apply String.toList_inj.1
  unfold octets at h
  have : ∀ a b : List Char, (∀ c ∈ a, c.toNat < 128) → (∀ c ∈ b, c.toNat < 128) → a.map (fun c => UInt8.ofNat c.toNat) = b.map (fun c => UInt8.ofNat c.toNat) → a = b := by
    intro a
    induction a with
    | nil => intro b _ _ h; cases b with | nil => rfl | cons => cases h
    | cons x a ih =>
      intro b ha hb h
      cases b with
      | nil => cases h
      | cons y b =>
        have h := List.cons.inj h
        have e := congrArg UInt8.toNat h.1
        have hx := ha x (by simp)
        have hy := hb y (by simp)
        simp only [UInt8.toNat_ofNat'] at e
        have e : x.toNat = y.toNat := by omega
        rw [Char.toNat_inj.1 e, ih b (fun c hc => ha c (by simp [hc])) (fun c hc => hb c (by simp [hc])) h.2]
  exact this _ _ (fun c hc => (fieldName_char (hf c hc)).1) (fun c hc => (fieldName_char (hg c hc)).1) h

/-- The fixed part that the text begins with. -/
def head : Err → Bytes
  | .underflow => b!"underflow"
  | .overlength => b!"overlength"
  | .invalid => b!"invalid"
  | .missing => b!"missing"
  | .nonZero => b!"non-zero fill"
  | .oddUCS2Length => b!"odd UCS2 length"
  | .unsupportedSmsType _ => b!"unsupported SMS type: 0x"
  | .bcdInvalidOctet _ => b!"bcd: invalid octet: 0x"
  | .bcdInvalidInteger _ => b!"bcd: invalid integer: "
  | .semiInvalidDigit _ => b!"semioctet: invalid digit: '"
  | .semiMissingFill => b!"semioctet: last src octet missing expected fill"
  | .gsm7InvalidSeptet _ => b!"gsm7: invalid septet 0x"
  | .gsm7InvalidUTF8 _ => b!"gsm7: invalid utf8 '"
  | .ucs2Dangling _ => b!"ucs2: dangling surrogate: []byte{"
  | .ucs2InvalidLength => b!"ucs2: length must be even"
  | .decode _ _ _ => b!"tpdu: error decoding "
  | .encode _ _ => b!"tpdu: error encoding "
  | .closed => b!"closed"
  | .dcsConflict => b!"DCS conflict"
  | .duplicateSegment => b!"duplicate segment"
  | .reassemblyInconsistency => b!"reassembly inconsistency"
  | .eof => b!"EOF"
  | .hexInvalidByte _ => b!"encoding/hex: invalid byte: U+"
  | .hexOddLength => b!"encoding/hex: odd length hex string"

/-- One error of each kind. -/
def kinds : List Err :=
  [.underflow, .overlength, .invalid, .missing, .nonZero, .oddUCS2Length, .unsupportedSmsType 0, .bcdInvalidOctet 0,
   .bcdInvalidInteger 0, .semiInvalidDigit 0, .semiMissingFill, .gsm7InvalidSeptet 0, .gsm7InvalidUTF8 0, .ucs2Dangling [],
   .ucs2InvalidLength, .decode "" 0 .eof, .encode "" .eof, .closed, .dcsConflict, .duplicateSegment, .reassemblyInconsistency, .eof,
   .hexInvalidByte 0, .hexOddLength]

/-- The kind of an error. -/
def kind : Err → Err
  | .unsupportedSmsType _ => .unsupportedSmsType 0
  | .bcdInvalidOctet _ => .bcdInvalidOctet 0
  | .bcdInvalidInteger _ => .bcdInvalidInteger 0
  | .semiInvalidDigit _ => .semiInvalidDigit 0
  | .gsm7InvalidSeptet _ => .gsm7InvalidSeptet 0
  | .gsm7InvalidUTF8 _ => .gsm7InvalidUTF8 0
  | .ucs2Dangling _ => .ucs2Dangling []
  | .decode _ _ _ => .decode "" 0 .eof
  | .encode _ _ => .encode "" .eof
  | .hexInvalidByte _ => .hexInvalidByte 0
  | e => e

theorem kind_mem (e : Err) : kind e ∈ kinds := by cases e <;> simp [kind, kinds]
theorem head_kind (e : Err) : head (kind e) = head e := by cases e <;> rfl

theorem prefix_free : ∀ a ∈ kinds, ∀ b ∈ kinds, (head a).isPrefixOf (head b) = true → a = b := by decide +kernel

theorem text_head (e : Err) : ∃ r, e.Error = head e ++ r := by
  cases e <;> first | exact ⟨_, rfl⟩ | exact ⟨[], (List.append_nil _).symm⟩

/-- Errors of the same text are of one kind. -/
theorem kind_eq {e e' : Err} (h : e.Error = e'.Error) : kind e = kind e' := by
  obtain ⟨r, hr⟩ := text_head e
  obtain ⟨s, hs⟩ := text_head e'
  rw [hr, hs] at h
  rw [← head_kind e, ← head_kind e'] at h
  rcases List.append_eq_append_iff.1 h with ⟨x, h1, _⟩ | ⟨x, h1, _⟩
  · exact prefix_free _ (kind_mem e) _ (kind_mem e') (by rw [h1]; simp)
  · exact (prefix_free _ (kind_mem e') _ (kind_mem e) (by rw [h1]; simp)).symm

theorem rune_split {a b : Nat} {r s : Bytes} (h : encodeRune a ++ r = encodeRune b ++ s) : r = s := by
  rw [encodeRune_sanitize a, encodeRune_sanitize b] at h
  exact (split_rune (sanitize_scalar a) (sanitize_scalar b) h).2

end Verif.Proofs.Text
