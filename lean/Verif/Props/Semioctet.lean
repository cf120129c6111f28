import Verif.Proofs.Semioctet

/-! C05, C06: semi-octet digits. -/

namespace Verif.Props
open Verif.Model Verif.Model.Semioctet Verif.Spec Verif.Proofs

/-- C05: `Encode` of a digit string succeeds; the half-octets are the digit codes in order, low half first,
followed by one fill code 15 when the number of digits is odd; so there are ceil(n/2) octets. -/
theorem C05_encode (ds : List UInt8) (h : Digits ds) :
    ∃ p, Encode ds = .ok p ∧ p.length = (ds.length + 1) / 2 ∧
      p.flatMap nibbles = ds.map digitCode ++ (if ds.length % 2 = 1 then [15] else []) := by
  obtain ⟨p, e1, e2⟩ := encodeLoop_ok ds none (by simp) h
  refine ⟨p, e1, encode_length ds p h e1, ?_⟩
  rw [e2]; simp

/-- C05: otherwise `Encode` reports the first byte that is not a digit. -/
theorem C05_encode_error (ds : List UInt8) (h : ¬ Digits ds) :
    ∃ a d b, ds = a ++ d :: b ∧ Digits a ∧ d ∉ digitChars ∧ Encode ds = fail (.semiInvalidDigit d) :=
  encodeLoop_error ds none h

/-- C05: `Decode` into a buffer of at least as many digits returns the digits and consumes the encoding. -/
theorem C05_roundtrip (ds p : List UInt8) (n : Nat) (h : Digits ds) (he : Encode ds = .ok p)
    (hn : ds.length ≤ n) : Decode n p = .ok ⟨.ok ds, p.length⟩ := by
  have := dec_enc n [] _ ds rfl [] 0 p h he (by simpa using hn) (.inl rfl)
  simpa [Decode] using this

/-- C05: with a buffer of exactly the right size, whatever follows the encoding is left unread. -/
theorem C05_roundtrip_exact (ds p rest : List UInt8) (h : Digits ds) (he : Encode ds = .ok p) :
    Decode ds.length (p ++ rest) = .ok ⟨.ok ds, p.length⟩ := by
  have := dec_enc ds.length rest _ ds rfl [] 0 p h he (by simp) (.inr (by simp))
  simpa [Decode] using this

example : Digits [0x36, 0x31, 0x2a] ∧ Encode [0x36, 0x31, 0x2a] = .ok [0x16, 0xfa] ∧
    Decode 5 [0x16, 0xfa] = .ok ⟨.ok [0x36, 0x31, 0x2a], 2⟩ := by decide
example : ¬ Digits [0x36, 0x41] ∧ Encode [0x36, 0x41] = fail (.semiInvalidDigit 0x41) := by decide

/-- C06: `Decode` never panics, reads at most the whole input, returns at most `n` digit characters, which
are the non-fill half-octets of what was read; it stops early only when the buffer is full.  The only error
is a missing fill: the octets read hold exactly one digit more than the buffer. -/
theorem C06_decode_safe (n : Nat) (src : List UInt8) :
    ∃ r, Decode n src = .ok r ∧ r.read ≤ src.length ∧
      (∀ ds, r.digits = .ok ds → ds.length ≤ n ∧ Digits ds ∧ (r.read = src.length ∨ ds.length = n) ∧
        ds.map digitCode = ((src.take r.read).flatMap nibbles).filter (· ≠ 15)) ∧
      (∀ e, r.digits = .error e → e = .semiMissingFill ∧
        (((src.take r.read).flatMap nibbles).filter (· ≠ 15)).length = n + 1) := by
  obtain ⟨r, k, e1, e2, e3, e4, e5⟩ := decodeLoop_spec n src [] 0 (by simp) (by simp [Digits])
  have hk : r.read = k := by omega
  subst hk
  exact ⟨r, e1, e2, by simpa using e4, by simpa using e5⟩

example : Decode 3 [0x21, 0x43, 0x65] = .ok ⟨.error .semiMissingFill, 2⟩ := by decide
example : Decode 2 [0xff, 0x21, 0x43] = .ok ⟨.ok [0x31, 0x32], 2⟩ := by decide

end Verif.Props
