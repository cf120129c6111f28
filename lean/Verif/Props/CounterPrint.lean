import Verif.Props.Counter
import Verif.Model.CounterPrint
import Verif.Spec.Fields
import Verif.Proofs.Print

/-! C89: what cmd/smscounter prints. -/

namespace Verif.Props
open Verif.Model Verif.Model.SmsCounter Verif.Proofs Verif.Proofs.Print Verif.Spec

theorem showInt_writes {i : Int} (h : 0 ≤ i) : Writes (showInt i) i.natAbs := by
  unfold showInt
  rw [if_neg (by omega)]
  exact ⟨decimal_ne_nil _, decimal_digits _, decimal_value _⟩

theorem showInt_line (i : Int) : OneLine (showInt i) := by
  unfold showInt
  split
  · exact OneLine.append (by decide) (digits_line (decimal_digits _))
  · exact digits_line (decimal_digits _)

theorem showInt_inj {i j : Int} (h : showInt i = showInt j) : i = j := by
  unfold showInt at h
  have key : ∀ a b : Nat, b!"-" ++ decimal a ≠ decimal b := by
    intro a b h
    have := decimal_digits b 0x2d (by rw [← h]; simp)
    revert this
    decide
  by_cases hi : i < 0 <;> by_cases hj : j < 0
  · rw [if_pos hi, if_pos hj] at h
    have := congrArg Key.value (List.append_cancel_left h)
    rw [decimal_value, decimal_value] at this
    omega
  · rw [if_pos hi, if_neg hj] at h
    exact (key _ _ h).elim
  · rw [if_neg hi, if_pos hj] at h
    exact (key _ _ h.symm).elim
  · rw [if_neg hi, if_neg hj] at h
    have := congrArg Key.value h
    rw [decimal_value, decimal_value] at this
    omega

/-- Lines that are the same in all can be told apart. -/
theorem split_line : ∀ {a b r s : Bytes}, OneLine a → OneLine b → a ++ (b!"\n" ++ r) = b ++ (b!"\n" ++ s) → a = b ∧ r = s
  | [], [], r, s, _, _, h => by simpa using h
  | [], y :: b, r, s, _, hb, h => by
    simp only [List.nil_append, List.cons_append, List.cons.injEq] at h
    exact absurd (by simp [h.1]) hb
  | x :: a, [], r, s, ha, _, h => by
    simp only [List.nil_append, List.cons_append, List.cons.injEq] at h
    exact absurd (by simp [h.1]) ha
  | x :: a, y :: b, r, s, ha, hb, h => by
    have h := List.cons.inj h
    obtain ⟨h1, h2⟩ := split_line (fun h => ha (by simp [h])) (fun h => hb (by simp [h])) h.2
    exact ⟨by rw [h.1, h1], h2⟩

/-- The names of the encodings. -/
def encodings : List String := ["UCS-2", "7BIT_EX", "7BIT"]

theorem encodings_line : ∀ e ∈ encodings, OneLine (octets e) := by decide +kernel
theorem encodings_inj : ∀ e ∈ encodings, ∀ f ∈ encodings, octets e = octets f → e = f := by decide +kernel

theorem count_inj {a b : Count} (ha : a.Encoding ∈ encodings) (hb : b.Encoding ∈ encodings) (h : a.String = b.String) : a = b := by
  obtain ⟨e, m, t, l, p, r⟩ := a
  obtain ⟨e', m', t', l', p', r'⟩ := b
  simp only at ha hb
  simp only [Count.String, List.append_assoc] at h
  obtain ⟨h1, h⟩ := split_line (encodings_line e ha) (encodings_line e' hb) (List.append_cancel_left h)
  obtain ⟨h2, h⟩ := split_line (showInt_line m) (showInt_line m') (List.append_cancel_left h)
  obtain ⟨h3, h⟩ := split_line (showInt_line t) (showInt_line t') (List.append_cancel_left h)
  obtain ⟨h4, h⟩ := split_line (showInt_line l) (showInt_line l') (List.append_cancel_left h)
  obtain ⟨h5, h⟩ := split_line (showInt_line p) (showInt_line p') (List.append_cancel_left h)
  have h6 := List.append_cancel_left h
  have h6 := (split_line (r := []) (s := []) (showInt_line r) (showInt_line r') h6).1
  rw [encodings_inj e ha e' hb h1, showInt_inj h2, showInt_inj h3, showInt_inj h4, showInt_inj h5, showInt_inj h6]

theorem count_encoding {msg : List UInt8} {nli : Int} (hne : msg ≠ []) : ∃ c, NewCount msg nli = .ok c ∧ c.Encoding ∈ encodings := by
  obtain ⟨pdus, last, c, _, hc, _, _, _, _, _, _, _, _, _, _, h⟩ := C60_count msg nli hne
  refine ⟨c, hc, ?_⟩
  rcases h with ⟨h, _⟩ | ⟨_, _, h⟩
  · rw [h]; decide
  · rw [h]; split <;> decide

/-- C89: for every message and language the command either shows its usage, just when the message is empty, or prints six lines.
They say the encoding, the number of TPDUs that `Encode` makes of the message, the total length, the length of the last TPDU,
the capacity of each and what remains, in decimal and in characters of the alphabet. -/
theorem C89_printed (msg : List UInt8) (nli : Int) :
    (msg = [] → main msg nli = .ok .usage) ∧
    (msg ≠ [] → ∃ (out : List UInt8) (pdus : List TPDU) (last : TPDU) (enc m t l p r : List UInt8) (total len cap rest : Nat),
      main msg nli = .ok (.printed out) ∧ Sms.Encode msg (languageOption nli) = .ok pdus ∧ pdus.getLast? = some last ∧
      Lines out [b!"encoding: " ++ enc, b!"messages: " ++ m, b!"total length: " ++ t, b!"last PDU length: " ++ l,
        b!"per_message: " ++ p, b!"remaining: " ++ r] ∧
      (enc = b!"UCS-2" ∧ ¬ InSeptets (languageCharsets nli) msg ∨
        InSeptets (languageCharsets nli) msg ∧ enc = if 0x1b ∈ content pdus then b!"7BIT_EX" else b!"7BIT") ∧
      Writes m pdus.length ∧ Writes t total ∧ Writes l len ∧ Writes p cap ∧ Writes r rest ∧
      last.UD.length = unitSize last * len ∧ (∀ q ∈ pdus, q.UDBlockSize = unitSize q * cap) ∧ len + rest = cap ∧
      total = cap * (pdus.length - 1) + len) := by
  refine ⟨fun h => by simp [main, h], fun hne => ?_⟩
  obtain ⟨pdus, last, c, henc, hc, hlast, h1, h1', h2, h3, h3', h4, h5, _, h7, h8⟩ := C60_count msg nli hne
  have hcap : 0 ≤ c.Pdulen := by omega
  have htot : 0 ≤ c.Tlen := by
    rw [h7]
    have := Int.mul_nonneg hcap (show 0 ≤ c.Messages - 1 by omega)
    omega
  obtain ⟨_, hc', he⟩ := count_encoding (nli := nli) hne
  rw [hc] at hc'
  cases hc'
  refine ⟨c.String, pdus, last, octets c.Encoding, showInt c.Messages, showInt c.Tlen, showInt c.Llen, showInt c.Pdulen,
    showInt c.Remaining, c.Tlen.natAbs, c.Llen.natAbs, c.Pdulen.natAbs, c.Remaining.natAbs, ?_, henc, hlast, ⟨?_, ?_⟩, ?_, ?_,
    showInt_writes htot, showInt_writes (by omega), showInt_writes hcap, showInt_writes h4, ?_, ?_, ?_, ?_⟩
  · unfold main
    rw [if_neg hne, hc]
  · simp only [Count.String, List.flatMap_cons, List.flatMap_nil, List.append_assoc, List.append_nil]
  · intro l hl
    simp only [List.mem_cons, List.not_mem_nil, or_false] at hl
    rcases hl with rfl | rfl | rfl | rfl | rfl | rfl
    · exact OneLine.append (by decide) (encodings_line _ he)
    all_goals exact OneLine.append (by decide) (showInt_line _)
  · rcases h8 with ⟨h, h', _⟩ | ⟨h', _, h⟩
    · exact Or.inl ⟨by rw [h]; decide +kernel, h'⟩
    · refine Or.inr ⟨h', ?_⟩
      rw [h]
      split <;> decide +kernel
  · have := showInt_writes (i := c.Messages) (by omega)
    rw [h1] at this ⊢
    simpa using this
  · rw [h3]
    congr 1
    omega
  · intro q hq
    rw [(h2 q hq).1]
    congr 1
    omega
  · omega
  · have e : (c.Tlen.natAbs : Int) = c.Pdulen.natAbs * ((pdus.length - 1 : Nat) : Int) + c.Llen.natAbs := by
      rw [show ((pdus.length - 1 : Nat) : Int) = c.Messages - 1 by omega, show (c.Pdulen.natAbs : Int) = c.Pdulen by omega]
      omega
    exact_mod_cast e

/-- C89: the same is printed for two messages if and only if all their statistics are the same. -/
theorem C89_exact (msg msg' : List UInt8) (nli nli' : Int) (h : msg ≠ []) (h' : msg' ≠ []) :
    main msg nli = main msg' nli' ↔ NewCount msg nli = NewCount msg' nli' := by
  obtain ⟨c, hc, he⟩ := count_encoding (nli := nli) h
  obtain ⟨d, hd, hf⟩ := count_encoding (nli := nli') h'
  unfold main
  rw [if_neg h, if_neg h', hc, hd]
  constructor
  · intro e
    simp only [Except.ok.injEq, Outcome.printed.injEq] at e
    rw [count_inj he hf e]
  · intro e
    cases e
    rfl

/-- "hi". -/
example : main [0x68, 0x69] 0 = .ok (.printed
    b!"encoding: 7BIT\nmessages: 1\ntotal length: 2\nlast PDU length: 2\nper_message: 160\nremaining: 158\n") := by
  decide +kernel

end Verif.Props
