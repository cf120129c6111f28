import Verif.Proofs.AnyFill

/-! C111: `Pack7Bit` and `Unpack7Bit` for every value of `fillBits`, and for elements that are not septets. -/

namespace Verif.Props
open Verif.Model Verif.Model.Gsm7 Verif.Spec Verif.Proofs

private theorem cap_pack (n : Nat) (f : Int) : makeCap (((n : Int) * 7 + 7 + f).tdiv 8) =
    if (n : Int) * 7 + 15 + f ≤ 0 then panicM .makeslice else .ok () := by
  unfold makeCap
  have h : ((n : Int) * 7 + 7 + f).tdiv 8 < 0 ↔ (n : Int) * 7 + 15 + f ≤ 0 := by
    rw [Int.tdiv_eq_ediv, show Int.sign 8 = 1 from rfl]; split <;> omega
  simp only [h]

private theorem cap_unpack (n : Nat) (f : Int) : makeCap (((n : Int) * 8 + 6 + f).tdiv 7) =
    if (n : Int) * 8 + 13 + f ≤ 0 then panicM .makeslice else .ok () := by
  unfold makeCap
  have h : ((n : Int) * 8 + 6 + f).tdiv 7 < 0 ↔ (n : Int) * 8 + 13 + f ≤ 0 := by
    rw [Int.tdiv_eq_ediv, show Int.sign 7 = 1 from rfl]; split <;> omega
  simp only [h]

private theorem pack_nonneg (u : Bytes) (f : Nat) (hne : u ≠ []) :
    Pack7BitAny u f = .ok (packLoopAny u 0 (u64 f)) := by
  have : u.length ≠ 0 := by simpa using hne
  unfold Pack7BitAny
  rw [if_neg this, cap_pack, if_neg (by omega)]
  rfl

private theorem unpackLoopAny_len (p : Bytes) : ∀ r rbits, p.length ≤ (unpackLoopAny p r rbits).length := by
  induction p with
  | nil => intros; simp
  | cons o p ih =>
    intro r rbits
    unfold unpackLoopAny
    simp only
    split
    · have := ih 0 0; simp only [List.length_cons]; omega
    · have := ih (shrU o (u64 (8 - ((u64 ((rbits : Int) + 1) : Nat) : Int)))) (u64 ((rbits : Int) + 1))
      simp only [List.length_cons]; omega

private theorem unpack_pos (p : Bytes) (f : Nat) (hf : 0 < f) (hne : p ≠ []) :
    Unpack7BitAny p f = .ok ((unpackLoopAny p 0 (u64 (7 - (f : Int)))).drop 1) := by
  have : p.length ≠ 0 := by simpa using hne
  have hl := unpackLoopAny_len p 0 (u64 (7 - (f : Int)))
  unfold Unpack7BitAny
  rw [if_neg this, cap_unpack, if_neg (by omega)]
  simp only [show ((f : Int) ≠ 0) by omega, ne_eq, not_false_eq_true, if_true, show ((f : Int) > 0) by omega]
  show slice _ 1 _ = _
  unfold slice
  rw [if_pos (by omega)]
  simp

/-- C111: with 0 to 8 fill bits the septets follow that many zero bits, then fewer than 8 zero bits; nothing
panics. -/
theorem C111_pack_layout (u : Bytes) (f : Nat) (hf : f ≤ 8) (hs : Septets u) (hne : u ≠ []) :
    ∃ p, Pack7BitAny u f = .ok p ∧ p.length = (f + 7 * u.length + 7) / 8 ∧
      ∃ k < 8, octetBits p = List.replicate f false ++ septetBits u ++ List.replicate k false := by
  rw [pack_nonneg u f hne, u64_nat f (by omega), packLoopAny_eq u 0 f hf]
  refine ⟨_, rfl, packLoop_len8 u 0 f hf, ?_⟩
  rcases Nat.lt_or_ge f 8 with h | h
  · obtain ⟨k, hk, e⟩ := packLoop_bits u 0 f (by omega) (by simp [Nat.pow_pos]) hs
    exact ⟨k, hk, by simpa [bits_zero] using e⟩
  · obtain rfl : f = 8 := by omega
    cases u with
    | nil => exact absurd rfl hne
    | cons s u =>
      have h1 : packLoop (s :: u) 0 8 = 0 :: packLoop (s :: u) 0 0 := by
        simp [packLoop, shl8_eight, shr8]
      obtain ⟨k, hk, e⟩ := packLoop_bits (s :: u) 0 0 (by omega) (by simp) hs
      refine ⟨k, hk, ?_⟩
      have h2 : octetBits (0 :: packLoop (s :: u) 0 0) =
          List.replicate 8 false ++ octetBits (packLoop (s :: u) 0 0) := rfl
      rw [h1, h2, e]
      simp [bits]

/-- C111: with `8 + k` fill bits the first `k` septets are lost: zeros stand in their place.  If there are no
more than `k` septets nothing is left but zeros, and fewer of them than the layout has. -/
theorem C111_pack_over (u : Bytes) (k : Nat) (hk : k < 2 ^ 62) (hs : Septets u) (hne : u ≠ []) :
    if k < u.length then
      ∃ p, Pack7BitAny u ((8 + k : Nat) : Int) = .ok p ∧ p.length = (8 + k + 7 * u.length + 7) / 8 ∧
        ∃ j < 8, octetBits p =
          List.replicate (8 + k + 7 * k) false ++ septetBits (u.drop k) ++ List.replicate j false
    else Pack7BitAny u ((8 + k : Nat) : Int) = .ok (List.replicate (u.length + 1) 0) := by
  rw [pack_nonneg u _ hne, u64_nat _ (by omega)]
  split
  · rename_i h
    rw [packLoopAny_drop k u (by omega) (by omega)]
    have hd : u.drop k ≠ [] := by
      intro h'; have := congrArg List.length h'; simp at this; omega
    have hsd : Septets (u.drop k) := fun s hs' => hs s (List.mem_of_mem_drop hs')
    obtain ⟨p, hp, hl, j, hj, e⟩ := C111_pack_layout (u.drop k) 8 (by omega) hsd hd
    rw [pack_nonneg _ _ hd, u64_nat 8 (by omega), packLoopAny_eq _ 0 8 (by omega)] at hp
    obtain rfl := Except.ok.inj hp
    refine ⟨_, rfl, ?_, j, hj, ?_⟩
    · rw [List.length_append, hl]; simp only [List.length_replicate, List.length_drop]; omega
    · rw [octetBits_append, e]
      have hz : ∀ k, octetBits (List.replicate k 0) = List.replicate (8 * k) false := by
        intro k
        induction k with
        | zero => rfl
        | succ k ih =>
          have : octetBits (List.replicate (k + 1) 0) =
              List.replicate 8 false ++ octetBits (List.replicate k 0) := rfl
          rw [this, ih, List.replicate_append_replicate]; congr 1; omega
      rw [hz, ← List.append_assoc, ← List.append_assoc, List.replicate_append_replicate]
      congr 3; omega
  · rw [packLoopAny_zero u (8 + k) (by omega) (by omega)]

/-- C111: with a negative number of fill bits everything is lost: the result is zeros only, or a panic if the
number is below what the length allows. -/
theorem C111_pack_under (u : Bytes) (f : Nat) (hf : 0 < f) (hu : u.length < 2 ^ 56) (hne : u ≠ []) :
    Pack7BitAny u (-(f : Int)) =
      if f < 7 * u.length + 15 then .ok (List.replicate (u.length + 1) 0) else .error (.panic .makeslice) := by
  have : u.length ≠ 0 := by simpa using hne
  unfold Pack7BitAny
  rw [if_neg this, cap_pack]
  by_cases h : f < 7 * u.length + 15
  · rw [if_neg (by omega), if_pos h]
    show Except.ok _ = _
    rw [packLoopAny_zero u _ (by unfold u64; omega) (by unfold u64; omega)]
  · rw [if_pos (by omega), if_neg h]; rfl

/-- C111: for 0 to 7 fill bits the two models agree, so that all that is proved of the one holds of the other. -/
theorem C111_same (u : Bytes) (f : Nat) (hf : f ≤ 7) :
    Pack7BitAny u f = .ok (Pack7Bit u f) ∧ Unpack7BitAny u f = .ok (Unpack7Bit u f) ∧
    Pack7BitUSSDAny u f = Pack7BitUSSD u f ∧ Unpack7BitUSSDAny u f = Unpack7BitUSSD u f := by
  have h1 : Pack7BitAny u f = .ok (Pack7Bit u f) := by
    by_cases hne : u = []
    · subst hne; rfl
    · have : u.length ≠ 0 := by simpa using hne
      rw [pack_nonneg u f hne, u64_nat f (by omega), packLoopAny_eq u 0 f (by omega)]
      unfold Pack7Bit; rw [if_neg this]
  have h2 : Unpack7BitAny u f = .ok (Unpack7Bit u f) := by
    by_cases hne : u = []
    · subst hne; rfl
    · have hl : u.length ≠ 0 := by simpa using hne
      by_cases h0 : f = 0
      · subst h0
        unfold Unpack7BitAny Unpack7Bit
        rw [if_neg hl, if_neg hl, cap_unpack, if_neg (by omega)]
        simp only [Int.ofNat_zero, ne_eq, not_true_eq_false, if_false, Int.lt_irrefl, gt_iff_lt,
          Nat.lt_irrefl, unpackLoopAny_eq u 0 0 (by omega)]
        rfl
      · rw [unpack_pos u f (by omega) hne, show u64 (7 - (f : Int)) = 7 - f by unfold u64; omega,
          unpackLoopAny_eq u 0 _ (by omega)]
        unfold Unpack7Bit
        rw [if_neg hl]
        simp only [h0, ne_eq, not_false_eq_true, if_true, show f > 0 by omega]
  refine ⟨h1, h2, ?_, ?_⟩
  · unfold Pack7BitUSSDAny Pack7BitUSSD; rw [h1]; rfl
  · unfold Unpack7BitUSSDAny Unpack7BitUSSD; rw [h2]; rfl

/-- C111: with `8 + k` fill bits unpacking yields `k` zero septets for the first `k`, and the others as they
are: the groups of seven bits that follow the first `8 + k + 7 * k` bits. -/
theorem C111_unpack_over (p : Bytes) (k : Nat) (hk : k < 2 ^ 59) (hne : p ≠ []) :
    if k < p.length then
      ∃ v rest, Unpack7BitAny p ((8 + k : Nat) : Int) = .ok (List.replicate k 0 ++ v) ∧ Septets v ∧
        rest.length < 7 ∧ septetBits v ++ rest = (octetBits p).drop (8 + k + 7 * k)
    else Unpack7BitAny p ((8 + k : Nat) : Int) = .ok (List.replicate (p.length - 1) 0) := by
  rw [unpack_pos p _ (by omega) hne, show (7 - ((8 + k : Nat) : Int)) = -((k + 1 : Nat) : Int) by omega]
  split
  · rename_i h
    rw [unpackLoopAny_drop (k + 1) p (by omega) (by omega)]
    have hb := unpack7Bit_bits (p.drop (k + 1)) 0 (by omega)
    obtain ⟨hs, rest, hr, e⟩ := hb
    have he : Unpack7Bit (p.drop (k + 1)) 0 = unpackLoop (p.drop (k + 1)) 0 0 := by
      unfold Unpack7Bit
      split
      · rename_i h'
        have : p.drop (k + 1) = [] := List.eq_nil_of_length_eq_zero h'
        rw [this]; rfl
      · simp
    rw [he] at hs e
    refine ⟨_, rest, rfl, hs, hr, ?_⟩
    rw [e, List.drop_zero]
    have : ∀ (n : Nat) (p : Bytes), octetBits (p.drop n) = (octetBits p).drop (8 * n) := by
      intro n
      induction n with
      | zero => intro p; rfl
      | succ n ih =>
        intro p
        cases p with
        | nil => simp [octetBits]
        | cons o p =>
          rw [List.drop_succ_cons, ih]
          have : octetBits (o :: p) = bits 8 o.toNat ++ octetBits p := rfl
          rw [this, show 8 * (n + 1) = (bits 8 o.toNat).length + 8 * n by simp; omega,
            ← List.drop_drop, List.drop_left]
    rw [this]; congr 1; omega
  · rw [unpackLoopAny_short p (k + 1) (by omega) (by omega)]
    simp

/-- C111: with a negative number of fill bits unpacking yields one zero septet for every octet, or panics. -/
theorem C111_unpack_under (p : Bytes) (f : Nat) (hf : 0 < f) (hp : p.length < 2 ^ 56) (hne : p ≠ []) :
    Unpack7BitAny p (-(f : Int)) =
      if f < 8 * p.length + 13 then .ok (List.replicate p.length 0) else .error (.panic .makeslice) := by
  have hl : p.length ≠ 0 := by simpa using hne
  unfold Unpack7BitAny
  rw [if_neg hl, cap_unpack]
  by_cases h : f < 8 * p.length + 13
  · rw [if_neg (by omega), if_pos h]
    simp only [show ((-(f : Int)) ≠ 0) by omega, ne_eq, not_false_eq_true, if_true]
    show (if -(f : Int) > 0 then slice _ _ _ else Except.ok _) = _
    rw [if_neg (by omega), unpackLoopAny_zero p _ (by unfold u64; omega) (by unfold u64; omega)]
  · rw [if_pos (by omega), if_neg h]; rfl

@[inherit_doc C111_unpack_under]
theorem C111_empty (f : Int) : Pack7BitAny [] f = .ok [] ∧ Unpack7BitAny [] f = .ok [] := ⟨rfl, rfl⟩

/-- C111: what unpacking makes of what was packed with the same number of fill bits, when that is 0 or more and
fewer than 8 more than the number of septets: the septets, the first `f - 8` of which have become zero, and
one more zero septet exactly if the packed form has seven spare bits. -/
theorem C111_round (u : Bytes) (f : Nat) (hf : f < 8 + u.length) (hu : u.length < 2 ^ 56) (hs : Septets u) :
    ∃ p, Pack7BitAny u f = .ok p ∧ Unpack7BitAny p f =
      .ok (List.replicate (f - 8) 0 ++ u.drop (f - 8) ++
        if 8 * p.length = f + 7 * u.length + 7 ∧ u ≠ [] then [0] else []) := by
  by_cases hne : u = []
  · subst hne; exact ⟨[], rfl, by simp at hf; simp [show f - 8 = 0 by omega]; rfl⟩
  · by_cases h7 : f ≤ 7
    · obtain ⟨h1, -⟩ := C111_same u f h7
      obtain ⟨-, h2, -⟩ := C111_same (Pack7Bit u f) f h7
      refine ⟨_, h1, ?_⟩
      rw [h2, unpack_pack u f h7 hs]
      have : f - 8 = 0 := by omega
      rw [this]
      congr 1
      by_cases h : 8 * (Pack7Bit u f).length = f + 7 * u.length + 7 <;> simp [h, hne]
    · obtain ⟨k, rfl⟩ : ∃ k, f = 8 + k := ⟨f - 8, by omega⟩
      have h := C111_pack_over u k (by omega) hs hne
      rw [if_pos (by omega)] at h
      obtain ⟨p, hp, hl, j, hj, e⟩ := h
      have hpl : k < p.length := by omega
      have hpne : p ≠ [] := by rintro rfl; simp at hpl
      have h' := C111_unpack_over p k (by omega) hpne
      rw [if_pos hpl] at h'
      obtain ⟨v, rest, hv, hvs, hr, ev⟩ := h'
      refine ⟨p, hp, ?_⟩
      rw [hv, Nat.add_sub_cancel_left]
      rw [e, List.append_assoc, List.drop_left' (by simp)] at ev
      have hlen := congrArg List.length e
      simp only [octetBits_length, List.length_append, List.length_replicate, septetBits_length,
        List.length_drop] at hlen
      have hsd : Septets (u.drop k) := fun s hs' => hs s (List.mem_of_mem_drop hs')
      rw [List.append_assoc]
      congr 2
      by_cases h7 : 8 * p.length = 8 + k + 7 * u.length + 7
      · rw [if_pos ⟨h7, hne⟩]
        have hj7 : j = 7 := by omega
        subst hj7
        refine (septets_unique v (u.drop k ++ [0]) rest [] hvs (septets_append hsd ?_) hr (by simp) ?_).1
        · intro s hs'; simp at hs'; subst hs'; decide
        · rw [ev, septetBits_append]
          simp [septetBits, bits_zero]
      · rw [if_neg (by simp [h7])]
        have hj7 : j < 7 := by omega
        rw [List.append_nil]
        exact (septets_unique v (u.drop k) rest _ hvs hsd hr (by simpa using hj7) ev).1

/-- C111: elements that are not septets.  A bit of the packed form is set exactly if the element that begins
`i` bits before it has its bit `i`, the eighth bit counting only if it does not begin an octet: the eighth bit
of an element is added to the first of the next, or dropped. -/
theorem C111_octets (u : Bytes) (f : Nat) (hf : f ≤ 8) (hne : u ≠ []) :
    ∃ p, Pack7BitAny u f = .ok p ∧ p.length = (f + 7 * u.length + 7) / 8 ∧
      ∀ j, (octetBits p)[j]? = some true ↔
        ∃ i s, u[i]? = some s ∧ f + 7 * i ≤ j ∧ s.toNat.testBit (j - (f + 7 * i)) = true ∧
          ¬ (j = f + 7 * i + 7 ∧ j % 8 = 0) := by
  rw [pack_nonneg u f hne, u64_nat f (by omega), packLoopAny_eq u 0 f hf]
  refine ⟨_, rfl, packLoop_len8 u 0 f hf, fun j => ?_⟩
  rw [packLoop_from u 0 f hf j]
  constructor
  · rintro (⟨_, h⟩ | h)
    · simp at h
    · exact h
  · exact .inr

private theorem idx_in {α : Type} (l : List α) (i : Nat) (h : i < l.length) : ∃ x, idx l i = .ok x := by
  refine ⟨l[i], ?_⟩
  unfold idx
  simp [h]

private theorem unpack_len (p v : Bytes) (f : Int) (h : Unpack7BitAny p f = .ok v) : p.length ≤ v.length + 1 := by
  unfold Unpack7BitAny at h
  split at h
  · omega
  · rw [cap_unpack] at h
    split at h
    · cases h
    · have hl := unpackLoopAny_len p 0 (if f ≠ 0 then u64 (7 - f) else 0)
      replace h : (if f > 0 then slice (unpackLoopAny p 0 (if f ≠ 0 then u64 (7 - f) else 0)) 1
          (unpackLoopAny p 0 (if f ≠ 0 then u64 (7 - f) else 0)).length
        else Except.ok (unpackLoopAny p 0 (if f ≠ 0 then u64 (7 - f) else 0))) = .ok v := h
      generalize unpackLoopAny p 0 (if f ≠ 0 then u64 (7 - f) else 0) = w at h hl
      split at h
      · unfold slice at h
        split at h
        · obtain rfl := Except.ok.inj h; simp; omega
        · cases h
      · obtain rfl := Except.ok.inj h; omega

/-- C111: the forms for USSD panic in no other case. -/
theorem C111_ussd (u : Bytes) (f : Int) :
    ((∃ p, Pack7BitUSSDAny u f = .ok p) ↔ ∃ p, Pack7BitAny u f = .ok p) ∧
    ((∃ p, Unpack7BitUSSDAny u f = .ok p) ↔ ∃ p, Unpack7BitAny u f = .ok p) := by
  constructor
  · unfold Pack7BitUSSDAny
    cases hp : Pack7BitAny u f with
    | error e => simp [bind, Except.bind]
    | ok b =>
      simp only [ok_bind]
      refine ⟨fun _ => ⟨b, rfl⟩, fun _ => ?_⟩
      by_cases hb : b.length = 0
      · rw [if_pos hb]; exact ⟨[], rfl⟩
      · rw [if_neg hb]
        have hu : u.length ≠ 0 := by
          intro h0
          have : u = [] := List.eq_nil_of_length_eq_zero h0
          subst this
          cases hp; exact hb rfl
        obtain ⟨x, hx⟩ := idx_in b (b.length - 1) (by omega)
        obtain ⟨y, hy⟩ := idx_in u (u.length - 1) (by omega)
        rw [show ((u.length - 1 : Nat) : Int) = (u.length : Int) - 1 by omega] at hy
        simp only [hx, hy, ok_bind]
        split
        · exact ⟨_, rfl⟩
        · split <;> exact ⟨_, rfl⟩
  · unfold Unpack7BitUSSDAny
    cases hp : Unpack7BitAny u f with
    | error e => simp [bind, Except.bind]
    | ok v =>
      simp only [ok_bind]
      refine ⟨fun _ => ⟨v, rfl⟩, fun _ => ?_⟩
      by_cases h1 : u.length > 1
      · rw [if_pos h1]
        obtain ⟨x, hx⟩ := idx_in u (u.length - 1) (by omega)
        obtain ⟨y, hy⟩ := idx_in u (u.length - 2) (by omega)
        rw [show ((u.length - 1 : Nat) : Int) = (u.length : Int) - 1 by omega] at hx
        rw [show ((u.length - 2 : Nat) : Int) = (u.length : Int) - 2 by omega] at hy
        simp only [hx, hy, ok_bind]
        have := unpack_len u v f hp
        split
        · unfold slice; rw [if_pos (by omega)]; exact ⟨_, rfl⟩
        · exact ⟨_, rfl⟩
      · rw [if_neg h1]; exact ⟨_, rfl⟩

/-- Three septets after 8, 9 and -1 fill bits, too few fill bits, and an octet that is not a septet. -/
example : Septets [0x31, 0x7f, 0x05] ∧ Pack7BitAny [0x31, 0x7f, 0x05] 8 = .ok [0, 0xb1, 0x7f, 0x01] ∧
    Pack7BitAny [0x31, 0x7f, 0x05] 9 = .ok [0, 0, 0xff, 0x02] ∧
    Unpack7BitAny [0, 0, 0xff, 0x02] 9 = .ok [0, 0x7f, 0x05] := by unfold Septets; decide

example : Pack7BitAny [0x31, 0x7f, 0x05] (-1) = .ok [0, 0, 0, 0] ∧
    Pack7BitAny [0x31] (-22) = .error (.panic .makeslice) ∧ Pack7BitAny [0x31] (-21) = .ok [0, 0] := by decide
example : Pack7BitAny [0x81, 0x00] 0 = .ok [0x81, 0x00] ∧ Unpack7BitAny [0x81, 0x00] 0 = .ok [1, 1] := by decide

end Verif.Props
