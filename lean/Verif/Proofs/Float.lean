import Verif.Model.ValidityPeriod

/-! Rounding in `Duration.Hours` and its like. -/

namespace Verif.Proofs.Float
open Verif.Model Verif.Model.Float

theorem nearest_spec (a b : Nat) (hb : 0 < b) :
    2 * (nearest a b * b) ≤ 2 * a + b ∧ 2 * a ≤ 2 * (nearest a b * b) + b := by
  have h := Nat.div_add_mod a b
  have hr := Nat.mod_lt a hb
  generalize a / b = q at h
  generalize hrr : a % b = r at h hr
  unfold nearest
  have hq : a / b = q := by
    rw [← h, Nat.mul_add_div hb, Nat.div_eq_of_lt hr, Nat.add_zero]
  rw [hq, hrr]
  have e : b * q = q * b := Nat.mul_comm b q
  have e1 : (q + 1) * b = q * b + b := Nat.succ_mul q b
  split
  · constructor <;> omega
  split
  · constructor <;> omega
  · have hc : q % 2 = 0 ∨ q % 2 = 1 := by omega
    rcases hc with hc | hc <;> rw [hc]
    · rw [Nat.add_zero]; constructor <;> omega
    · constructor <;> omega

theorem bits_spec (a b : Nat) (ha : 0 < a) (hb : 0 < b) (h : a < 2 ^ 53 * b) :
    2 ^ 52 * b ≤ a * 2 ^ bits a b ∧ a * 2 ^ bits a b < 2 ^ 53 * b := by
  have ha1 : 2 ^ Nat.log2 a ≤ a := Nat.log2_self_le (by omega)
  have ha2 : a < 2 ^ (Nat.log2 a + 1) := Nat.lt_log2_self
  have hb1 : 2 ^ Nat.log2 b ≤ b := Nat.log2_self_le (by omega)
  have hb2 : b < 2 ^ (Nat.log2 b + 1) := Nat.lt_log2_self
  unfold bits
  generalize Nat.log2 a = la at *
  generalize Nat.log2 b = lb at *
  simp only
  by_cases hl : la ≤ 52 + lb
  · have hi : a * 2 ^ (52 + lb - la) < 2 ^ 53 * b := by
      calc a * 2 ^ (52 + lb - la) < 2 ^ (la + 1) * 2 ^ (52 + lb - la) :=
            Nat.mul_lt_mul_of_pos_right ha2 (Nat.two_pow_pos _)
        _ = 2 ^ 53 * 2 ^ lb := by rw [← Nat.pow_add, ← Nat.pow_add]; congr 1; omega
        _ ≤ 2 ^ 53 * b := Nat.mul_le_mul_left _ hb1
    split
    · next hlt =>
      constructor
      · apply Nat.le_of_lt
        calc 2 ^ 52 * b < 2 ^ 52 * 2 ^ (lb + 1) := Nat.mul_lt_mul_of_pos_left hb2 (Nat.two_pow_pos _)
          _ = 2 ^ la * 2 ^ (52 + lb - la + 1) := by rw [← Nat.pow_add, ← Nat.pow_add]; congr 1; omega
          _ ≤ a * 2 ^ (52 + lb - la + 1) := Nat.mul_le_mul_right _ ha1
      · rw [Nat.pow_succ, ← Nat.mul_assoc]; omega
    · next hlt => exact ⟨by omega, hi⟩
  · have e : 52 + lb - la = 0 := by omega
    rw [e]
    have : 2 ^ 52 * b ≤ a := by
      apply Nat.le_of_lt
      calc 2 ^ 52 * b < 2 ^ 52 * 2 ^ (lb + 1) := Nat.mul_lt_mul_of_pos_left hb2 (Nat.two_pow_pos _)
        _ = 2 ^ (lb + 53) := by rw [← Nat.pow_add]; congr 1; omega
        _ ≤ 2 ^ la := Nat.pow_le_pow_right (by omega) (by omega)
        _ ≤ a := ha1
    rw [if_neg (by rw [Nat.pow_zero, Nat.mul_one]; omega)]
    rw [Nat.pow_zero, Nat.mul_one]
    exact ⟨this, h⟩

theorem round_spec (a b : Nat) (ha : 0 < a) (hb : 0 < b) (h : a < 2 ^ 53 * b) :
    ∃ m k, round a b = (m, k) ∧ 2 * (m * b) ≤ 2 * (a * 2 ^ k) + b ∧ 2 * (a * 2 ^ k) ≤ 2 * (m * b) + b ∧ 2 ^ 52 * b ≤ a * 2 ^ k := by
  refine ⟨nearest (a * 2 ^ bits a b) b, bits a b, ?_, ?_, ?_, (bits_spec a b ha hb h).1⟩
  · unfold round; rw [if_neg (by omega)]
  · exact (nearest_spec _ b hb).1
  · exact (nearest_spec _ b hb).2

/-- The second rounding. -/
theorem sum_step (w m k j : Nat) (hj : j ≤ 53) (hm : m < 2 ^ k) (hw : w + 1 ≤ 2 ^ j)
    (hc : ∀ k', 53 - j ≤ k' → 2 ^ k < 2 * (2 ^ k' * (2 ^ k - m))) :
    let x := round (w * 2 ^ k + m) (2 ^ k)
    x.1 / 2 ^ x.2 = w := by
  intro x
  have hK : 0 < 2 ^ k := Nat.two_pow_pos k
  by_cases h0 : w * 2 ^ k + m = 0
  · have hw0 : w = 0 := by
      rcases Nat.eq_zero_of_add_eq_zero h0 with ⟨h1, -⟩
      rcases Nat.mul_eq_zero.1 h1 with h | h
      · exact h
      · omega
    have : x = (0, 0) := by
      show round (w * 2 ^ k + m) (2 ^ k) = (0, 0)
      unfold round; rw [if_pos h0]
    rw [this, hw0]; rfl
  have hlt : w * 2 ^ k + m < 2 ^ j * 2 ^ k := by
    calc w * 2 ^ k + m < (w + 1) * 2 ^ k := by rw [Nat.succ_mul]; omega
      _ ≤ 2 ^ j * 2 ^ k := Nat.mul_le_mul_right _ hw
  have h53 : w * 2 ^ k + m < 2 ^ 53 * 2 ^ k :=
    Nat.lt_of_lt_of_le hlt (Nat.mul_le_mul_right _ (Nat.pow_le_pow_right (by omega) hj))
  obtain ⟨m', k', e, u, l, lo⟩ := round_spec (w * 2 ^ k + m) (2 ^ k) (by omega) hK h53
  have hx : x = (m', k') := e
  rw [hx]
  show m' / 2 ^ k' = w
  have hk' : 53 - j ≤ k' := by
    have h1 : 2 ^ 52 * 2 ^ k < 2 ^ j * 2 ^ k' * 2 ^ k := by
      calc 2 ^ 52 * 2 ^ k ≤ (w * 2 ^ k + m) * 2 ^ k' := lo
        _ < 2 ^ j * 2 ^ k * 2 ^ k' := Nat.mul_lt_mul_of_pos_right hlt (Nat.two_pow_pos _)
        _ = 2 ^ j * 2 ^ k' * 2 ^ k := by rw [Nat.mul_assoc, Nat.mul_comm (2 ^ k), ← Nat.mul_assoc]
    have h2 := Nat.lt_of_mul_lt_mul_right h1
    rw [← Nat.pow_add] at h2
    have := (Nat.pow_lt_pow_iff_right (by omega : 1 < 2)).1 h2
    omega
  have hc' := hc k' hk'
  have hK' : 0 < 2 ^ k' := Nat.two_pow_pos k'
  generalize 2 ^ k = K at *
  generalize 2 ^ k' = K' at *
  have ex : (w * K + m) * K' = w * K' * K + m * K' := by
    rw [Nat.add_mul, Nat.mul_assoc, Nat.mul_comm K K', ← Nat.mul_assoc]
  rw [ex] at u l
  -- 2 ^ k' * (2 ^ k - m)
  have em : K' * (K - m) + m * K' = K' * K := by
    rw [Nat.mul_comm m K', ← Nat.mul_add]; congr 1; omega
  rw [Nat.div_eq_iff hK']
  constructor
  · -- below
    apply Classical.byContradiction
    intro hn
    have h1 : (m' + 1) * K ≤ w * K' * K := Nat.mul_le_mul_right _ (by omega)
    rw [Nat.succ_mul] at h1
    omega
  · have h1 : m' * K < (w + 1) * K' * K := by
      rw [Nat.succ_mul, Nat.add_mul]
      omega
    have := Nat.lt_of_mul_lt_mul_right h1
    rw [Nat.succ_mul] at this
    omega

/-- The sum is rounded to a number with the same whole part if the unit is not too fine for the number of bits left. -/
theorem sum_floor (w n D j : Nat) (hn : n < D) (hj : j ≤ 53) (hw : w + 1 ≤ 2 ^ j) (hD : D < (D - n) * 2 ^ (53 - j)) :
    let x := sum w n D
    x.1 / 2 ^ x.2 = w := by
  unfold sum
  by_cases h0 : n = 0
  · have e : round n D = (0, 0) := by unfold round; rw [if_pos h0]
    simp only [e]
    apply sum_step w 0 0 j hj (by decide) hw
    intro k' _
    have : 0 < 2 ^ k' := Nat.two_pow_pos k'
    simp; omega
  · have hD0 : 0 < D := by omega
    obtain ⟨m, k, e, u, l, lo⟩ := round_spec n D (by omega) hD0 (by omega)
    simp only [e]
    have hk : 53 ≤ k := by
      have h1 : 2 ^ 52 * D < 2 ^ k * D := by
        calc 2 ^ 52 * D ≤ n * 2 ^ k := lo
          _ < D * 2 ^ k := Nat.mul_lt_mul_of_pos_right hn (Nat.two_pow_pos _)
          _ = 2 ^ k * D := Nat.mul_comm _ _
      have h2 := (Nat.pow_lt_pow_iff_right (by omega : 1 < 2)).1 (Nat.lt_of_mul_lt_mul_right h1)
      omega
    -- K (D - n) > D
    have big : ∀ i, 53 - j ≤ i → D < (D - n) * 2 ^ i := fun i hi =>
      Nat.lt_of_lt_of_le hD (Nat.mul_le_mul_left _ (Nat.pow_le_pow_right (by omega) hi))
    have hKD := big k (by omega)
    have en : (D - n) * 2 ^ k + n * 2 ^ k = D * 2 ^ k := by rw [← Nat.add_mul]; congr 1; omega
    have hm : m < 2 ^ k := by
      have : m * D < 2 ^ k * D := by rw [Nat.mul_comm (2 ^ k) D]; omega
      exact Nat.lt_of_mul_lt_mul_right this
    apply sum_step w m k j hj hm hw
    intro k' hk'
    have hK'D := big k' hk'
    have hK' : 0 < 2 ^ k' := Nat.two_pow_pos k'
    have hK : 0 < 2 ^ k := Nat.two_pow_pos k
    generalize 2 ^ k = K at *
    generalize 2 ^ k' = K' at *
    have em : (K - m) * D + m * D = K * D := by rw [← Nat.add_mul]; congr 1; omega
    have hDK : D * K = K * D := Nat.mul_comm D K
    -- 2 (K - m) D ≥ 2 (D - n) K - D
    have h1 : 2 * ((D - n) * K) ≤ 2 * ((K - m) * D) + D := by omega
    have h2 : K' * (2 * ((D - n) * K)) ≤ K' * (2 * ((K - m) * D) + D) := Nat.mul_le_mul_left _ h1
    have h3 : D * K < (D - n) * K' * K := Nat.mul_lt_mul_of_pos_right hK'D hK
    have h4 : D * K' < (D - n) * K * K' := Nat.mul_lt_mul_of_pos_right hKD hK'
    have e1 : K' * (2 * ((D - n) * K)) = 2 * ((D - n) * K * K') := by
      rw [Nat.mul_left_comm, Nat.mul_comm K']
    have e2 : (D - n) * K' * K = (D - n) * K * K' := by
      rw [Nat.mul_assoc, Nat.mul_comm K', ← Nat.mul_assoc]
    have e3 : K' * (2 * ((K - m) * D) + D) = 2 * (K' * (K - m)) * D + D * K' := by
      rw [Nat.mul_add, Nat.mul_left_comm, Nat.mul_comm K' D, ← Nat.mul_assoc K', ← Nat.mul_assoc 2]
    rw [e1, e3] at h2
    rw [e2] at h3
    have h5 : K * D < 2 * (K' * (K - m)) * D := by omega
    exact Nat.lt_of_mul_lt_mul_right h5

theorem whole_nat (n D j : Nat) (hD0 : 0 < D) (hj : j ≤ 53) (hw : n / D + 1 ≤ 2 ^ j) (hD : D < (D - n % D) * 2 ^ (53 - j)) :
    whole n D = ((n / D : Nat) : Int) := by
  unfold whole
  have h := sum_floor (n / D) (n % D) D j (Nat.mod_lt _ hD0) hj hw hD
  simp only [Int.natAbs_natCast] at h ⊢
  rw [h]
  cases n with
  | zero => simp
  | succ n => rw [Int.sign_natCast_of_ne_zero (by omega), Int.one_mul]

theorem whole_neg (d u : Int) : whole (-d) u = -whole d u := by
  unfold whole; simp only [Int.natAbs_neg, Int.sign_neg, Int.neg_mul]

theorem whole_nonneg (d u : Int) (h : 0 ≤ d) : 0 ≤ whole d u := by
  unfold whole
  simp only
  apply Int.mul_nonneg
  · exact Int.sign_nonneg_iff.2 h
  · exact Int.natCast_nonneg _

theorem whole_eq (d : Int) (D j : Nat) (hD0 : 0 < D) (hj : j ≤ 53) (hw : d.natAbs / D + 1 ≤ 2 ^ j)
    (hD : D < (D - d.natAbs % D) * 2 ^ (53 - j)) : whole d D = d.tdiv D := by
  rcases Int.natAbs_eq d with e | e
  · generalize d.natAbs = n at *
    subst e
    rw [whole_nat n D j hD0 hj hw hD, Int.ofNat_tdiv]
  · generalize d.natAbs = n at *
    subst e
    rw [Int.neg_tdiv, whole_neg, whole_nat n D j hD0 hj hw hD, Int.ofNat_tdiv]

/-- Below 100 hours nothing is lost. -/
theorem whole_small (d : Int) (h : d.natAbs < 360000000000000) :
    whole d hour = d.tdiv hour ∧ whole d minute = d.tdiv minute ∧ whole d second = d.tdiv second := by
  refine ⟨whole_eq d 3600000000000 7 (by decide) (by decide) (by omega) ?_, whole_eq d 60000000000 13 (by decide) (by decide) (by omega) ?_,
    whole_eq d 1000000000 19 (by decide) (by decide) (by omega) ?_⟩ <;> omega

/-- Nor for whole seconds, of which a duration has fewer than 2^34. -/
theorem whole_seconds (d : Int) (n : Int) (hn : n.natAbs < 2 ^ 34) (h : d = n * second) :
    whole d hour = d.tdiv hour ∧ whole d minute = d.tdiv minute ∧ whole d second = d.tdiv second := by
  have e : d.natAbs = n.natAbs * 1000000000 := by rw [h, Int.natAbs_mul]; rfl
  refine ⟨whole_eq d 3600000000000 23 (by decide) (by decide) (by omega) ?_, whole_eq d 60000000000 29 (by decide) (by decide) (by omega) ?_,
    whole_eq d 1000000000 34 (by decide) (by decide) (by omega) ?_⟩ <;> omega

end Verif.Proofs.Float
