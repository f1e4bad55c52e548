import Verif.Lemmas.AbortRun

/-
Where linear pools are stuck, and how far from there.
-/

namespace Verif
open Spec

theorem rootArg_mono (c : LinearPriceCurve) {A B : Nat} (h : A ≤ B) : rootArg c A ≤ rootArg c B := by
  unfold rootArg
  exact Nat.add_le_add_left (Nat.div_le_div_right (Nat.mul_le_mul_left _ (Nat.mul_le_mul_right _ h))) _

/-- Adding tokens one by one, the radicand grows by at most what the tokens already there contributed
per token, and one. -/
theorem rootArg_succ (c : LinearPriceCurve) (hd : 0 < c.slope_denominator.toNat) {A : Nat}
    (hA : 1 ≤ A) : rootArg c (A + 1) ≤ 2 * rootArg c A + 1 := by
  unfold rootArg
  generalize c.initial_token_a_price_numerator.toNat ^ 2 * 10 ^ 18 /
    c.initial_token_a_price_denominator.toNat ^ 2 = P
  generalize c.slope_denominator.toNat = d at *
  have e1 : 2 * c.slope_numerator.toNat * (A * 10 ^ 18) = A * (2 * c.slope_numerator.toNat * 10 ^ 18) := by
    ring
  have e2 : 2 * c.slope_numerator.toNat * ((A + 1) * 10 ^ 18) =
      A * (2 * c.slope_numerator.toNat * 10 ^ 18) + 2 * c.slope_numerator.toNat * 10 ^ 18 := by ring
  rw [e1, e2]
  generalize 2 * c.slope_numerator.toNat * 10 ^ 18 = u
  have h1 : u ≤ A * u := Nat.le_mul_of_pos_left u hA
  have h2 : (A * u + u) / d ≤ 2 * (A * u / d) + 1 := by
    have := Nat.div_add_mod (A * u) d
    have hm := Nat.mod_lt (A * u) hd
    have : (A * u + u) / d < 2 * (A * u / d) + 2 := by
      rw [Nat.div_lt_iff_lt_mul hd]
      have e3 : (2 * (A * u / d) + 2) * d = 2 * (d * (A * u / d)) + 2 * d := by ring
      rw [e3]
      omega
    omega
  omega

/-- How much `d` more tokens add. -/
theorem rootArg_add (c : LinearPriceCurve) (A d : Nat) :
    rootArg c A + 2 * c.slope_numerator.toNat * (d * 10 ^ 18) / c.slope_denominator.toNat ≤
      rootArg c (A + d) := by
  unfold rootArg
  have e : 2 * c.slope_numerator.toNat * ((A + d) * 10 ^ 18) =
      2 * c.slope_numerator.toNat * (A * 10 ^ 18) + 2 * c.slope_numerator.toNat * (d * 10 ^ 18) := by
    ring
  rw [e]
  have : ∀ u v n : Nat, u / n + v / n ≤ (u + v) / n := fun _ _ _ => Nat.div_add_div_le_add_div
  have := this (2 * c.slope_numerator.toNat * (A * 10 ^ 18))
    (2 * c.slope_numerator.toNat * (d * 10 ^ 18)) c.slope_denominator.toNat
  omega

/-- Just beyond a band nothing is stuck. -/
theorem not_stuck {c : LinearPriceCurve} {A h : Nat} (h1 : 2 ^ 64 * 4 ^ h ≤ rootArg c A)
    (h2 : rootArg c A ≤ 2 ^ 65 * 4 ^ h) : ¬ Stuck c A := by
  rintro ⟨j, _, g1, g2⟩
  have hj : h < j := by
    by_contra hc
    have : 4 ^ j ≤ 4 ^ h := Nat.pow_le_pow_right (by norm_num) (Nat.not_lt.1 hc)
    omega
  have : 4 ^ (h + 1) ≤ 4 ^ j := Nat.pow_le_pow_right (by norm_num) hj
  rw [pow_succ] at this
  omega

/-- From a stuck pool with something in it to the end of the band. -/
theorem leave_band {c : LinearPriceCurve} (hd : 0 < c.slope_denominator.toNat) {A D h : Nat}
    (hA : 1 ≤ A) (h0 : rootArg c A < 2 ^ 64 * 4 ^ h) (h1 : 2 ^ 64 * 4 ^ h ≤ rootArg c (A + D)) :
    ∃ d ≤ D, ¬ Stuck c (A + d) := by
  induction D with
  | zero => exact absurd h1 (by rw [Nat.add_zero]; omega)
  | succ D ih =>
    by_cases hc : 2 ^ 64 * 4 ^ h ≤ rootArg c (A + D)
    · obtain ⟨d, hd1, hd2⟩ := ih hc
      exact ⟨d, by omega, hd2⟩
    · refine ⟨D + 1, le_rfl, not_stuck h1 ?_⟩
      have := rootArg_succ c hd (A := A + D) (by omega)
      rw [← Nat.add_assoc]
      omega

/-- In a stuck pool tokens can only arrive. -/
theorem stuck_step {c : LinearPriceCurve} (hv : Linear.isCurveParamValid c = .ok ())
    {x y : Nat × Nat} (hx : x.1 < 2 ^ 64) (hx2 : x.2 < 2 ^ 64) (hk : Stuck c x.1)
    (h : PoolStep c x y) : x.1 ≤ y.1 ∧ x.2 ≤ y.2 ∧ y.1 < 2 ^ 64 := by
  cases h with
  | @buy A B s r hs hr _ _ =>
    have e := Linear.swapWithoutFees_stuck (s := s) (a := A) (b := B) (dir := .AtoB) hv hx hx2 hk
    rw [e] at hr; cases hr
  | @sell A B s r hs hr _ _ =>
    have e := Linear.swapWithoutFees_stuck (s := s) (a := B) (b := A) (dir := .BtoA) hv hx2 hx hk
    rw [e] at hr; cases hr
  | donate u v hA hB => exact ⟨Nat.le_add_right _ _, Nat.le_add_right _ _, hA⟩

end Verif
