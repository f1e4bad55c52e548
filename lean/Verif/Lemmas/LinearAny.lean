import Mathlib.Data.Nat.Cast.Order.Field
import Verif.Lemmas.LinearAcc

/-
Linear curves with arbitrary valid parameters: the position rounded down against the exact curve, and
the buy-out test at large B balances.
-/

namespace Verif
namespace Linear
open Dfs

variable {c : LinearPriceCurve}

theorem marginal_sq (c : LinearPriceCurve) (A : Nat) :
    Spec.marginal c A * Spec.marginal c A =
      ((pn c : ℝ) / pd c) ^ 2 + 2 * ((sn c : ℝ) / sd c) * A := by
  unfold Spec.marginal
  have e1 : ((Spec.price c : ℚ) : ℝ) = (pn c : ℝ) / pd c := by unfold Spec.price; push_cast; rfl
  have e2 : ((Spec.slope c : ℚ) : ℝ) = (sn c : ℝ) / sd c := by unfold Spec.slope; push_cast; rfl
  rw [e1, e2]
  exact Real.mul_self_sqrt (by positivity)

theorem rad_leR (c : LinearPriceCurve) (A : Nat) :
    (rad c (A * ONE) : ℝ) ≤ Spec.marginal c A * Spec.marginal c A * ONE := by
  rw [marginal_sq]
  unfold rad
  have h1 : ((pn c * pn c * ONE / (pd c * pd c) : Nat) : ℝ) ≤
      (pn c * pn c * ONE : Nat) / (pd c * pd c : Nat) := Nat.cast_div_le
  have h2 : ((2 * sn c * (A * ONE) / sd c : Nat) : ℝ) ≤ (2 * sn c * (A * ONE) : Nat) / (sd c : Nat) :=
    Nat.cast_div_le
  push_cast at h1 h2 ⊢
  calc _ ≤ (pn c : ℝ) * pn c * ONE / (pd c * pd c) + 2 * sn c * (A * ONE) / sd c := add_le_add h1 h2
    _ = _ := by
      rw [add_mul, div_pow, pow_two, pow_two]
      ring

/-- Rounded down, the position exceeds the exact one by at most `10^-18` over the slope. -/
theorem bValue_down_leR (hc : Nz c) {A b : Nat} (hA : A < 36893488147419103232)
    (h : bValue c (A * ONE) false = .ok b) :
    (b : ℝ) / ONE ≤ Spec.position c A + 1 / ONE / (Spec.slope c : ℝ) := by
  obtain ⟨root, hr, hb⟩ := bValue_ok hc hA h
  have ho := oneR_pos
  have hsn : (0 : ℝ) < sn c := by exact_mod_cast Nat.pos_of_ne_zero hc.sn
  have hsd : (0 : ℝ) < sd c := by exact_mod_cast Nat.pos_of_ne_zero hc.sd
  have hpd : (0 : ℝ) < pd c := by exact_mod_cast Nat.pos_of_ne_zero hc.pd
  have e1 : ((Spec.price c : ℚ) : ℝ) = (pn c : ℝ) / pd c := by unfold Spec.price; push_cast; rfl
  have e2 : ((Spec.slope c : ℚ) : ℝ) = (sn c : ℝ) / sd c := by unfold Spec.slope; push_cast; rfl
  have hm0 : 0 ≤ Spec.marginal c A := Real.sqrt_nonneg _
  have hmp : (pn c : ℝ) / pd c ≤ Spec.marginal c A := by
    apply le_of_mul_self_le hm0
    rw [marginal_sq, ← pow_two]
    have : (0 : ℝ) ≤ 2 * ((sn c : ℝ) / sd c) * A := by positivity
    linarith
  have hroot : (root : ℝ) ≤ Spec.marginal c A * ONE := by
    apply le_of_mul_self_le (by positivity)
    have h1 : (root : ℝ) * root ≤ rad c (A * ONE) * ONE := by
      exact_mod_cast sqrtU64_down_sq (rad_lt c (whole_le_AMAX hA)) hr
    calc (root : ℝ) * root ≤ rad c (A * ONE) * ONE := h1
      _ ≤ Spec.marginal c A * Spec.marginal c A * ONE * ONE :=
        mul_le_mul_of_nonneg_right (rad_leR c A) ho.le
      _ = _ := by ring
  have hprice : (pn c : ℝ) / pd c * ONE - 1 ≤ (price c : ℝ) := by
    have h1 : pn c * ONE < (price c + 1) * pd c := by
      unfold price
      rw [Nat.mul_comm (_ + 1)]
      exact Nat.lt_mul_div_succ _ (Nat.pos_of_ne_zero hc.pd)
    have h2 : (pn c : ℝ) * ONE < (price c + 1) * pd c := by exact_mod_cast h1
    have h3 : (pn c : ℝ) / pd c * ONE < price c + 1 := by
      rw [div_mul_eq_mul_div, div_lt_iff₀ hpd]
      exact h2
    linarith
  have hN : ((root - price c : Nat) : ℝ) ≤ (Spec.marginal c A - (pn c : ℝ) / pd c) * ONE + 1 := by
    rcases le_total (price c) root with hle | hle
    · rw [Nat.cast_sub hle]
      linarith
    · rw [Nat.sub_eq_zero_of_le hle]
      have : 0 ≤ (Spec.marginal c A - (pn c : ℝ) / pd c) * ONE :=
        mul_nonneg (by linarith) ho.le
      push_cast
      linarith
  have hbR : (b : ℝ) ≤ ((root - price c : Nat) : ℝ) * sd c / sn c := by
    rw [hb]
    have : (((root - price c) * sd c / sn c : Nat) : ℝ) ≤ ((root - price c) * sd c : Nat) / (sn c : Nat) :=
      Nat.cast_div_le
    push_cast at this ⊢
    exact this
  unfold Spec.position
  rw [e1, e2, div_le_iff₀ ho]
  calc (b : ℝ) ≤ ((root - price c : Nat) : ℝ) * sd c / sn c := hbR
    _ ≤ ((Spec.marginal c A - (pn c : ℝ) / pd c) * ONE + 1) * sd c / sn c := by
      apply div_le_div_of_nonneg_right _ hsn.le
      exact mul_le_mul_of_nonneg_right hN hsd.le
    _ = _ := by field_simp

theorem position_mono (hc : Nz c) {A A' : Nat} (h : A ≤ A') : Spec.position c A ≤ Spec.position c A' := by
  have hsn : (0 : ℝ) < sn c := by exact_mod_cast Nat.pos_of_ne_zero hc.sn
  have hsd : (0 : ℝ) < sd c := by exact_mod_cast Nat.pos_of_ne_zero hc.sd
  have e2 : ((Spec.slope c : ℚ) : ℝ) = (sn c : ℝ) / sd c := by unfold Spec.slope; push_cast; rfl
  have hs : (0 : ℝ) < ((Spec.slope c : ℚ) : ℝ) := by rw [e2]; positivity
  have hm : Spec.marginal c A ≤ Spec.marginal c A' := by
    unfold Spec.marginal
    apply Real.sqrt_le_sqrt
    have : (A : ℝ) ≤ A' := by exact_mod_cast h
    have := mul_le_mul_of_nonneg_left this (by positivity : 0 ≤ 2 * ((Spec.slope c : ℚ) : ℝ))
    linarith
  unfold Spec.position
  exact div_le_div_of_nonneg_right (by linarith) hs.le

theorem position_nonneg (hc : Nz c) (A : Nat) : 0 ≤ Spec.position c A := by
  have h0 : Spec.position c 0 = 0 := by
    have e1 : (0 : ℝ) ≤ ((Spec.price c : ℚ) : ℝ) := by
      unfold Spec.price; push_cast; positivity
    unfold Spec.position Spec.marginal
    rw [Nat.cast_zero, mul_zero, add_zero, Real.sqrt_sq e1, sub_self, zero_div]
  rw [← h0]
  exact position_mono hc (Nat.zero_le _)

/-- The buy-out test fails at every B balance above one at which the closed form already exceeds the
offer. -/
theorem maximumARemaining_none (hc : Nz c) {A b0 s B B1 : Nat} (hA : A < 18446744073709551616)
    (hs : s < 18446744073709551616) (hB : B1 ≤ B)
    (hbig : (A + s + 1) * ONE < amtF c (b0 + B1 * ONE)) :
    maximumARemaining c (A * ONE) b0 s B = .none := by
  rcases hm : maximumARemaining c (A * ONE) b0 s B with ⟨x, y⟩ | _ | _
  · exfalso
    obtain ⟨_, hxs, v, hv, hav, hx⟩ := maximumARemaining_ok hm
    have h1 : v - A * ONE + roundingCorrection < ONE * (x + 1) := by
      rw [hx]; exact Nat.lt_mul_div_succ _ ONE_pos
    have h2 : ONE * (x + 1) ≤ (s + 1) * ONE := by rw [Nat.mul_comm]; gcongr
    have h3 : v < (A + s + 1) * ONE := by
      have : (A + s + 1) * ONE = A * ONE + (s + 1) * ONE := by ring
      rw [this]; omega
    have h4 : (A + s + 1) * ONE < VMAX := by rw [ONE_val, VMAX_val]; omega
    have e := (amt_eq_ok hc.sn hv (lt_trans h3 h4)).1
    have h5 : amtF c (b0 + B1 * ONE) ≤ amtF c (b0 + B * ONE) :=
      amtF_mono c (by gcongr)
    omega
  · rfl
  · exact absurd hm maximumARemaining_ne_panic

end Linear
end Verif
