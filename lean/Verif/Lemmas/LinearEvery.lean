import Verif.Lemmas.Steep
import Verif.Spec.Grain

/-
Helper lemmas for C97: the computed position against the exact one, for every valid curve.
-/

namespace Verif
namespace Linear
open Dfs

variable {c : LinearPriceCurve}

/-- The root of the truncated radicand against the exact marginal price. -/
theorem X_bounds (hc : Nz c) (A : Nat) :
    X c A ≤ Spec.marginal c A * ONE ∧
      Spec.marginal c A * ONE - 2 / Spec.marginal c A ≤ X c A := by
  have ho := oneR_pos
  have hx := X_nonneg c A
  have hm0 : 0 ≤ Spec.marginal c A := Real.sqrt_nonneg _
  constructor
  · apply le_of_mul_self_le (by positivity)
    rw [X_sq]
    calc (rad c (A * ONE) : ℝ) * ONE ≤ Spec.marginal c A * Spec.marginal c A * ONE * ONE :=
        mul_le_mul_of_nonneg_right (rad_leR c A) ho.le
      _ = _ := by ring
  · rcases hm0.eq_or_lt with hm | hm
    · rw [← hm]; simpa using hx
    · by_contra hcon
      have hlt := not_le.1 hcon
      have h0 : 0 ≤ X c A + 2 / Spec.marginal c A := by positivity
      have h1 : X c A + 2 / Spec.marginal c A < Spec.marginal c A * ONE := by linarith
      have h2 := rad_gtR hc A
      rw [← marginal_sq] at h2
      have h3 : (Spec.marginal c A * Spec.marginal c A * ONE - 2) * ONE ≤ X c A * X c A := by
        rw [X_sq]; exact mul_le_mul_of_nonneg_right h2 ho.le
      have h4 : X c A * X c A < (Spec.marginal c A * ONE - 2 / Spec.marginal c A) *
          (Spec.marginal c A * ONE) := by
        have h5 : X c A ≤ Spec.marginal c A * ONE := by
          have : 0 < 2 / Spec.marginal c A := by positivity
          linarith
        have h6 : 0 < Spec.marginal c A * ONE := by positivity
        calc X c A * X c A ≤ X c A * (Spec.marginal c A * ONE) := by gcongr
          _ < _ := by gcongr
      have e : (Spec.marginal c A * ONE - 2 / Spec.marginal c A) * (Spec.marginal c A * ONE) =
          (Spec.marginal c A * Spec.marginal c A * ONE - 2) * ONE := by
        field_simp
      rw [e] at h4
      linarith

theorem price_bounds (hc : Nz c) :
    ((pn c : ℝ) / pd c) * ONE - 1 ≤ (price c : ℝ) ∧ (price c : ℝ) ≤ (pn c : ℝ) / pd c * ONE := by
  have h1 := lt_floor (pn c * ONE) (pd c) hc.pd
  have h2 : ((pn c * ONE / pd c : Nat) : ℝ) ≤ (pn c * ONE : Nat) / (pd c : Nat) := Nat.cast_div_le
  unfold price
  push_cast at h1 h2
  have e : (pn c : ℝ) / pd c * ONE = pn c * ONE / pd c := by ring
  rw [e]
  exact ⟨by linarith, h2⟩

/-- Division by the slope. -/
theorem scale_any (hc : Nz c) (n : Nat) :
    ((n * sd c / sn c : Nat) : ℝ) ≤ n / ((sn c : ℝ) / sd c) ∧
      (n : ℝ) / ((sn c : ℝ) / sd c) < ((n * sd c / sn c : Nat) : ℝ) + 1 := by
  have h1 := lt_floor (n * sd c) (sn c) hc.sn
  have h2 : ((n * sd c / sn c : Nat) : ℝ) ≤ (n * sd c : Nat) / (sn c : Nat) := Nat.cast_div_le
  push_cast at h1 h2
  have e : (n : ℝ) / ((sn c : ℝ) / sd c) = n * sd c / sn c := by
    rw [div_div_eq_mul_div]
  rw [e]
  exact ⟨h2, h1⟩

/-- The pure estimate for any root `R` between `lo` and `hi`. -/
theorem position_any (hc : Nz c) {b root : Nat} {lo hi : ℝ} (h : b = (root - price c) * sd c / sn c)
    (h1 : lo ≤ root) (h2 : (root : ℝ) ≤ hi) (hhi : (pn c : ℝ) / pd c * ONE ≤ hi + 1) :
    (lo - (pn c : ℝ) / pd c * ONE) / ((sn c : ℝ) / sd c) / ONE - 1 / ONE < (b : ℝ) / ONE ∧
      (b : ℝ) / ONE ≤ (hi - (pn c : ℝ) / pd c * ONE + 1) / ((sn c : ℝ) / sd c) / ONE := by
  have ho := oneR_pos
  have hsn : (0 : ℝ) < sn c := by exact_mod_cast Nat.pos_of_ne_zero hc.sn
  have hsd : (0 : ℝ) < sd c := by exact_mod_cast Nat.pos_of_ne_zero hc.sd
  have hs : (0 : ℝ) < (sn c : ℝ) / sd c := div_pos hsn hsd
  obtain ⟨p1, p2⟩ := price_bounds hc
  obtain ⟨s1, s2⟩ := scale_any hc (root - price c)
  rw [← h] at s1 s2
  have hlo : (root : ℝ) - price c ≤ ((root - price c : Nat) : ℝ) := by
    rcases Nat.le_total (price c) root with hc | hc
    · rw [Nat.cast_sub hc]
    · have : (root : ℝ) ≤ price c := by exact_mod_cast hc
      have : (0 : ℝ) ≤ ((root - price c : Nat) : ℝ) := Nat.cast_nonneg _
      linarith
  have hup : ((root - price c : Nat) : ℝ) ≤ hi - (pn c : ℝ) / pd c * ONE + 1 := by
    rcases Nat.le_total (price c) root with hc | hc
    · rw [Nat.cast_sub hc]; linarith
    · rw [Nat.sub_eq_zero_of_le hc]; push_cast; linarith
  constructor
  · rw [← sub_div]
    apply div_lt_div_of_pos_right _ ho
    have : (lo - (pn c : ℝ) / pd c * ONE) / ((sn c : ℝ) / sd c) ≤
        ((root - price c : Nat) : ℝ) / ((sn c : ℝ) / sd c) := by
      gcongr; linarith
    linarith
  · apply div_le_div_of_nonneg_right _ ho.le
    refine le_trans s1 ?_
    gcongr

theorem slope_realE (c : LinearPriceCurve) : ((Spec.slope c : ℚ) : ℝ) = (sn c : ℝ) / sd c := by
  unfold Spec.slope; push_cast; rfl

theorem price_realE (c : LinearPriceCurve) : ((Spec.price c : ℚ) : ℝ) = (pn c : ℝ) / pd c := by
  unfold Spec.price; push_cast; rfl

theorem price_le_marginal (c : LinearPriceCurve) (A : Nat) :
    (pn c : ℝ) / pd c ≤ Spec.marginal c A := by
  have hm0 : 0 ≤ Spec.marginal c A := Real.sqrt_nonneg _
  apply le_of_mul_self_le hm0
  rw [marginal_sq, ← pow_two]
  have : (0 : ℝ) ≤ 2 * ((sn c : ℝ) / sd c) * A := by positivity
  linarith

theorem oneR : (ONE : ℝ) = 10 ^ 18 := by rw [ONE_val]; norm_num

/-- Rounding up, for every valid curve. -/
theorem up_any (hc : Nz c) {A b : Nat} (hA : A < 36893488147419103232)
    (hb : bValue c (A * ONE) true = .ok b) :
    Spec.position c A - Spec.grain c A - 1 / 10 ^ 18 < (b : ℝ) / 10 ^ 18 ∧
      (b : ℝ) / 10 ^ 18 ≤ Spec.position c A + Spec.blur c A + Spec.notch c := by
  obtain ⟨root, h1, h2⟩ := bValue_ok hc hA hb
  obtain ⟨r1, r2⟩ := root_up_bounds hA h1
  obtain ⟨x1, x2⟩ := X_bounds hc A
  have ho := oneR_pos
  have hsn : (0 : ℝ) < sn c := by exact_mod_cast Nat.pos_of_ne_zero hc.sn
  have hsd : (0 : ℝ) < sd c := by exact_mod_cast Nat.pos_of_ne_zero hc.sd
  have hs : (0 : ℝ) < (sn c : ℝ) / sd c := div_pos hsn hsd
  have hp := price_le_marginal c A
  have hm0 : 0 ≤ Spec.marginal c A := Real.sqrt_nonneg _
  have hhi : (root : ℝ) ≤ Spec.marginal c A * ONE + Spec.marginal c A * ONE / 2 ^ 30 := by
    have : X c A / 2 ^ 30 ≤ Spec.marginal c A * ONE / 2 ^ 30 := by gcongr
    linarith
  have hpo : (pn c : ℝ) / pd c * ONE ≤ Spec.marginal c A * ONE := by gcongr
  have hmo : 0 ≤ Spec.marginal c A * ONE / 2 ^ 30 := by positivity
  obtain ⟨q1, q2⟩ := position_any hc h2 (le_trans x2 r1) hhi (by linarith)
  unfold Spec.grain Spec.blur Spec.notch Spec.position
  rw [slope_realE, price_realE, ← oneR]
  generalize (sn c : ℝ) / sd c = s at *
  generalize (pn c : ℝ) / pd c = p at *
  generalize Spec.marginal c A = m at *
  generalize (ONE : ℝ) = o at *
  constructor
  · refine lt_of_le_of_lt ?_ q1
    have e : (m * o - 2 / m - p * o) / s / o = (m - p) / s - 2 / (o * s * m) := by
      rcases hm0.eq_or_lt with hm | hm
      · rw [← hm]; simp; field_simp
      · field_simp; ring
    rw [e]
    have : 2 / (o * s * m) ≤ 5 / (o * s * m) := by gcongr; norm_num
    linarith
  · refine le_trans q2 (le_of_eq ?_)
    field_simp
    ring

/-- Rounding down, for every valid curve. -/
theorem down_any (hc : Nz c) {A b : Nat} (hA : A < 36893488147419103232)
    (hb : bValue c (A * ONE) false = .ok b) :
    Spec.position c A - Spec.blur c A - Spec.grain c A - 1 / 10 ^ 18 < (b : ℝ) / 10 ^ 18 ∧
      (b : ℝ) / 10 ^ 18 ≤ Spec.position c A + Spec.notch c := by
  have hsn : (0 : ℝ) < sn c := by exact_mod_cast Nat.pos_of_ne_zero hc.sn
  have hsd : (0 : ℝ) < sd c := by exact_mod_cast Nat.pos_of_ne_zero hc.sd
  have hs : (0 : ℝ) < (sn c : ℝ) / sd c := div_pos hsn hsd
  have ho := oneR_pos
  have hm0 : 0 ≤ Spec.marginal c A := Real.sqrt_nonneg _
  constructor
  swap
  · have h := bValue_down_leR hc hA hb
    unfold Spec.notch
    rw [oneR] at h
    rw [div_div] at h
    exact h
  obtain ⟨root, h1, h2⟩ := bValue_ok hc hA hb
  obtain ⟨x1, x2⟩ := X_bounds hc A
  have hpo := price_le_marginal c A
  by_cases hrad : rad c (A * ONE) = 2
  · -- so small a radicand that the allowance covers the whole position
    have hb0 : (0 : ℝ) ≤ (b : ℝ) / 10 ^ 18 := by positivity
    have hsm : Spec.marginal c A * Spec.marginal c A * ONE ≤ 5 := by
      have := rad_gtR hc A
      rw [← marginal_sq, hrad] at this
      push_cast at this
      linarith
    have hbl : 0 ≤ Spec.blur c A := by
      unfold Spec.blur; rw [slope_realE]; positivity
    have hpos : Spec.position c A ≤ Spec.grain c A := by
      unfold Spec.position Spec.grain
      rw [slope_realE, price_realE, ← oneR]
      have hp0 : (0 : ℝ) ≤ (pn c : ℝ) / pd c := by positivity
      rcases hm0.eq_or_lt with hm | hm
      · rw [← hm] at hpo ⊢
        have : (pn c : ℝ) / pd c = 0 := le_antisymm hpo hp0
        rw [this]; simp
      · have e : 5 / (ONE * ((sn c : ℝ) / sd c) * Spec.marginal c A) =
            5 / (ONE * Spec.marginal c A) / ((sn c : ℝ) / sd c) := by
          rw [div_div]; ring_nf
        rw [e]
        apply div_le_div_of_nonneg_right _ hs.le
        have : Spec.marginal c A ≤ 5 / (ONE * Spec.marginal c A) := by
          rw [le_div_iff₀ (by positivity)]; linarith
        linarith
    have : (0 : ℝ) < 1 / 10 ^ 18 := by positivity
    linarith
  obtain ⟨r1, r2⟩ := root_down_bounds hA hrad h1
  obtain ⟨q1, _⟩ := position_any (hi := root + (pn c : ℝ) / pd c * ONE) hc h2
    (show Spec.marginal c A * ONE - 2 / Spec.marginal c A - Spec.marginal c A * ONE / 2 ^ 30 ≤
        (root : ℝ) by
      have : X c A / 2 ^ 30 ≤ Spec.marginal c A * ONE / 2 ^ 30 := by gcongr
      linarith) (by have : (0 : ℝ) ≤ (pn c : ℝ) / pd c * ONE := by positivity
                    linarith) (by have : (0 : ℝ) ≤ root := Nat.cast_nonneg _
                                  linarith)
  unfold Spec.grain Spec.blur Spec.position
  rw [slope_realE, price_realE, ← oneR]
  generalize (sn c : ℝ) / sd c = s at *
  generalize (pn c : ℝ) / pd c = p at *
  generalize Spec.marginal c A = m at *
  generalize (ONE : ℝ) = o at *
  refine lt_of_le_of_lt ?_ q1
  have e : (m * o - 2 / m - m * o / 2 ^ 30 - p * o) / s / o =
      (m - p) / s - m / (2 ^ 30 * s) - 2 / (o * s * m) := by
    rcases hm0.eq_or_lt with hm | hm
    · rw [← hm]; simp; field_simp
    · field_simp; ring
  rw [e]
  have : 2 / (o * s * m) ≤ 5 / (o * s * m) := by gcongr; norm_num
  linarith

end Linear
end Verif
