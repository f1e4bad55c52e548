import Mathlib.Tactic.Linarith
import Mathlib.Tactic.FieldSimp
import Mathlib.Tactic.Positivity
import Verif.Spec.Position
import Verif.Lemmas.LinearTrades
import Verif.Lemmas.SqrtErr

/-
Two-sided accuracy of the linear curve: the computed position and the computed cost against the exact
real curve.
-/

namespace Verif
namespace Linear
open Dfs

variable {c : LinearPriceCurve} {H P Q : Nat}

/-! ### The exact curve in raw units -/

/-- The exact root in raw units. -/
noncomputable def X (c : LinearPriceCurve) (A : Nat) : ℝ := √((rad c (A * ONE) : ℝ) * ONE)

theorem X_nonneg (c : LinearPriceCurve) (A : Nat) : 0 ≤ X c A := Real.sqrt_nonneg _

theorem X_sq (c : LinearPriceCurve) (A : Nat) : X c A * X c A = (rad c (A * ONE) : ℝ) * ONE :=
  Real.mul_self_sqrt (by positivity)

theorem oneR_pos : (0 : ℝ) < ONE := by exact_mod_cast ONE_pos

theorem Rep.HR (h : Rep c H P Q) : (0 : ℝ) < H := by exact_mod_cast h.H_pos

theorem Rep.slopeR (h : Rep c H P Q) : ((Spec.slope c : ℚ) : ℝ) = 2 * H / ONE := by
  have h1 : Spec.slope c = 2 * ((H : ℚ) / ONE) := by rw [← sn_cast h]; ring
  rw [h1]; push_cast; ring

theorem Rep.priceR (h : Rep c H P Q) : ((Spec.price c : ℚ) : ℝ) = P / ONE := by
  rw [pn_cast h]; push_cast; ring

theorem Rep.radR (h : Rep c H P Q) (A : Nat) :
    (rad c (A * ONE) : ℝ) * ONE = P * P + 4 * H * A * ONE := by
  exact_mod_cast h.rad_one A

theorem Rep.marginal_eq (h : Rep c H P Q) (A : Nat) : Spec.marginal c A = X c A / ONE := by
  have ho := oneR_pos
  unfold Spec.marginal
  rw [h.slopeR, h.priceR]
  have e : ((P : ℝ) / ONE) ^ 2 + 2 * (2 * H / ONE) * A = (X c A / ONE) ^ 2 := by
    rw [div_pow (X c A), pow_two (X c A), X_sq, h.radR]
    field_simp
    ring
  rw [e]
  exact Real.sqrt_sq (div_nonneg (X_nonneg c A) ho.le)

theorem Rep.position_eq (h : Rep c H P Q) (A : Nat) :
    Spec.position c A = (X c A - P) / (2 * H) := by
  have ho := oneR_pos
  have hH := h.HR
  unfold Spec.position
  rw [h.marginal_eq, h.slopeR, h.priceR]
  field_simp

theorem Rep.blur_eq (h : Rep c H P Q) (A : Nat) :
    Spec.blur c A = X c A / (2 ^ 30 * (2 * H)) := by
  have ho := oneR_pos
  have hH := h.HR
  unfold Spec.blur
  rw [h.marginal_eq, h.slopeR]
  field_simp

theorem Rep.P_le_X (h : Rep c H P Q) (A : Nat) : (P : ℝ) ≤ X c A := by
  unfold X
  apply Real.le_sqrt_of_sq_le
  rw [h.radR, pow_two]
  have : (0 : ℝ) ≤ 4 * H * A * ONE := by positivity
  linarith

theorem Rep.rad_ne_two (h : Rep c H P Q) (A : Nat) : rad c (A * ONE) ≠ 2 := by
  rw [h.rad_eq]
  intro h2
  have hH := h.H_pos
  rcases Nat.eq_zero_or_pos A with hA | hA
  · have hQ : Q = 2 := by rw [hA] at h2; omega
    have hp := h.PP
    rw [hQ, ONE_val] at hp
    have : P < 1414213563 := by nlinarith
    have : 1414213562 < P := by nlinarith
    omega
  · have : 1 ≤ H * A := Nat.mul_pos hH hA
    have e : 4 * H * A = 4 * (H * A) := by ring
    omega

/-! ### The computed position -/

theorem le_of_mul_self_le {x y : ℝ} (hy : 0 ≤ y) (h : x * x ≤ y * y) : x ≤ y := by
  by_contra hc
  have hlt : y < x := not_le.1 hc
  have : y * y < x * x := mul_self_lt_mul_self hy hlt
  linarith

theorem root_up_bounds {A root : Nat} (hA : A < 36893488147419103232)
    (h1 : sqrtU64 (rad c (A * ONE)) true = .ok root) :
    X c A ≤ root ∧ (root : ℝ) ≤ X c A + X c A / 2 ^ 30 := by
  have hlt := rad_lt c (whole_le_AMAX hA)
  have hx := X_nonneg c A
  have hsq : (rad c (A * ONE) : ℝ) * ONE ≤ root * root := by
    exact_mod_cast sqrtU64_up_sq hlt h1
  have herr : root * root * (1073741824 * 1073741824) ≤
      rad c (A * ONE) * ONE * (1073741825 * 1073741825) := by
    rcases Nat.lt_or_ge (rad c (A * ONE)) 16 with h16 | h16
    · obtain ⟨d, u, _, hu, _, h⟩ := tiny_err h16
      rw [h1] at hu; rw [Res.ok.inj hu]; exact h
    · exact up_err h16 hlt h1
  have herr' : (root : ℝ) * root * (1073741824 * 1073741824) ≤
      X c A * X c A * (1073741825 * 1073741825) := by
    rw [X_sq]; exact_mod_cast herr
  rw [← X_sq] at hsq
  have hr : (0 : ℝ) ≤ root := Nat.cast_nonneg _
  constructor
  · exact le_of_mul_self_le hr hsq
  · have : (root : ℝ) * 1073741824 ≤ X c A * 1073741825 := by
      apply le_of_mul_self_le (by positivity)
      calc (root : ℝ) * 1073741824 * (root * 1073741824)
          = root * root * (1073741824 * 1073741824) := by ring
        _ ≤ _ := herr'
        _ = _ := by ring
    norm_num
    linarith

theorem root_down_bounds {A root : Nat} (hA : A < 36893488147419103232)
    (h2 : rad c (A * ONE) ≠ 2) (h1 : sqrtU64 (rad c (A * ONE)) false = .ok root) :
    (root : ℝ) ≤ X c A ∧ X c A - X c A / 2 ^ 30 ≤ root := by
  have hlt := rad_lt c (whole_le_AMAX hA)
  have hx := X_nonneg c A
  have hsq : (root : ℝ) * root ≤ (rad c (A * ONE) : ℝ) * ONE := by
    exact_mod_cast sqrtU64_down_sq hlt h1
  have herr : rad c (A * ONE) * ONE * (1073741823 * 1073741823) ≤
      root * root * (1073741824 * 1073741824) := by
    rcases Nat.lt_or_ge (rad c (A * ONE)) 16 with h16 | h16
    · obtain ⟨d, u, hd, _, h, _⟩ := tiny_err h16
      rw [h1] at hd; rw [Res.ok.inj hd]; exact h h2
    · exact down_err h16 hlt h1
  have herr' : X c A * X c A * (1073741823 * 1073741823) ≤
      (root : ℝ) * root * (1073741824 * 1073741824) := by
    rw [X_sq]; exact_mod_cast herr
  rw [← X_sq] at hsq
  constructor
  · exact le_of_mul_self_le hx hsq
  · have : X c A * 1073741823 ≤ (root : ℝ) * 1073741824 := by
      apply le_of_mul_self_le (by positivity)
      calc X c A * 1073741823 * (X c A * 1073741823)
          = X c A * X c A * (1073741823 * 1073741823) := by ring
        _ ≤ _ := herr'
        _ = _ := by ring
    norm_num
    linarith

/-- Division by twice the half-slope, in the reals. -/
theorem Rep.scale_bounds (h : Rep c H P Q) (n : Nat) :
    ((n * sd c / sn c : Nat) : ℝ) / ONE ≤ n / (2 * H) ∧
      (n : ℝ) / (2 * H) < ((n * sd c / sn c : Nat) : ℝ) / ONE + 1 / ONE := by
  have ho := oneR_pos
  have hH := h.HR
  rw [h.scale]
  have h2H : 0 < 2 * H := Nat.mul_pos (by decide) h.H_pos
  have h1 : ((n * ONE / (2 * H) : Nat) : ℝ) * (2 * H) ≤ n * ONE := by
    exact_mod_cast Nat.div_mul_le_self _ _
  have h3 : (n : ℝ) * ONE < 2 * H * (((n * ONE / (2 * H) : Nat) : ℝ) + 1) := by
    exact_mod_cast Nat.lt_mul_div_succ (n * ONE) h2H
  generalize ((n * ONE / (2 * H) : Nat) : ℝ) = q at h1 h3
  constructor
  · rw [div_le_div_iff₀ ho (by positivity)]; exact h1
  · rw [← add_div, div_lt_div_iff₀ (by positivity) ho]; linarith

/-- Rounding up. -/
theorem Rep.up_bounds (h : Rep c H P Q) {A b : Nat} (hA : A < 36893488147419103232)
    (hb : bValue c (A * ONE) true = .ok b) :
    Spec.position c A - 1 / ONE < (b : ℝ) / ONE ∧
      (b : ℝ) / ONE ≤ Spec.position c A + Spec.blur c A := by
  obtain ⟨root, h1, h2⟩ := bValue_ok h.nz hA hb
  obtain ⟨r1, r2⟩ := root_up_bounds hA h1
  have hP := h.P_le_X A
  have hH := h.HR
  rw [h.price_eq] at h2
  have hPr : P ≤ root := by exact_mod_cast le_trans hP r1
  obtain ⟨s1, s2⟩ := h.scale_bounds (root - P)
  rw [← h2, Nat.cast_sub hPr] at s1 s2
  rw [h.position_eq, h.blur_eq]
  constructor
  · have : (X c A - P) / (2 * H) ≤ ((root : ℝ) - P) / (2 * H) := by gcongr
    linarith
  · have : ((root : ℝ) - P) / (2 * H) ≤ (X c A + X c A / 2 ^ 30 - P) / (2 * H) := by gcongr
    have e : (X c A + X c A / 2 ^ 30 - P) / (2 * H) =
        (X c A - P) / (2 * H) + X c A / (2 ^ 30 * (2 * H)) := by field_simp; ring
    linarith

/-- Rounding down. -/
theorem Rep.down_bounds (h : Rep c H P Q) {A b : Nat} (hA : A < 36893488147419103232)
    (hb : bValue c (A * ONE) false = .ok b) :
    Spec.position c A - Spec.blur c A - 1 / ONE < (b : ℝ) / ONE ∧
      (b : ℝ) / ONE ≤ Spec.position c A := by
  obtain ⟨root, h1, h2⟩ := bValue_ok h.nz hA hb
  obtain ⟨r1, r2⟩ := root_down_bounds hA (h.rad_ne_two A) h1
  have hP := h.P_le_X A
  have hH := h.HR
  have ho := oneR_pos
  rw [h.price_eq] at h2
  obtain ⟨s1, s2⟩ := h.scale_bounds (root - P)
  rw [← h2] at s1 s2
  rw [h.position_eq, h.blur_eq]
  have hlo : (root : ℝ) - P ≤ ((root - P : Nat) : ℝ) := by
    rcases Nat.le_total P root with hc | hc
    · rw [Nat.cast_sub hc]
    · have : (root : ℝ) ≤ P := by exact_mod_cast hc
      have : (0 : ℝ) ≤ ((root - P : Nat) : ℝ) := Nat.cast_nonneg _
      linarith
  have hhi : ((root - P : Nat) : ℝ) ≤ X c A - P := by
    rcases Nat.le_total P root with hc | hc
    · rw [Nat.cast_sub hc]; linarith
    · rw [Nat.sub_eq_zero_of_le hc]; simpa using hP
  constructor
  · have : (X c A - X c A / 2 ^ 30 - P) / (2 * H) ≤ ((root - P : Nat) : ℝ) / (2 * H) := by
      gcongr; linarith
    have e : (X c A - X c A / 2 ^ 30 - P) / (2 * H) =
        (X c A - P) / (2 * H) - X c A / (2 ^ 30 * (2 * H)) := by field_simp; ring
    linarith
  · have : ((root - P : Nat) : ℝ) / (2 * H) ≤ (X c A - P) / (2 * H) := by gcongr
    linarith

/-! ### The computed cost -/

/-- The closed form of the locked amount against the exact cost, for every curve. -/
theorem amtF_bounds (hc : Nz c) (b : Nat) :
    Spec.costR c ((b : ℝ) / ONE) - 2 / ONE < (amtF c b : ℝ) / ONE ∧
      (amtF c b : ℝ) / ONE ≤ Spec.costR c ((b : ℝ) / ONE) + 1 / ONE := by
  have ho := oneR_pos
  have hsd : (0 : ℝ) < sd c := by exact_mod_cast Nat.pos_of_ne_zero hc.sd
  have hpd : (0 : ℝ) < pd c := by exact_mod_cast Nat.pos_of_ne_zero hc.pd
  have hD : 0 < ONE * sd c * 2 :=
    Nat.mul_pos (Nat.mul_pos ONE_pos (Nat.pos_of_ne_zero hc.sd)) (by decide)
  have hrc : (roundingCorrection : ℝ) = ONE / 2 := by
    have : ONE = 2 * roundingCorrection := by decide
    rw [this]; push_cast; ring
  have e : amtF c b = (sn c * b * b + roundingCorrection) / (ONE * sd c * 2) + pn c * b / pd c := by
    unfold amtF; rw [Nat.div_div_eq_div_mul, Nat.div_div_eq_div_mul, Nat.mul_assoc ONE]
  have hs : ((Spec.slope c : ℚ) : ℝ) = sn c / sd c := by unfold Spec.slope; push_cast; rfl
  have hp : ((Spec.price c : ℚ) : ℝ) = pn c / pd c := by unfold Spec.price; push_cast; rfl
  have hex : Spec.costR c ((b : ℝ) / ONE) * ONE =
      sn c * b * b / (ONE * sd c * 2) + pn c * b / pd c := by
    unfold Spec.costR; rw [hs, hp]; field_simp
  have f1 : (((sn c * b * b + roundingCorrection) / (ONE * sd c * 2) : Nat) : ℝ) *
      (ONE * sd c * 2) ≤ sn c * b * b + roundingCorrection := by
    exact_mod_cast Nat.div_mul_le_self _ _
  have f2 : (sn c : ℝ) * b * b + roundingCorrection < (ONE * sd c * 2) *
      ((((sn c * b * b + roundingCorrection) / (ONE * sd c * 2) : Nat) : ℝ) + 1) := by
    exact_mod_cast Nat.lt_mul_div_succ _ hD
  have g1 : ((pn c * b / pd c : Nat) : ℝ) * pd c ≤ pn c * b := by
    exact_mod_cast Nat.div_mul_le_self _ _
  have g2 : (pn c : ℝ) * b < pd c * (((pn c * b / pd c : Nat) : ℝ) + 1) := by
    exact_mod_cast Nat.lt_mul_div_succ _ (Nat.pos_of_ne_zero hc.pd)
  rw [e]
  push_cast only [Nat.cast_add]
  generalize (((sn c * b * b + roundingCorrection) / (ONE * sd c * 2) : Nat) : ℝ) = u at *
  generalize ((pn c * b / pd c : Nat) : ℝ) = t at *
  rw [hrc] at f1 f2
  have hDR : (0 : ℝ) < ONE * sd c * 2 := by positivity
  have hsd1 : (1 : ℝ) ≤ sd c := by exact_mod_cast Nat.pos_of_ne_zero hc.sd
  have u1 : u ≤ sn c * b * b / (ONE * sd c * 2) + 1 := by
    have : u ≤ (sn c * b * b + ONE / 2) / (ONE * sd c * 2) := by
      rw [le_div_iff₀ hDR]; exact f1
    have h2 : (ONE : ℝ) / 2 / (ONE * sd c * 2) ≤ 1 := by
      rw [div_le_one hDR]; nlinarith
    rw [add_div] at this; linarith
  have u2 : sn c * b * b / (ONE * sd c * 2) < u + 1 := by
    rw [div_lt_iff₀ hDR]; nlinarith
  have t1 : t ≤ pn c * b / pd c := by rw [le_div_iff₀ hpd]; exact g1
  have t2 : pn c * b / pd c < t + 1 := by rw [div_lt_iff₀ hpd]; linarith
  have hC : Spec.costR c ((b : ℝ) / ONE) =
      (sn c * b * b / (ONE * sd c * 2) + pn c * b / pd c) / ONE := by
    rw [← hex]; field_simp
  rw [hC, ← sub_div, ← add_div]
  exact ⟨div_lt_div_of_pos_right (by linarith) ho, div_le_div_of_nonneg_right (by linarith) ho.le⟩

/-! ### Success of the computation -/

/-- The closed form is what is computed whenever it is at most `2^65` token A. -/
theorem amt_ok (hc : Nz c) {A b : Nat} (hA : A < 36893488147419103232) (h : amtF c b ≤ A * ONE) :
    amtALocked c b = .ok (amtF c b) := by
  have b1 : sn c < 18446744073709551616 := u64_lt _
  have b2 : sd c < 18446744073709551616 := u64_lt _
  have b3 : pn c < 18446744073709551616 := u64_lt _
  have hD : 0 < ONE * (sd c * 2) :=
    Nat.mul_pos ONE_pos (Nat.mul_pos (Nat.pos_of_ne_zero hc.sd) (by decide))
  have hS : sn c * b * b ≤ SMAX := by
    have h1 : (sn c * b * b + roundingCorrection) / ONE / sd c / 2 ≤ A * ONE :=
      le_trans (Nat.le_add_right _ _) h
    rw [Nat.div_div_eq_div_mul, Nat.div_div_eq_div_mul] at h1
    have h2 := Nat.lt_mul_div_succ (sn c * b * b + roundingCorrection) hD
    have h3 : ONE * (sd c * 2) * ((sn c * b * b + roundingCorrection) / (ONE * (sd c * 2)) + 1) ≤
        ONE * (18446744073709551616 * 2) * (36893488147419103232 * ONE + 1) := by
      refine Nat.mul_le_mul (Nat.mul_le_mul_left _ (Nat.mul_le_mul_right _ (le_of_lt b2))) ?_
      exact Nat.add_le_add_right (le_trans h1 (Nat.mul_le_mul_right _ (le_of_lt hA))) _
    have h4 := le_trans (Nat.le_add_right (sn c * b * b) roundingCorrection)
      (le_trans (le_of_lt h2) h3)
    refine le_trans h4 ?_
    rw [ONE_val, SMAX_val]; norm_num
  have hB : b < BMAX := by
    by_contra hn
    have hn' : BMAX ≤ b := Nat.le_of_not_lt hn
    have : BMAX * BMAX ≤ sn c * b * b := by
      calc BMAX * BMAX ≤ b * b := Nat.mul_le_mul hn' hn'
        _ ≤ sn c * (b * b) := Nat.le_mul_of_pos_left _ (Nat.pos_of_ne_zero hc.sn)
        _ = _ := by ring
    have := le_trans this hS
    rw [BMAX_val, SMAX_val] at this
    norm_num at this
  have hfit : ∀ x, x < 18446744073709551616 → x * ONE * b + roundingCorrection < U256 := by
    intro x hx
    have : x * ONE * b ≤ 18446744073709551616 * ONE * BMAX := by gcongr
    refine lt_of_le_of_lt (Nat.add_le_add_right this _) ?_
    rw [ONE_val, BMAX_val, rc_eq, U256_val]; norm_num
  have hSf : sn c * b * b + roundingCorrection < U256 := by
    rw [SMAX_val] at hS; rw [rc_eq, U256_val]; omega
  have h2f : (sn c * b * b + roundingCorrection) / ONE * ONE + roundingCorrection < U256 := by
    have := Nat.div_mul_le_self (sn c * b * b + roundingCorrection) ONE
    rw [SMAX_val] at hS; rw [rc_eq] at *; rw [U256_val]; omega
  have h3f : (sn c * b * b + roundingCorrection) / ONE / sd c * ONE + roundingCorrection < U256 :=
    lt_of_le_of_lt
      (Nat.add_le_add_right (Nat.mul_le_mul_right _ (Nat.div_le_self _ _)) _) h2f
  have hpf : pn c * b * ONE + roundingCorrection < U256 := by
    have e : pn c * b * ONE = pn c * ONE * b := by ring
    rw [e]; exact hfit _ b3
  have hadd : amtF c b < U256 := by
    refine lt_of_le_of_lt h (lt_of_lt_of_le (Nat.mul_lt_mul_of_pos_right hA ONE_pos) ?_)
    rw [ONE_val, U256_val]; norm_num
  unfold amtALocked
  rw [new_u64, Res.ok_bind, mul_new_ok' (hfit _ b1), Res.ok_bind, mul_ok hSf, Res.ok_bind, new_u64,
    Res.ok_bind, div_new_ok hc.sd h2f, Res.ok_bind, new2, Res.ok_bind,
    div_new_ok (by decide) h3f, Res.ok_bind, new_u64, Res.ok_bind, mul_new_ok' (hfit _ b3),
    Res.ok_bind, new_u64, Res.ok_bind, div_new_ok hc.pd hpf, Res.ok_bind]
  exact cadd_ok hadd

theorem bValue_lt_U (hv : isCurveParamValid c = .ok ()) {A b : Nat} {up : Bool}
    (hA : A < 36893488147419103232) (h : bValue c (A * ONE) up = .ok b) :
    b + ONE < 340282366920938463463374607431768211456 * ONE := by
  have hb := bValue_lt_valid hv hA h
  refine lt_of_le_of_lt (Nat.add_le_add_right hb _) ?_
  rw [ONE_val]; unfold SQRT_ONE; norm_num

theorem new_u64' {n : Nat} (h : n < 18446744073709551616) : new n = .ok (n * ONE) := by
  refine new_ok ?_
  rw [ONE_val, U256_val]; omega

theorem swapBToA_of {s A b0 : Nat} (hA : A < 18446744073709551616) (hs : s < 18446744073709551616)
    (hv : isCurveParamValid c = .ok ()) (hb0 : bValue c (A * ONE) true = .ok b0) :
    (b0 < s * ONE → swapBToA c s A = .ok ((b0 + roundingCorrection) / ONE, A)) ∧
    (s * ONE ≤ b0 → amtF c ((b0 - s * ONE + (ONE - 1)) / ONE * ONE) ≤ A * ONE →
      swapBToA c s A =
        .ok (s, (A * ONE - amtF c ((b0 - s * ONE + (ONE - 1)) / ONE * ONE)) / ONE)) := by
  have hc := nz_of_valid hv
  have hbl := bValue_lt_U hv (show A < 36893488147419103232 by omega) hb0
  have hU : (340282366920938463463374607431768211456 : Nat) * ONE < U256 := by
    rw [ONE_val, U256_val]; norm_num
  have hso : s * ONE + ONE < U256 := by
    rw [ONE_val, U256_val]; omega
  constructor
  · intro hlt
    have hu : unsignedSub b0 (s * ONE) = (s * ONE - b0, true) := if_neg (Nat.not_le.2 hlt)
    have hce : s * ONE - b0 + ONE < U256 := by omega
    have hrl : roundingCorrection < ONE := by decide
    have h1 : b0 + roundingCorrection < U256 := by omega
    have h2 : (b0 + roundingCorrection) / ONE < U128 := by
      rw [Nat.div_lt_iff_lt_mul ONE_pos, U128_val]; omega
    unfold swapBToA
    rw [new_u64' hA, Res.ok_bind, hb0, Res.ok_bind, new_u64' hs, Res.ok_bind]
    simp only []
    rw [hu, ceiling_ok hce, Res.ok_bind]
    simp only [if_true]
    rw [toImprecise_ok h1 h2, Res.ok_bind]
  · intro hge hle
    have hu : unsignedSub b0 (s * ONE) = (b0 - s * ONE, false) := if_pos hge
    have hce : b0 - s * ONE + ONE < U256 := by omega
    unfold swapBToA
    rw [new_u64' hA, Res.ok_bind, hb0, Res.ok_bind, new_u64' hs, Res.ok_bind]
    simp only []
    rw [hu, ceiling_ok hce, Res.ok_bind]
    simp only [Bool.false_eq_true, if_false]
    rw [amt_ok hc (by omega) hle, Res.ok_bind, Res.ok_bind]
    generalize amtF c ((b0 - s * ONE + (ONE - 1)) / ONE * ONE) = v at *
    have hd : A * ONE - v < U256 := by
      refine lt_of_le_of_lt (Nat.sub_le _ _) ?_
      rw [ONE_val, U256_val]; omega
    have hq : (A * ONE - v) / ONE < U128 := by
      rw [Nat.div_lt_iff_lt_mul ONE_pos, U128_val]
      rw [ONE_val]; omega
    rw [show sub (A * ONE) v = .ok (A * ONE - v) from csub_ok hle, Res.ok_bind, floor_ok hd,
      Res.ok_bind, toImprecise_new hq, Res.ok_bind]

/-- The buy-out test passes when the closed form lies between the vault and the vault plus the offer. -/
theorem maximumARemaining_of (hc : Nz c) {A b0 s B : Nat} (hA : A < 18446744073709551616)
    (hs : s < 18446744073709551616)
    (hfit : b0 + B * ONE < 340282366920938463463374607431768211456 * ONE)
    (h1 : A * ONE ≤ amtF c (b0 + B * ONE)) (h2 : amtF c (b0 + B * ONE) ≤ (A + s) * ONE + 1) :
    maximumARemaining c (A * ONE) b0 s B =
      .ok ((amtF c (b0 + B * ONE) - A * ONE + roundingCorrection) / ONE, B) := by
  have hU : (340282366920938463463374607431768211456 : Nat) * ONE < U256 := by
    rw [ONE_val, U256_val]; norm_num
  have hO : 1 ≤ ONE := by decide
  have ha : amtF c (b0 + B * ONE) ≤ (A + s + 1) * ONE := by
    rw [Nat.add_mul (A + s), Nat.one_mul]; omega
  unfold maximumARemaining
  rw [new_ok (by omega), Res.ok_bind, show add b0 (B * ONE) = .ok (b0 + B * ONE) from
    cadd_ok (by omega), Res.ok_bind, amt_ok hc (by omega) ha, Res.ok_bind]
  generalize amtF c (b0 + B * ONE) = v at *
  have hrc : ONE = 2 * roundingCorrection := by decide
  have hx : (v - A * ONE + roundingCorrection) / ONE < s + 1 := by
    rw [Nat.div_lt_iff_lt_mul ONE_pos]
    rw [Nat.add_mul] at h2 ⊢
    have : 2 ≤ roundingCorrection := by decide
    omega
  have hb : v - A * ONE + roundingCorrection < U256 := by
    have e : (s + 1) * ONE < U256 := by rw [ONE_val, U256_val]; omega
    rw [Nat.div_lt_iff_lt_mul ONE_pos] at hx
    omega
  rw [show sub v (A * ONE) = .ok (v - A * ONE) from csub_ok h1, Res.ok_bind,
    toImprecise_ok hb (lt_of_lt_of_le hx (by rw [U128_val]; omega)), Res.ok_bind,
    if_pos (Nat.le_of_lt_succ hx)]

theorem swapWithoutFees_of_sell {s A B x y : Nat} (h : swapBToA c s A = .ok (x, y)) (hx : x ≠ 0)
    (hy : y ≠ 0) : swapWithoutFees c s B A .BtoA = .ok ⟨x, y⟩ := by
  unfold swapWithoutFees mapZeroToNone
  simp only []
  rw [h, Res.ok_bind]
  simp only []
  rw [if_neg hx, if_neg hy, Res.ok_bind, Res.ok_bind]

end Linear
end Verif
