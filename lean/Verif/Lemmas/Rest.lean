import Mathlib.Tactic.FieldSimp
import Mathlib.Tactic.NormNum
import Verif.Spec.Stable
import Verif.Lemmas.Stable

/-
Where the iteration for the invariant of the stable curve comes to rest (C95).
-/

namespace Verif
namespace Stable
open Spec

/-- What rounding down takes off the product. -/
theorem floor_prod {x y d p1 p : ℝ} (hx : 0 < x) (hy : 0 < y) (hd : 0 < d)
    (h1 : d * d < (p1 + 1) * (2 * x + 1)) (h2 : p1 * d < (p + 1) * (2 * y + 1)) :
    d ^ 3 / (4 * x * y) ≤ p + d ^ 3 / (4 * x * y) * (1 / (2 * x) + 1 / (2 * y)) + d / (2 * y) + 1 := by
  have hX : 0 < 2 * x + 1 := by linarith
  have hY : 0 < 2 * y + 1 := by linarith
  have e1 : d * d / (2 * x + 1) - 1 ≤ p1 := by
    rw [sub_le_iff_le_add, div_le_iff₀ hX]; linarith
  have e2 : p1 * d / (2 * y + 1) - 1 ≤ p := by
    rw [sub_le_iff_le_add, div_le_iff₀ hY]; linarith
  have e3 : (d * d / (2 * x + 1) - 1) * d / (2 * y + 1) ≤ p1 * d / (2 * y + 1) := by
    gcongr
  have e4 : d / (2 * y + 1) ≤ d / (2 * y) := by gcongr; linarith
  have i1 : 1 / (2 * x) * (1 - 1 / (2 * x)) ≤ 1 / (2 * x + 1) := by
    rw [le_div_iff₀ hX]
    have : 0 ≤ (1 / (2 * x)) ^ 2 := by positivity
    have e : 1 / (2 * x) * (2 * x) = 1 := by field_simp
    nlinarith
  have i2 : 1 / (2 * y) * (1 - 1 / (2 * y)) ≤ 1 / (2 * y + 1) := by
    rw [le_div_iff₀ hY]
    have : 0 ≤ (1 / (2 * y)) ^ 2 := by positivity
    have e : 1 / (2 * y) * (2 * y) = 1 := by field_simp
    nlinarith
  have e5 : (d * d / (2 * x + 1) - 1) * d / (2 * y + 1) =
      d ^ 3 * (1 / (2 * x + 1) * (1 / (2 * y + 1))) - d / (2 * y + 1) := by
    field_simp
  have e6 : d ^ 3 / (4 * x * y) = d ^ 3 * (1 / (2 * x) * (1 / (2 * y))) := by
    field_simp; ring
  set u := 1 / (2 * x) with hu
  set v := 1 / (2 * y) with hv
  set u' := 1 / (2 * x + 1)
  set v' := 1 / (2 * y + 1)
  have hu0 : 0 < u := by positivity
  have hv0 : 0 < v := by positivity
  have hu1 : 0 < u' := by positivity
  have hv1 : 0 < v' := by positivity
  have key : u * v * (1 - u - v) ≤ u' * v' := by
    have hle : u' ≤ u := by
      simp only [u', hu]; gcongr; linarith
    have : u * (1 - u) * v ≤ u' * v := mul_le_mul_of_nonneg_right i1 hv0.le
    have : u' * (v * (1 - v)) ≤ u' * v' := mul_le_mul_of_nonneg_left i2 hu1.le
    have : u' * (v * v) ≤ u * (v * v) := mul_le_mul_of_nonneg_right hle (by positivity)
    nlinarith
  have key' := mul_le_mul_of_nonneg_left key (by positivity : 0 ≤ d ^ 3)
  rw [e6]
  nlinarith

/-- Where a further round would take off at most one unit. -/
theorem rest_d {L x y d p : ℝ} (hL : 2 ≤ L) (hx : 0 < x) (hy : 0 < y) (hd : 0 < d)
    (hP : d ^ 3 / (4 * x * y) ≤ p + d ^ 3 / (4 * x * y) * (1 / (2 * x) + 1 / (2 * y)) + d / (2 * y) + 1)
    (hp : p ≤ d ^ 3 / (4 * x * y))
    (h : (d - 1) * ((L - 1) * d + 3 * p) ≤ (L * (x + y) + 2 * p) * d) :
    StableAtLeast L x y (d - (4 + 2 * x / d + d / (2 * x) + d / (2 * y))) := by
  set a := 1 / (4 * x * y) with ha
  have ha0 : 0 < a := by positivity
  have eP : d ^ 3 / (4 * x * y) = a * d ^ 3 := by rw [ha]; ring
  rw [eP] at hP hp
  set E := 4 + 2 * x / d + d / (2 * x) + d / (2 * y) with hE
  have hE0 : 0 < E := by positivity
  have h1 : 2 * x / d * (a * d ^ 2) = d / (2 * y) := by rw [ha]; field_simp; ring
  have h2 : (d / (2 * x) + d / (2 * y)) * (a * d ^ 2) =
      a * d ^ 3 * (1 / (2 * x) + 1 / (2 * y)) := by ring
  have hEb : E * (a * d ^ 2 + (L - 1)) ≥ 4 * (a * d ^ 2) + 4 * (L - 1) + d / (2 * y) +
      a * d ^ 3 * (1 / (2 * x) + 1 / (2 * y)) := by
    have e0 : 0 ≤ (2 * x / d + d / (2 * x) + d / (2 * y)) * (L - 1) :=
      mul_nonneg (by positivity) (by linarith)
    have : E * (a * d ^ 2 + (L - 1)) = 4 * (a * d ^ 2) + 4 * (L - 1) + 2 * x / d * (a * d ^ 2) +
        (d / (2 * x) + d / (2 * y)) * (a * d ^ 2) +
        (2 * x / d + d / (2 * x) + d / (2 * y)) * (L - 1) := by rw [hE]; ring
    rw [this, h1, h2]
    linarith
  -- the value of the exact function at `d`
  have hf : p + (L - 1) * d - L * (x + y) ≤ (L - 1) + 3 * (a * d ^ 2) := by
    have e : d * (p + (L - 1) * d - L * (x + y)) ≤ d * ((L - 1) + 3 * (a * d ^ 2)) := by
      have : d * (3 * (a * d ^ 2)) = 3 * (a * d ^ 3) := by ring
      nlinarith
    exact le_of_mul_le_mul_left e hd
  have goal : a * (d - E) ^ 3 + (L - 1) * (d - E) ≤ L * (x + y) := by
    rcases le_or_gt (d - E) 0 with hz | hz
    · have e1 : (d - E) ^ 3 ≤ 0 := Odd.pow_nonpos (by decide) hz
      have e2 : a * (d - E) ^ 3 ≤ 0 := mul_nonpos_of_nonneg_of_nonpos ha0.le e1
      have e3 : (L - 1) * (d - E) ≤ 0 := mul_nonpos_of_nonneg_of_nonpos (by linarith) hz
      have e4 : 0 ≤ L * (x + y) := by positivity
      linarith
    · have e1 : d ^ 3 - (d - E) ^ 3 = E * (d ^ 2 + d * (d - E) + (d - E) ^ 2) := by ring
      have e2 : E * d ^ 2 ≤ d ^ 3 - (d - E) ^ 3 := by
        rw [e1]
        apply mul_le_mul_of_nonneg_left _ hE0.le
        nlinarith [mul_pos hd hz, sq_nonneg (d - E)]
      have e3 := mul_le_mul_of_nonneg_left e2 ha0.le
      nlinarith
  unfold StableAtLeast
  have hxy : 0 < 4 * x * y := by positivity
  have e : a * (4 * x * y) = 1 := by rw [ha]; field_simp
  have := mul_le_mul_of_nonneg_right goal hxy.le
  have e' : (a * (d - E) ^ 3 + (L - 1) * (d - E)) * (4 * x * y) =
      (d - E) ^ 3 * (a * (4 * x * y)) + (L - 1) * (d - E) * (4 * x * y) := by ring
  rw [e', e] at this
  nlinarith

end Stable
end Verif
