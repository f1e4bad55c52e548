import Verif.Model.Compare
import Verif.Lemmas.FixedVal
import Mathlib.Algebra.Order.Ring.Abs

/-
C91: comparisons of fixed-point numbers, and roots of squares.
-/

namespace Verif
namespace Props
open Spec Dfs

theorem val_lt_iff {a b : Nat} : val a < val b ↔ a < b := by
  unfold val
  rw [div_lt_div_iff_of_pos_right (by positivity)]
  exact_mod_cast Iff.rfl

theorem val_le_iff {a b : Nat} : val a ≤ val b ↔ a ≤ b := by
  unfold val
  rw [div_le_div_iff_of_pos_right (by positivity)]
  exact_mod_cast Iff.rfl

/-- The four comparisons decide the order of the numbers. -/
theorem C91_order (a b : Nat) :
    (lessThan a b = true ↔ val a < val b) ∧ (greaterThan a b = true ↔ val b < val a) ∧
    (lessThanOrEqual a b = true ↔ val a ≤ val b) ∧
    (greaterThanOrEqual a b = true ↔ val b ≤ val a) := by
  unfold lessThan greaterThan lessThanOrEqual greaterThanOrEqual
  simp only [decide_eq_true_eq, val_lt_iff, val_le_iff, gt_iff_lt, ge_iff_le, and_self]

/-- `almost_eq` accepts exactly the numbers less than the tolerance apart. -/
theorem C91_almost (a b p : Nat) : almostEq a b p = true ↔ |val a - val b| < val p := by
  unfold almostEq unsignedSub
  rw [decide_eq_true_eq]
  have e : ∀ x y : Nat, y ≤ x → |val x - val y| = val (x - y) := fun x y h => by
    rw [abs_of_nonneg (sub_nonneg.2 (val_le_iff.2 h))]
    unfold val
    rw [Nat.cast_sub h]; ring
  split
  · rename_i h
    rw [e a b h, val_lt_iff]
  · rename_i h
    rw [abs_sub_comm, e b a (by omega), val_lt_iff]

/-- A larger number never has a smaller root. -/
theorem C91_monotone (v w r r' : Nat) (up : Bool) (h : val v ≤ val w) (hw : w < 2 ^ 256)
    (hr : sqrtU64 v up = .ok r) (hr' : sqrtU64 w up = .ok r') : val r ≤ val r' :=
  val_le_iff.2 (sqrtU64_mono (val_le_iff.1 h) hw hr hr')

theorem dsqrt_sq (up : Bool) (x : Nat) : dsqrt up (x * x) = x := by
  cases up
  · exact le_antisymm (by
      by_contra hc
      have h1 := isqrt_sq_le (x * x)
      have : x * x < isqrt (x * x) * isqrt (x * x) := Nat.mul_lt_mul'' (by simpa [dsqrt] using hc)
        (by simpa [dsqrt] using hc)
      omega) (le_isqrt le_rfl)
  · refine le_antisymm (csqrt_le le_rfl) ?_
    exact le_trans (le_isqrt le_rfl) (isqrt_le_csqrt _)

theorem rdiv_mul (up : Bool) (a b : Nat) (hb : 0 < b) : rdiv up (a * b) b = a := by
  unfold rdiv
  rw [Nat.mul_div_cancel _ hb]
  simp

/-- The root of a square is the number squared, in both modes, exactly when the number has at most 32
significant binary digits.  (`y` stands for `y / 10^9`, whose square is `y * y` raw.) -/
theorem C91_squares (y : Nat) (hy : y * y < 2 ^ 256) (up : Bool) :
    sqrtU64 (y * y) up = .ok (y * 10 ^ 9) ↔ ∃ x p, x < 2 ^ 32 ∧ y = x * 2 ^ p := by
  have hG : (10 : Nat) ^ 9 = SQRT_ONE := by norm_num [SQRT_ONE_val]
  rw [hG]
  have hU : y * y < U256 := hy
  have hlt := lt_four_pow_half (y * y)
  rcases Nat.lt_or_ge 32 (half (y * y)) with hh | hh
  · obtain ⟨k, hk⟩ : ∃ k, k = half (y * y) - 32 := ⟨_, rfl⟩
    have hk' : half (y * y) = 32 + k := by omega
    have hy0 : 0 < y * y := by
      rcases Nat.eq_zero_or_pos (y * y) with h0 | h0
      · rw [h0] at hh; exact absurd hh (by decide)
      · exact h0
    have hge := four_pow_half_le hy0
    have hk1 : 1 ≤ k := by omega
    have hS : 0 < SQRT_ONE := by decide
    have hyl : y < 2 ^ (32 + k) := by
      rw [hk', four_pow'] at hlt
      by_contra hc
      have := Nat.mul_le_mul (Nat.le_of_not_lt hc) (Nat.le_of_not_lt hc)
      omega
    have hyg : 2 ^ (31 + k) ≤ y := by
      rw [hk', show 32 + k - 1 = 31 + k by omega, four_pow'] at hge
      by_contra hc
      have := Nat.mul_lt_mul'' (Nat.lt_of_not_le hc) (Nat.lt_of_not_le hc)
      omega
    rw [sqrtU64_large up hU hh, ← hk]
    constructor
    · intro h
      split at h
      · have h1 := Res.ok.inj h
        obtain ⟨s, hs⟩ : ∃ s, s = dsqrt up (rdiv up (y * y) (4 ^ k)) := ⟨_, rfl⟩
        rw [← hs] at h1
        have h2 : s * 2 ^ k = y := Nat.eq_of_mul_eq_mul_right hS (by rw [← h1]; ring)
        refine ⟨s, k, ?_, h2.symm⟩
        rw [← h2, Nat.pow_add] at hyl
        exact Nat.lt_of_mul_lt_mul_right hyl
      · cases h
    · rintro ⟨x, p, hx, rfl⟩
      have hkp : k ≤ p := by
        have h1 : 2 ^ (31 + k) < 2 ^ (32 + p) := by
          refine lt_of_le_of_lt hyg ?_
          rw [Nat.pow_add]
          exact Nat.mul_lt_mul_of_pos_right hx (Nat.pow_pos (by decide))
        have := (Nat.pow_lt_pow_iff_right (by decide)).1 h1
        omega
      obtain ⟨z, hz⟩ : ∃ z, x * 2 ^ p = z * 2 ^ k := by
        refine ⟨x * 2 ^ (p - k), ?_⟩
        rw [Nat.mul_assoc, ← Nat.pow_add, Nat.sub_add_cancel hkp]
      rw [hz] at hyl ⊢
      have hz32 : z < 2 ^ 32 := by
        rw [Nat.pow_add] at hyl; exact Nat.lt_of_mul_lt_mul_right hyl
      have e : z * 2 ^ k * (z * 2 ^ k) = z * z * 4 ^ k := by rw [four_pow']; ring
      rw [e, rdiv_mul _ _ _ (Nat.pow_pos (by decide)), if_pos (by
        have := Nat.mul_lt_mul'' hz32 hz32
        rw [U64_val]; norm_num at this; exact this), dsqrt_sq]
      congr 1; ring
  · have hyl : y < 2 ^ 32 := by
      have h1 : (4 : Nat) ^ half (y * y) ≤ 4 ^ 32 := Nat.pow_le_pow_right (by decide) hh
      rw [four_pow' 32] at h1
      by_contra hc
      have := Nat.mul_le_mul (Nat.le_of_not_lt hc) (Nat.le_of_not_lt hc)
      omega
    refine ⟨fun _ => ⟨y, 0, hyl, by simp⟩, fun _ => ?_⟩
    rw [sqrtU64_small up hh]
    obtain ⟨k, hk⟩ : ∃ k, k = 32 - half (y * y) := ⟨_, rfl⟩
    rw [← hk]
    have e : y * y * 4 ^ k = (y * 2 ^ k) * (y * 2 ^ k) := by rw [four_pow']; ring
    rw [e, dsqrt_sq, show y * 2 ^ k * SQRT_ONE = y * SQRT_ONE * 2 ^ k by ring,
      rdiv_mul _ _ _ (Nat.pow_pos (by decide))]

/-- Whole numbers below 2200, times any power of two, are the roots of their squares. -/
theorem C91_whole (n p : Nat) (hn : n < 2200) (h : (n * 2 ^ p) ^ 2 < 2 ^ 128) (up : Bool) :
    ∃ v r, new ((n * 2 ^ p) ^ 2) = .ok v ∧ sqrtU64 v up = .ok r ∧ val r = (n : ℚ) * 2 ^ p := by
  have hv := new_ok (u128_fits h)
  refine ⟨_, n * 2 ^ p * 10 ^ 9 * 10 ^ 9, hv, ?_, ?_⟩
  · have e : (n * 2 ^ p) ^ 2 * ONE = (n * 2 ^ p * 10 ^ 9) * (n * 2 ^ p * 10 ^ 9) := by
      rw [show ONE = 10 ^ 9 * 10 ^ 9 from rfl]; ring
    rw [e, C91_squares _ (by rw [← e]; exact u128_fits h)]
    refine ⟨n * 5 ^ 9, p + 9, by norm_num; omega, ?_⟩
    rw [Nat.pow_add, show (10 : Nat) ^ 9 = 5 ^ 9 * 2 ^ 9 by norm_num]; ring
  · unfold val; push_cast; field_simp; norm_num

/-- From 2201 on roots of squares can be below the number: 2201 is not found. -/
theorem C91_limit : ∃ r, sqrtU64 (2201 ^ 2 * 10 ^ 18) false = .ok r ∧ val r < 2201 ∧
    sqrtU64 (2201 ^ 2 * 10 ^ 18) true ≠ .ok (2201 * 10 ^ 18) := by
  refine ⟨2200999999488000000000, by decide +kernel, ?_, by decide +kernel⟩
  unfold val
  norm_num

/-- `20² = 400` (the unit test's case), and a square whose root has 32 binary digits. -/
example : sqrtU64 (400 * 10 ^ 18) true = .ok (20 * 10 ^ 18) ∧
    sqrtU64 (4294967295 * 4294967295 * 4 ^ 30) true = .ok (4294967295 * 2 ^ 30 * 10 ^ 9) ∧
    almostEq 3 5 3 = true ∧ almostEq 3 5 2 = false ∧ almostEq 7 7 0 = false ∧
    lessThan 7 7 = false ∧ lessThanOrEqual 7 7 = true ∧ greaterThan 7 7 = false ∧
    greaterThanOrEqual 7 8 = false := by decide +kernel

end Props
end Verif
