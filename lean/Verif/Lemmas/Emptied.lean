import Verif.Lemmas.LinearEvery
import Verif.Spec.Dear

/-
Helper lemmas for C60 when the B vault may be emptied.
-/

namespace Verif
namespace Linear
open Dfs

variable {c : LinearPriceCurve}

theorem steeper_steep (h : Spec.Steeper c) : Spec.Steep c := by
  unfold Spec.Steeper at h
  unfold Spec.Steep
  refine le_trans ?_ h
  norm_num

theorem slopeR_pos (hc : Nz c) : (0 : ℝ) < ((Spec.slope c : ℚ) : ℝ) := by
  have hsn : (0 : ℝ) < sn c := by exact_mod_cast Nat.pos_of_ne_zero hc.sn
  have hsd : (0 : ℝ) < sd c := by exact_mod_cast Nat.pos_of_ne_zero hc.sd
  rw [slope_realE]
  exact div_pos hsn hsd

theorem priceR_nonneg (c : LinearPriceCurve) : (0 : ℝ) ≤ ((Spec.price c : ℚ) : ℝ) := by
  rw [price_realE]
  positivity

theorem marginal_sqE (c : LinearPriceCurve) (A : Nat) : Spec.marginal c A * Spec.marginal c A =
    ((Spec.price c : ℚ) : ℝ) ^ 2 + 2 * ((Spec.slope c : ℚ) : ℝ) * A := by
  rw [marginal_sq, price_realE, slope_realE]

/-- Slope times price, from the first unit of token A on. -/
theorem steeper_marginal (hc : Nz c) (h : Spec.Steeper c) {A : Nat} (hA : 1 ≤ A) :
    1 / 10 ^ 16 ≤ ((Spec.slope c : ℚ) : ℝ) * Spec.marginal c A ∧ 5 / 10 ^ 17 ≤ Spec.marginal c A := by
  have hs := slopeR_pos hc
  have hp := priceR_nonneg c
  have hz : (1 : ℝ) / 10 ^ 32 ≤ ((Spec.slope c : ℚ) : ℝ) ^ 2 *
      (((Spec.price c : ℚ) : ℝ) ^ 2 + 2 * ((Spec.slope c : ℚ) : ℝ)) := by
    have h1 : (((1 / 10 ^ 32 : ℚ)) : ℝ) ≤
        ((Spec.slope c ^ 2 * (Spec.price c ^ 2 + 2 * Spec.slope c) : ℚ) : ℝ) := by exact_mod_cast h
    push_cast at h1
    exact h1
  have hm := marginal_sqE c A
  have hm0 : 0 ≤ Spec.marginal c A := Real.sqrt_nonneg _
  have hA1 : (1 : ℝ) ≤ A := by exact_mod_cast hA
  generalize ((Spec.slope c : ℚ) : ℝ) = s at *
  generalize ((Spec.price c : ℚ) : ℝ) = p at *
  generalize Spec.marginal c A = M at *
  have hsA : s ≤ s * A := le_mul_of_one_le_right hs.le hA1
  have h1 : 1 / 10 ^ 16 ≤ s * M := by
    refine le_of_sq_le_sq ?_ (by positivity)
    have e : (s * M) ^ 2 = s ^ 2 * (M * M) := by ring
    rw [e, hm]
    refine le_trans (by norm_num at hz ⊢; exact hz) (mul_le_mul_of_nonneg_left ?_ (by positivity))
    linarith
  refine ⟨h1, ?_⟩
  rcases le_or_gt s 2 with h2 | h2
  · have : s * M ≤ 2 * M := mul_le_mul_of_nonneg_right h2 hm0
    linarith
  · have : 4 ≤ M * M := by
      rw [hm]
      have := sq_nonneg p
      linarith
    by_contra hcon
    have h4 : M < 1 := lt_of_lt_of_le (not_le.1 hcon) (by norm_num)
    nlinarith

theorem grain_small (hc : Nz c) (h : Spec.Steeper c) {A : Nat} (hA : 1 ≤ A) :
    Spec.grain c A ≤ 1 / 20 := by
  have h1 := (steeper_marginal hc h hA).1
  unfold Spec.grain
  have h2 : (0 : ℝ) < 10 ^ 18 * ((Spec.slope c : ℚ) : ℝ) * Spec.marginal c A := by
    rw [mul_assoc]
    exact mul_pos (by norm_num) (lt_of_lt_of_le (by norm_num) h1)
  rw [div_le_div_iff₀ h2 (by norm_num), mul_assoc (10 ^ 18)]
  linarith

/-- A whole position whose computed cost fits in the A balance is hardly above the exact position. -/
theorem steeper_position (hc : Nz c) (h : Spec.Steeper c) {A n : Nat} (hA : 1 ≤ A)
    (hn : amtF c (n * ONE) ≤ A * ONE) : (n : ℝ) ≤ Spec.position c A + 1 / 25 := by
  have hs := slopeR_pos hc
  have hp := priceR_nonneg c
  have hM := (steeper_marginal hc h hA).2
  have hq := amtF_gtR hc n
  rw [← slope_realE, ← price_realE, oneR] at hq
  have hn' : (amtF c (n * ONE) : ℝ) ≤ A * ONE := by exact_mod_cast hn
  rw [oneR] at hn'
  have hm := marginal_sqE c A
  have hn0 : (0 : ℝ) ≤ n := Nat.cast_nonneg n
  unfold Spec.position
  generalize ((Spec.slope c : ℚ) : ℝ) = s at *
  generalize ((Spec.price c : ℚ) : ℝ) = p at *
  generalize Spec.marginal c A = M at *
  generalize (n : ℝ) = n at *
  generalize (amtF c _ : ℝ) = F at *
  have hx : (s * n + p) ^ 2 ≤ M * M + 4 * s / 10 ^ 18 := by
    rw [hm]
    have e : (s * n + p) ^ 2 = p ^ 2 + 2 * s * (s / 2 * n ^ 2 + p * n) := by ring
    have h1 : s / 2 * n ^ 2 + p * n ≤ A + 2 / 10 ^ 18 := by linarith
    have h2 := mul_le_mul_of_nonneg_left h1 (by positivity : 0 ≤ 2 * s)
    rw [e]
    linarith
  have hgoal : s * n + p ≤ M + s / 25 := by
    refine le_of_sq_le_sq (le_trans hx ?_) (by positivity)
    have h3 : 5 / 10 ^ 17 * s ≤ M * s := mul_le_mul_of_nonneg_right hM hs.le
    have e : (M + s / 25) ^ 2 = M * M + 2 / 25 * (M * s) + (s / 25) ^ 2 := by ring
    rw [e]
    have := sq_nonneg (s / 25)
    linarith
  rw [← sub_le_iff_le_add, le_div_iff₀ hs]
  linarith

/-- A tenth of a unit. -/
def tenth : Nat := 100000000000000000

/-- Rounding up, the computed position is at most a tenth of a unit below every whole position whose
computed cost fits in the A balance. -/
theorem steeper_up (hc : Nz c) (hst : Spec.Steeper c) {A b n : Nat} (hA : A < 36893488147419103232)
    (hb : bValue c (A * ONE) true = .ok b) (hn : amtF c (n * ONE) ≤ A * ONE) :
    n * ONE ≤ b + tenth := by
  rcases Nat.eq_zero_or_pos A with h0 | h0
  · have h1 := steep_position hc (steeper_steep hst) hn
    have h2 : Spec.position c 0 = 0 := by
      unfold Spec.position Spec.marginal
      rw [Nat.cast_zero, mul_zero, add_zero, Real.sqrt_sq (priceR_nonneg c), sub_self, zero_div]
    rw [h0, h2] at h1
    have h3 : (n : ℝ) < 1 := by linarith
    have h4 : n = 0 := by
      have : n < 1 := by exact_mod_cast h3
      omega
    rw [h4, Nat.zero_mul]
    exact Nat.zero_le _
  · have h1 := steeper_position hc hst h0 hn
    have h2 := (up_any hc hA hb).1
    have h3 := grain_small hc hst h0
    have h4 : (n : ℝ) < (b : ℝ) / 10 ^ 18 + 1 / 10 := by linarith
    have h5 : (n : ℝ) * ONE ≤ b + tenth := by
      rw [oneR]
      unfold tenth
      push_cast
      have : (b : ℝ) / 10 ^ 18 * 10 ^ 18 = b := by field_simp
      linarith
    exact_mod_cast h5

/-- As `Covered`, with a tenth of a unit in place of half a unit. -/
def Held (c : LinearPriceCurve) (A o : Nat) : Prop :=
  (∃ b, bValue c (A * ONE) false = .ok b ∧ o * ONE ≤ b + tenth) ∨ amtF c (o * ONE) ≤ A * ONE

theorem Held.zero {A : Nat} : Held c A 0 := by
  right
  rw [amtF_whole]
  simp

theorem Held.mono_o {A o o' : Nat} (h : Held c A o') (hle : o ≤ o') : Held c A o := by
  rcases h with ⟨b, hb, h⟩ | h
  · exact Or.inl ⟨b, hb, le_trans (Nat.mul_le_mul_right _ hle) h⟩
  · exact Or.inr (le_trans (amtF_mono c (Nat.mul_le_mul_right _ hle)) h)

theorem Held.mono_a (hc : Nz c) {A A' o : Nat} (h : Held c A o) (hle : A ≤ A')
    (hA : A' < 36893488147419103232) : Held c A' o := by
  rcases h with ⟨b, hb, h⟩ | h
  · obtain ⟨b', hb'⟩ := bValue_down_total hc hA
    exact Or.inl ⟨b', hb', le_trans h (Nat.add_le_add_right (bValue_mono hc hle hA hb hb') _)⟩
  · exact Or.inr (le_trans h (Nat.mul_le_mul_right _ hle))

theorem Held.up (hc : Nz c) (hst : Spec.Steeper c) {A o b : Nat} (h : Held c A o)
    (hA : A < 36893488147419103232) (hb : bValue c (A * ONE) true = .ok b) :
    o * ONE ≤ b + tenth := by
  rcases h with ⟨b', hb', h⟩ | h
  · exact le_trans h (Nat.add_le_add_right (bValue_down_le_up hc hA hb' hb) _)
  · exact steeper_up hc hst hA hb h

theorem tenth_le : tenth ≤ roundingCorrection := by decide

theorem Held.covered {A o : Nat} (h : Held c A o) : Covered c A o := by
  rcases h with ⟨b, hb, h⟩ | h
  · exact Or.inl ⟨b, hb, le_trans h (Nat.add_le_add_left tenth_le _)⟩
  · exact Or.inr h

/-- Enough token A for a pool that has sold all of its `B0` token B. -/
def Full (c : LinearPriceCurve) (B0 A : Nat) : Prop := Spec.costR c ((B0 : ℝ) - 2 / 5) ≤ A

theorem Full.position (hc : Nz c) {B0 A : Nat} (h0 : B0 ≠ 0) (h : Full c B0 A) :
    (B0 : ℝ) - 2 / 5 ≤ Spec.position c A := by
  have hs := slopeR_pos hc
  have hp := priceR_nonneg c
  have hm := marginal_sqE c A
  have hm0 : 0 ≤ Spec.marginal c A := Real.sqrt_nonneg _
  have hB : (1 : ℝ) ≤ B0 := by exact_mod_cast Nat.pos_of_ne_zero h0
  unfold Full Spec.costR at h
  unfold Spec.position
  generalize ((Spec.slope c : ℚ) : ℝ) = s at *
  generalize ((Spec.price c : ℚ) : ℝ) = p at *
  generalize Spec.marginal c A = M at *
  obtain ⟨t, ht⟩ : ∃ t : ℝ, (B0 : ℝ) - 2 / 5 = t := ⟨_, rfl⟩
  rw [ht] at h ⊢
  have ht0 : 0 ≤ t := by linarith
  rw [le_div_iff₀ hs]
  have : s * t + p ≤ M := by
    refine le_of_sq_le_sq ?_ hm0
    have e : (s * t + p) ^ 2 = p ^ 2 + 2 * s * (s / 2 * t ^ 2 + p * t) := by ring
    have e2 : M ^ 2 = M * M := sq M
    rw [e, e2, hm]
    have := mul_le_mul_of_nonneg_left h (by positivity : 0 ≤ 2 * s)
    linarith
  linarith

theorem Full.pos (hc : Nz c) {B0 A : Nat} (h0 : B0 ≠ 0) (h : Full c B0 A) : 1 ≤ A := by
  by_contra hcon
  have hA : A = 0 := by omega
  have h1 := h.position hc h0
  have h2 : Spec.position c 0 = 0 := by
    unfold Spec.position Spec.marginal
    rw [Nat.cast_zero, mul_zero, add_zero, Real.sqrt_sq (priceR_nonneg c), sub_self, zero_div]
  rw [hA, h2] at h1
  have hB : (1 : ℝ) ≤ B0 := by exact_mod_cast Nat.pos_of_ne_zero h0
  linarith

theorem Full.up (hc : Nz c) (hst : Spec.Steeper c) {B0 A b : Nat} (h0 : B0 ≠ 0) (h : Full c B0 A)
    (hA : A < 36893488147419103232) (hb : bValue c (A * ONE) true = .ok b) :
    B0 * ONE ≤ b + roundingCorrection := by
  have h1 := h.position hc h0
  have h2 := (up_any hc hA hb).1
  have h3 := grain_small hc hst (h.pos hc h0)
  have h4 : (B0 : ℝ) < (b : ℝ) / 10 ^ 18 + 1 / 2 := by linarith
  have h5 : (B0 : ℝ) * ONE ≤ b + roundingCorrection := by
    have e2 : (roundingCorrection : ℝ) = 5 * 10 ^ 17 := by rw [rc_eq]; norm_num
    rw [oneR, e2]
    have : (b : ℝ) / 10 ^ 18 * 10 ^ 18 = b := by field_simp
    linarith
  exact_mod_cast h5

theorem Full.held (hc : Nz c) {B0 A o : Nat} (h : Full c B0 A) (ho : o < B0) : Held c A o := by
  right
  have ho1 : (o : ℝ) + 1 ≤ B0 := by exact_mod_cast ho
  have hs := slopeR_pos hc
  have hp := priceR_nonneg c
  have hsd : (sd c : ℝ) ≠ 0 := by exact_mod_cast hc.sd
  have hpd : (pd c : ℝ) ≠ 0 := by exact_mod_cast hc.pd
  have h2 : (amtF c (o * ONE) : ℝ) ≤ Spec.costR c o * ONE := by
    rw [amtF_whole]
    have h1 : ((sn c * o * o * ONE / (2 * sd c) : Nat) : ℝ) ≤
        (sn c * o * o * ONE : Nat) / (2 * sd c : Nat) := Nat.cast_div_le
    have h2 : ((pn c * o * ONE / pd c : Nat) : ℝ) ≤ (pn c * o * ONE : Nat) / (pd c : Nat) :=
      Nat.cast_div_le
    unfold Spec.costR
    rw [slope_realE, price_realE]
    push_cast at h1 h2 ⊢
    have e : ((sn c : ℝ) / sd c / 2 * (o : ℝ) ^ 2 + (pn c : ℝ) / pd c * o) * ONE =
        sn c * o * o * ONE / (2 * sd c) + pn c * o * ONE / pd c := by
      field_simp
    rw [e]
    linarith
  have h3 : Spec.costR c o ≤ A := by
    refine le_trans ?_ h
    unfold Spec.costR
    have h0 : (0 : ℝ) ≤ o := Nat.cast_nonneg o
    have h4 : (o : ℝ) ≤ B0 - 2 / 5 := by linarith
    gcongr
  have h4 : (amtF c (o * ONE) : ℝ) ≤ A * ONE :=
    le_trans h2 (mul_le_mul_of_nonneg_right h3 oneR_pos.le)
  exact_mod_cast h4

theorem Full.mono {B0 A A' : Nat} (h : Full c B0 A) (hle : A ≤ A') : Full c B0 A' := by
  have : (A : ℝ) ≤ A' := by exact_mod_cast hle
  exact le_trans h this

/-- A level `T` of token B and a balance `F` of token A that buying out comes back to. -/
structure Moor (c : LinearPriceCurve) (T F : Nat) : Prop where
  low : T ≠ 0 → Full c T F
  high : T ≠ 0 → (F : ℝ) ≤ Spec.costR c ((T : ℝ) - 1 / 10) + 1 / 2 - 2 / 10 ^ 18

theorem costR_le (hc : Nz c) {x y : ℝ} (hx : 0 ≤ x) (h : x ≤ y) : Spec.costR c x ≤ Spec.costR c y := by
  have hs := slopeR_pos hc
  have hp := priceR_nonneg c
  unfold Spec.costR
  gcongr

/-- Buying out, with the cost rounded to the nearest unit of token A, leaves the pool full. -/
theorem Moor.full (hc : Nz c) {T F A' z : Nat} (h : Moor c T F) (h0 : T ≠ 0)
    (hz : T * ONE ≤ z + tenth) (hA : amtF c z < A' * ONE + roundingCorrection) : Full c T A' := by
  have hB : (1 : ℝ) ≤ T := by exact_mod_cast Nat.pos_of_ne_zero h0
  have h1 := (amtF_bounds hc z).1
  have hzr : (T : ℝ) - 1 / 10 ≤ (z : ℝ) / ONE := by
    have h2 : (T : ℝ) * ONE ≤ z + tenth := by exact_mod_cast hz
    rw [le_div_iff₀ oneR_pos]
    unfold tenth at h2
    rw [oneR] at h2 ⊢
    push_cast at h2
    linarith
  have hAr : (amtF c z : ℝ) / ONE < A' + 1 / 2 := by
    have h2 : (amtF c z : ℝ) < A' * ONE + roundingCorrection := by exact_mod_cast hA
    have e2 : (roundingCorrection : ℝ) = 5 * 10 ^ 17 := by rw [rc_eq]; norm_num
    rw [div_lt_iff₀ oneR_pos]
    rw [e2] at h2
    rw [oneR] at h2 ⊢
    linarith
  have hmono : Spec.costR c ((T : ℝ) - 1 / 10) ≤ Spec.costR c ((z : ℝ) / ONE) :=
    costR_le hc (by linarith) hzr
  have h3 := h.high h0
  have h4 : (F : ℝ) < A' + 1 := by
    rw [oneR] at h1 hAr hmono
    linarith
  have h5 : F ≤ A' := by
    have : F < A' + 1 := by exact_mod_cast h4
    omega
  exact (h.low h0).mono h5

/-- A pool whose last token costs two units of token A or more is moored at all of its tokens. -/
theorem moor_dear (hc : Nz c) {B0 : Nat} (hd : Spec.Dear c B0) : ∃ F, Moor c B0 F := by
  have hs := slopeR_pos hc
  have hp := priceR_nonneg c
  have hd' : (2 : ℝ) ≤ ((Spec.slope c : ℚ) : ℝ) * ((B0 : ℝ) - 1) + ((Spec.price c : ℚ) : ℝ) := by
    unfold Spec.Dear at hd
    have : (((2 : ℚ)) : ℝ) ≤ ((Spec.slope c * ((B0 : ℚ) - 1) + Spec.price c : ℚ) : ℝ) :=
      Rat.cast_le.2 hd
    push_cast at this
    exact this
  have hgap : Spec.costR c ((B0 : ℝ) - 2 / 5) + 3 / 5 ≤ Spec.costR c ((B0 : ℝ) - 1 / 10) := by
    unfold Spec.costR
    generalize ((Spec.slope c : ℚ) : ℝ) = s at *
    generalize ((Spec.price c : ℚ) : ℝ) = p at *
    nlinarith
  refine ⟨⌈Spec.costR c ((B0 : ℝ) - 2 / 5)⌉₊, fun _ => Nat.le_ceil _, fun h0 => ?_⟩
  have hB : (1 : ℝ) ≤ B0 := by exact_mod_cast Nat.pos_of_ne_zero h0
  have h1 : (0 : ℝ) ≤ Spec.costR c ((B0 : ℝ) - 2 / 5) := by
    unfold Spec.costR
    have : (0 : ℝ) ≤ (B0 : ℝ) - 2 / 5 := by linarith
    positivity
  have h2 := Nat.ceil_lt_add_one h1
  linarith

/-- A pool whose tokens all cost 7/10 of a unit of token A or less is moored at a level whose cost differs
from that of all tokens by at most one unit. -/
theorem moor_cheap (hc : Nz c) {B0 : Nat} (hd : Spec.Cheap c B0) :
    ∃ T F, T ≤ B0 ∧ Spec.costR c B0 ≤ Spec.costR c T + 1 ∧ Moor c T F := by
  have hs := slopeR_pos hc
  have hp := priceR_nonneg c
  have hd' : ((Spec.slope c : ℚ) : ℝ) * B0 + ((Spec.price c : ℚ) : ℝ) ≤ 7 / 10 := by
    unfold Spec.Cheap at hd
    have : ((Spec.slope c * (B0 : ℚ) + Spec.price c : ℚ) : ℝ) ≤ (((7 / 10 : ℚ)) : ℝ) :=
      Rat.cast_le.2 hd
    push_cast at this
    exact this
  rcases Nat.eq_zero_or_pos B0 with h0 | h0
  · exact ⟨0, 0, Nat.zero_le _, by rw [h0]; linarith, fun h => absurd rfl h, fun h => absurd rfl h⟩
  have hB : (1 : ℝ) ≤ B0 := by exact_mod_cast h0
  obtain ⟨t, ht⟩ : ∃ t, t = Spec.costR c ((B0 : ℝ) - 1 / 10) + 1 / 2 - 2 / 10 ^ 18 := ⟨_, rfl⟩
  have ht0 : 0 ≤ t := by
    have : 0 ≤ Spec.costR c ((B0 : ℝ) - 1 / 10) := by
      unfold Spec.costR
      have : (0 : ℝ) ≤ (B0 : ℝ) - 1 / 10 := by linarith
      positivity
    rw [ht]
    have : (2 : ℝ) / 10 ^ 18 ≤ 1 / 2 := by norm_num
    linarith
  have hF1 := Nat.floor_le ht0
  have hF2 := Nat.lt_floor_add_one t
  have key : ∀ T, T ≤ B0 → (T ≠ 0 → (⌊t⌋₊ : ℝ) ≤ Spec.costR c ((T : ℝ) - 1 / 10) + 1 / 2 - 2 / 10 ^ 18) →
      Spec.costR c B0 ≤ Spec.costR c T + 1 →
      ∃ T', T' ≤ B0 ∧ Spec.costR c B0 ≤ Spec.costR c T' + 1 ∧ Moor c T' ⌊t⌋₊ := by
    intro T
    induction T with
    | zero => exact fun h1 _ h3 => ⟨0, h1, h3, fun h => absurd rfl h, fun h => absurd rfl h⟩
    | succ T ih =>
      intro h1 h2 h3
      by_cases hg : Full c (T + 1) ⌊t⌋₊
      · exact ⟨T + 1, h1, h3, fun _ => hg, h2⟩
      · unfold Full at hg
        have hg' := not_le.1 hg
        have hT : (T : ℝ) + 1 ≤ B0 := by exact_mod_cast h1
        have hT0 : (0 : ℝ) ≤ T := Nat.cast_nonneg T
        push_cast at hg'
        have hsT : ((Spec.slope c : ℚ) : ℝ) * (T + 1) ≤ ((Spec.slope c : ℚ) : ℝ) * B0 :=
          mul_le_mul_of_nonneg_left hT hs.le
        have h18 : (2 : ℝ) / 10 ^ 18 ≤ 1 / 1000 := by norm_num
        refine ih (by omega) (fun _ => ?_) ?_
        · have : Spec.costR c ((T : ℝ) + 1 - 2 / 5) ≤ Spec.costR c ((T : ℝ) - 1 / 10) + 49 / 100 := by
            unfold Spec.costR
            generalize ((Spec.slope c : ℚ) : ℝ) = s at *
            generalize ((Spec.price c : ℚ) : ℝ) = p at *
            nlinarith
          linarith
        · have e1 : Spec.costR c B0 ≤ Spec.costR c ((B0 : ℝ) - 1 / 10) + 7 / 100 := by
            unfold Spec.costR
            generalize ((Spec.slope c : ℚ) : ℝ) = s at *
            generalize ((Spec.price c : ℚ) : ℝ) = p at *
            nlinarith
          have e2 : Spec.costR c ((T : ℝ) + 1 - 2 / 5) ≤ Spec.costR c T + 42 / 100 := by
            unfold Spec.costR
            generalize ((Spec.slope c : ℚ) : ℝ) = s at *
            generalize ((Spec.price c : ℚ) : ℝ) = p at *
            nlinarith
          linarith
  obtain ⟨T, h1, h2, h3⟩ := key B0 (le_refl _) (fun _ => by rw [← ht]; exact hF1) (by linarith)
  exact ⟨T, _, h1, h2, h3⟩

end Linear
end Verif
