import Verif.Lemmas.LinearAny
import Verif.Lemmas.LinearSplit
import Verif.Spec.Steep

/-
Helper lemmas for C03, C60 and C70 on steep curves: the rounded-up position against whole positions that
the A balance pays for.
-/

namespace Verif
namespace Linear
open Dfs

variable {c : LinearPriceCurve}

/-- A natural-number quotient is more than the exact one less one. -/
theorem lt_floor (x y : Nat) (hy : y ≠ 0) : (x : ℝ) / y < ((x / y : Nat) : ℝ) + 1 := by
  have h : x < y * (x / y + 1) := Nat.lt_mul_div_succ _ (Nat.pos_of_ne_zero hy)
  have hy' : (0 : ℝ) < y := by exact_mod_cast Nat.pos_of_ne_zero hy
  rw [div_lt_iff₀ hy', mul_comm]
  exact_mod_cast h

/-- `p² + 2s` is not tiny on a steep curve. -/
theorem steep_floor {s p : ℝ} (hs : 0 < s) (hz : 1 / 10 ^ 34 ≤ s ^ 2 * (p ^ 2 + 2 * s)) :
    4 / 10 ^ 18 ≤ p ^ 2 + 2 * s := by
  rcases le_or_gt (2 / 10 ^ 18) s with h | h
  · nlinarith [sq_nonneg p]
  · by_contra hc
    have hc' := not_le.1 hc
    have h1 : s ^ 2 ≤ (2 / 10 ^ 18) ^ 2 := pow_le_pow_left₀ hs.le h.le 2
    have h2 : 0 ≤ p ^ 2 + 2 * s := by positivity
    have h3 : s ^ 2 * (p ^ 2 + 2 * s) ≤ (2 / 10 ^ 18) ^ 2 * (4 / 10 ^ 18) :=
      mul_le_mul h1 hc'.le h2 (by positivity)
    have h4 : ((2 : ℝ) / 10 ^ 18) ^ 2 * (4 / 10 ^ 18) < 1 / 10 ^ 34 := by norm_num
    linarith

/-- The root times the slope outweighs the rounding. -/
theorem steep_root {s p R : ℝ} (hs : 0 < s) (hz : 1 / 10 ^ 34 ≤ s ^ 2 * (p ^ 2 + 2 * s)) (hR : 0 ≤ R)
    (h : ((p ^ 2 + 2 * s) * 10 ^ 18 - 2) * 10 ^ 18 ≤ R * R) :
    (4 * s + 2) * 10 ^ 18 ≤ R * s * (10 ^ 18 - 2) := by
  have hf := steep_floor hs hz
  have hs2 : 0 < s ^ 2 := by positivity
  have h1 : s ^ 2 * (p ^ 2 + 2 * s) * (5 * 10 ^ 35) ≤ (R * s) ^ 2 := by
    have e : (R * s) ^ 2 = s ^ 2 * (R * R) := by ring
    rw [e]
    have : s ^ 2 * (((p ^ 2 + 2 * s) * 10 ^ 18 - 2) * 10 ^ 18) ≤ s ^ 2 * (R * R) :=
      mul_le_mul_of_nonneg_left h hs2.le
    refine le_trans ?_ this
    rw [mul_assoc]
    apply mul_le_mul_of_nonneg_left _ hs2.le
    linarith
  have hRs : 0 ≤ R * s := mul_nonneg hR hs.le
  have hkey : 11 / 10 * (4 * s + 2) ≤ R * s := by
    apply le_of_mul_self_le hRs
    rw [← pow_two, ← pow_two]
    refine le_trans ?_ h1
    rcases le_or_gt s 1 with h2 | h2
    · have h3 : (11 / 10 * (4 * s + 2)) ^ 2 ≤ (11 / 10 * 6) ^ 2 :=
        pow_le_pow_left₀ (by positivity) (by linarith) 2
      have h4 : 1 / 10 ^ 34 * (5 * 10 ^ 35) ≤ s ^ 2 * (p ^ 2 + 2 * s) * (5 * 10 ^ 35) :=
        mul_le_mul_of_nonneg_right hz (by positivity)
      have h5 : ((11 : ℝ) / 10 * 6) ^ 2 ≤ 1 / 10 ^ 34 * (5 * 10 ^ 35) := by norm_num
      linarith
    · have h3 : (11 / 10 * (4 * s + 2)) ^ 2 ≤ (11 / 10 * (6 * s)) ^ 2 :=
        pow_le_pow_left₀ (by positivity) (by linarith) 2
      have h4 : s ^ 2 * 2 ≤ s ^ 2 * (p ^ 2 + 2 * s) :=
        mul_le_mul_of_nonneg_left (by nlinarith [sq_nonneg p]) hs2.le
      have h5 : (11 / 10 * (6 * s)) ^ 2 = s ^ 2 * (11 / 10 * 6) ^ 2 := by ring
      rw [h5] at h3
      norm_num at h3 ⊢
      linarith
  have h6 : 11 / 10 * (4 * s + 2) * (10 ^ 18 - 2) ≤ R * s * (10 ^ 18 - 2) :=
    mul_le_mul_of_nonneg_right hkey (by norm_num)
  refine le_trans ?_ h6
  nlinarith

/-- The pure estimate: a whole position `n` whose cost fits in `A`, up to rounding, is at most half a unit
above the position `b` that the rounded-up root `R` gives. -/
theorem steep_core {s p A n R b : ℝ} (hs : 0 < s) (hA : 1 ≤ A)
    (hz : 1 / 10 ^ 34 ≤ s ^ 2 * (p ^ 2 + 2 * s)) (hR : 0 ≤ R)
    (h1 : (s / 2 * n ^ 2 + p * n) * 10 ^ 18 ≤ A * 10 ^ 18 + 2)
    (h2 : ((p ^ 2 + 2 * s * A) * 10 ^ 18 - 2) * 10 ^ 18 ≤ R * R)
    (h3 : R ≤ p * 10 ^ 18 + s * (b + 1)) : n * 10 ^ 18 ≤ b + 5 * 10 ^ 17 := by
  by_contra hc
  have hc' := not_le.1 hc
  have hr := steep_root hs hz hR (le_trans (by nlinarith) h2)
  have hX : R + s * (5 * 10 ^ 17 - 1) < (s * n + p) * 10 ^ 18 := by
    have : s * (b + 5 * 10 ^ 17) < s * (n * 10 ^ 18) := mul_lt_mul_of_pos_left hc' hs
    nlinarith
  have h0 : 0 ≤ R + s * (5 * 10 ^ 17 - 1) := by
    have : 0 ≤ s * (5 * 10 ^ 17 - 1) := mul_nonneg hs.le (by norm_num)
    linarith
  have hsq := mul_self_lt_mul_self h0 hX
  have hup : (s * n + p) * 10 ^ 18 * ((s * n + p) * 10 ^ 18) ≤ R * R + (4 * s + 2) * 10 ^ 18 := by
    have e : (s * n + p) * 10 ^ 18 * ((s * n + p) * 10 ^ 18) =
        (p ^ 2 * 10 ^ 18 + 2 * s * ((s / 2 * n ^ 2 + p * n) * 10 ^ 18)) * 10 ^ 18 := by ring
    rw [e]
    have : 2 * s * ((s / 2 * n ^ 2 + p * n) * 10 ^ 18) ≤ 2 * s * (A * 10 ^ 18 + 2) :=
      mul_le_mul_of_nonneg_left h1 (by positivity)
    nlinarith
  have hlow : R * R + R * s * (10 ^ 18 - 2) ≤
      (R + s * (5 * 10 ^ 17 - 1)) * (R + s * (5 * 10 ^ 17 - 1)) := by
    have : 0 ≤ s * (5 * 10 ^ 17 - 1) * (s * (5 * 10 ^ 17 - 1)) := mul_self_nonneg _
    nlinarith
  linarith

theorem rad_gtR (hc : Nz c) (A : Nat) :
    (((pn c : ℝ) / pd c) ^ 2 + 2 * ((sn c : ℝ) / sd c) * A) * ONE - 2 ≤ rad c (A * ONE) := by
  have h1 := lt_floor (pn c * pn c * ONE) (pd c * pd c) (Nat.mul_ne_zero hc.pd hc.pd)
  have h2 := lt_floor (2 * sn c * (A * ONE)) (sd c) hc.sd
  unfold rad
  push_cast at h1 h2 ⊢
  have e : (((pn c : ℝ) / pd c) ^ 2 + 2 * ((sn c : ℝ) / sd c) * A) * ONE =
      (pn c : ℝ) * pn c * ONE / (pd c * pd c) + 2 * sn c * (A * ONE) / sd c := by
    rw [add_mul, div_pow, pow_two, pow_two]
    ring
  rw [e]
  linarith

theorem amtF_gtR (hc : Nz c) (n : Nat) :
    ((sn c : ℝ) / sd c / 2 * (n : ℝ) ^ 2 + (pn c : ℝ) / pd c * n) * ONE ≤ amtF c (n * ONE) + 2 := by
  rw [amtF_whole]
  have h1 := lt_floor (sn c * n * n * ONE) (2 * sd c) (Nat.mul_ne_zero (by decide) hc.sd)
  have h2 := lt_floor (pn c * n * ONE) (pd c) hc.pd
  push_cast at h1 h2 ⊢
  have hsd : (sd c : ℝ) ≠ 0 := by exact_mod_cast hc.sd
  have hpd : (pd c : ℝ) ≠ 0 := by exact_mod_cast hc.pd
  have e : ((sn c : ℝ) / sd c / 2 * (n : ℝ) ^ 2 + (pn c : ℝ) / pd c * n) * ONE =
      (sn c : ℝ) * n * n * ONE / (2 * sd c) + pn c * n * ONE / pd c := by
    field_simp
  rw [e]
  linarith

/-- On a steep curve, rounding up, the position is at most half a unit below every whole position whose
cost as computed fits in the A balance. -/
theorem steep_up (hc : Nz c) (hst : Spec.Steep c) {A b n : Nat} (hA : A < 36893488147419103232)
    (hb : bValue c (A * ONE) true = .ok b) (hn : amtF c (n * ONE) ≤ A * ONE) :
    n * ONE ≤ b + roundingCorrection := by
  have hsn : (0 : ℝ) < sn c := by exact_mod_cast Nat.pos_of_ne_zero hc.sn
  have hsd : (0 : ℝ) < sd c := by exact_mod_cast Nat.pos_of_ne_zero hc.sd
  have hpd : (0 : ℝ) < pd c := by exact_mod_cast Nat.pos_of_ne_zero hc.pd
  have hs : (0 : ℝ) < (sn c : ℝ) / sd c := div_pos hsn hsd
  have hp : (0 : ℝ) ≤ (pn c : ℝ) / pd c := by positivity
  have e18 : (ONE : ℝ) = 10 ^ 18 := by rw [ONE_val]; norm_num
  have hz : (1 : ℝ) / 10 ^ 34 ≤
      ((sn c : ℝ) / sd c) ^ 2 * (((pn c : ℝ) / pd c) ^ 2 + 2 * ((sn c : ℝ) / sd c)) := by
    have h1 : (((1 / 10 ^ 34 : ℚ)) : ℝ) ≤
        ((Spec.slope c ^ 2 * (Spec.price c ^ 2 + 2 * Spec.slope c) : ℚ) : ℝ) := by exact_mod_cast hst
    have e1 : ((Spec.price c : ℚ) : ℝ) = (pn c : ℝ) / pd c := by unfold Spec.price; push_cast; rfl
    have e2 : ((Spec.slope c : ℚ) : ℝ) = (sn c : ℝ) / sd c := by unfold Spec.slope; push_cast; rfl
    push_cast at h1
    rw [e1, e2] at h1
    exact h1
  rcases Nat.eq_zero_or_pos n with hn0 | hn0
  · rw [hn0, Nat.zero_mul]; exact Nat.zero_le _
  rcases Nat.eq_zero_or_pos A with hA0 | hA0
  · exfalso
    rw [hA0, Nat.zero_mul] at hn
    have h0 := Nat.le_zero.1 hn
    have h1 := amtF_mono c (Nat.mul_le_mul_right ONE hn0)
    rw [h0] at h1
    have h2 := Nat.le_zero.1 h1
    rw [amtF_whole, Nat.add_eq_zero_iff] at h2
    obtain ⟨h3, h4⟩ := h2
    have h5 := lt_floor (sn c * (Nat.succ 0) * (Nat.succ 0) * ONE) (2 * sd c)
      (Nat.mul_ne_zero (by decide) hc.sd)
    have h6 := lt_floor (pn c * (Nat.succ 0) * ONE) (pd c) hc.pd
    rw [h3] at h5
    rw [h4] at h6
    push_cast at h5 h6
    rw [e18] at h5 h6
    have h7 : (sn c : ℝ) / sd c < 2 / 10 ^ 18 := by
      have e : (sn c : ℝ) / sd c = (sn c : ℝ) * (0 + 1) * (0 + 1) * 10 ^ 18 / (2 * sd c) *
          (2 / 10 ^ 18) := by field_simp; norm_num
      rw [e]
      nlinarith
    have h8 : (pn c : ℝ) / pd c < 1 / 10 ^ 18 := by
      have e : (pn c : ℝ) / pd c = (pn c : ℝ) * (0 + 1) * 10 ^ 18 / pd c * (1 / 10 ^ 18) := by
        field_simp; norm_num
      rw [e]
      nlinarith
    have h9 := pow_le_pow_left₀ hs.le h7.le 2
    have h10 := pow_le_pow_left₀ hp h8.le 2
    have h11 : ((sn c : ℝ) / sd c) ^ 2 * (((pn c : ℝ) / pd c) ^ 2 + 2 * ((sn c : ℝ) / sd c)) ≤
        (2 / 10 ^ 18) ^ 2 * ((1 / 10 ^ 18) ^ 2 + 2 * (2 / 10 ^ 18)) :=
      mul_le_mul h9 (by linarith) (by positivity) (by positivity)
    have h12 : ((2 : ℝ) / 10 ^ 18) ^ 2 * ((1 / 10 ^ 18) ^ 2 + 2 * (2 / 10 ^ 18)) < 1 / 10 ^ 34 := by
      norm_num
    linarith
  · obtain ⟨root, hr, hb2⟩ := bValue_ok hc hA hb
    have hsq := sqrtU64_up_sq (rad_lt c (whole_le_AMAX hA)) hr
    have h1 : ((sn c : ℝ) / sd c / 2 * (n : ℝ) ^ 2 + (pn c : ℝ) / pd c * n) * 10 ^ 18 ≤
        (A : ℝ) * 10 ^ 18 + 2 := by
      have h := amtF_gtR hc n
      have hn' : (amtF c (n * ONE) : ℝ) ≤ A * ONE := by exact_mod_cast hn
      rw [e18] at h hn'
      linarith
    have h2 : ((((pn c : ℝ) / pd c) ^ 2 + 2 * ((sn c : ℝ) / sd c) * A) * 10 ^ 18 - 2) * 10 ^ 18 ≤
        (root : ℝ) * root := by
      have h := rad_gtR hc A
      have hsq' : (rad c (A * ONE) : ℝ) * ONE ≤ root * root := by exact_mod_cast hsq
      rw [e18] at h hsq'
      refine le_trans ?_ hsq'
      exact mul_le_mul_of_nonneg_right h (by positivity)
    have h3 : (root : ℝ) ≤ (pn c : ℝ) / pd c * 10 ^ 18 + (sn c : ℝ) / sd c * (b + 1) := by
      have h := lt_floor ((root - price c) * sd c) (sn c) hc.sn
      rw [← hb2] at h
      have hpr : (price c : ℝ) ≤ (pn c : ℝ) / pd c * 10 ^ 18 := by
        have : ((pn c * ONE / pd c : Nat) : ℝ) ≤ (pn c * ONE : Nat) / (pd c : Nat) := Nat.cast_div_le
        unfold price
        push_cast at this ⊢
        rw [e18] at this
        calc _ ≤ (pn c : ℝ) * 10 ^ 18 / pd c := this
          _ = _ := by ring
      have hsub : (root : ℝ) ≤ price c + ((root - price c : Nat) : ℝ) := by
        have : root ≤ price c + (root - price c) := by omega
        exact_mod_cast this
      push_cast at h
      have hk : ((root - price c : Nat) : ℝ) ≤ (sn c : ℝ) / sd c * (b + 1) := by
        rw [div_lt_iff₀ hsn] at h
        rw [div_mul_eq_mul_div, le_div_iff₀ hsd]
        linarith
      linarith
    have hfin := steep_core hs (by exact_mod_cast hA0) hz (Nat.cast_nonneg root) h1 h2 h3
    have e2 : (roundingCorrection : ℝ) = 5 * 10 ^ 17 := by rw [rc_eq]; norm_num
    have : (n : ℝ) * ONE ≤ b + roundingCorrection := by rw [e18, e2]; exact hfin
    exact_mod_cast this

/-- A natural number of units at most half a unit above another is at most that other. -/
theorem le_of_half {m n : Nat} (h : m * ONE ≤ n * ONE + roundingCorrection) : m ≤ n := by
  by_contra hc
  have h1 : (n + 1) * ONE ≤ m * ONE := Nat.mul_le_mul_right _ (by omega)
  rw [Nat.add_mul, Nat.one_mul] at h1
  have : roundingCorrection < ONE := by decide
  omega

/-- The pool keeps at least the computed cost of the whole position a sale leaves it at. -/
theorem sell_keeps (hc : Nz c) {A n v y : Nat} (hA : A < 18446744073709551616)
    (hv : amtALocked c (n * ONE) = .ok v) (hvA : v ≤ A * ONE) (hy : y = (A * ONE - v) / ONE) :
    v = amtF c (n * ONE) ∧ y ≤ A ∧ v ≤ (A - y) * ONE := by
  have hyA : y * ONE ≤ A * ONE - v := by rw [hy]; exact Nat.div_mul_le_self _ _
  have hyA' : y ≤ A := Nat.le_of_mul_le_mul_right (le_trans hyA (Nat.sub_le _ _)) ONE_pos
  have hV : v < VMAX := by
    refine lt_of_le_of_lt hvA ?_
    rw [ONE_val, VMAX_val]; omega
  refine ⟨(amt_eq_ok hc.sn hv hV).1, hyA', ?_⟩
  rw [Nat.sub_mul]
  omega

/-- Sell, then buy back with the proceeds without exhausting the pool, on a steep curve. -/
theorem steep_sell_buy (hc : Nz c) (hst : Spec.Steep c) {s A B x y x' y' : Nat}
    (hA : A < 18446744073709551616) (hsell : swapBToA c s A = .ok (x, y))
    (hbuy : swapAToB c y (A - y) (B + x) = .ok (x', y')) (hy' : y' < B + x) : y' ≤ x := by
  obtain ⟨b0, hb0, hcase⟩ := swapBToA_ok hsell
  obtain ⟨b2, hb2, hcase'⟩ := swapAToB_ok hbuy
  rcases hcase' with ⟨hyB, _⟩ | ⟨_, b1, hb1, hle, hyb⟩
  · omega
  rcases hcase with ⟨hlt, hy, hx⟩ | ⟨hle2, hx, v, hv, hvA, hy⟩
  · have e : A - y + y = A := by omega
    rw [e] at hb1
    have h1 := bValue_down_le_up hc (by omega) hb1 hb0
    rw [hyb, hx]
    exact Nat.div_le_div_right (le_trans (Nat.sub_le _ _) (le_trans h1 (Nat.le_add_right _ _)))
  · obtain ⟨k1, k2, k3⟩ := sell_keeps hc hA hv hvA hy
    have e : A - y + y = A := by omega
    rw [e] at hb1
    have h1 := bValue_down_le_up hc (by omega) hb1 hb0
    rw [k1] at k3
    have h2 := steep_up hc hst (by omega) hb2 k3
    have h3 := le_trans (le_ceil _) h2
    have hq : y' * ONE ≤ b1 - b2 := by rw [hyb]; exact Nat.div_mul_le_self _ _
    rw [hx]
    refine le_of_half ?_
    omega

/-- Two successive sales against one sale of the combined amount, on a steep curve. -/
theorem steep_sell_split (hst : Spec.Steep c) (hval : isCurveParamValid c = .ok ())
    {s1 s2 A x1 y1 x2 y2 : Nat} (hA : A < 18446744073709551616)
    (hs : s1 + s2 < 18446744073709551616) (h1 : swapBToA c s1 A = .ok (x1, y1))
    (h2 : swapBToA c s2 (A - y1) = .ok (x2, y2)) (hx1 : x1 ≠ 0) :
    ∃ x y, swapBToA c (s1 + s2) A = .ok (x, y) ∧ x ≠ 0 ∧ y1 + y2 ≤ y := by
  have hz := nz_of_valid hval
  obtain ⟨b0, hb0, hc1⟩ := swapBToA_ok h1
  obtain ⟨b2, hb2, hc2⟩ := swapBToA_ok h2
  obtain ⟨f1, f2⟩ := swapBToA_of (s := s1 + s2) hA hs hval hb0
  have hs2 : y2 ≤ A - y1 := by
    rcases hc2 with ⟨_, hy, _⟩ | ⟨_, _, v, _, hvA, hy⟩
    · exact le_of_eq hy
    · have : y2 * ONE ≤ (A - y1) * ONE := by
        rw [hy]; exact le_trans (Nat.div_mul_le_self _ _) (Nat.sub_le _ _)
      exact Nat.le_of_mul_le_mul_right this ONE_pos
  have hy1 : y1 ≤ A := by
    rcases hc1 with ⟨_, hy, _⟩ | ⟨_, _, v, hv, hvA, hy⟩
    · exact le_of_eq hy
    · exact (sell_keeps hz hA hv hvA hy).2.1
  rcases Nat.lt_or_ge b0 ((s1 + s2) * ONE) with hlt | hge
  · refine ⟨_, _, f1 hlt, ?_, by omega⟩
    rcases hc1 with ⟨_, _, hx⟩ | ⟨hle, hx, _⟩
    · rw [← hx]; exact hx1
    · have : s1 ≤ (b0 + roundingCorrection) / ONE := by
        rw [Nat.le_div_iff_mul_le ONE_pos]; exact le_trans hle (Nat.le_add_right _ _)
      clear hc2 f1 f2 hs2
      rw [hx] at hx1
      exact Nat.ne_of_gt (lt_of_lt_of_le (Nat.pos_of_ne_zero hx1) this)
  · have hge' := hge
    rw [Nat.add_mul] at hge
    rcases hc1 with ⟨hlt, _⟩ | ⟨hle, hx, v, hv, hvA, hy⟩
    · omega
    obtain ⟨k1, _, k3⟩ := sell_keeps hz hA hv hvA hy
    rw [k1] at k3
    have hup := steep_up hz hst (by omega) hb2 k3
    have hce := le_ceil (b0 - s1 * ONE)
    -- the position after one sale is at most `s2` below that after the first of two
    have hn1 : (b0 - (s1 + s2) * ONE + (ONE - 1)) / ONE + s2 ≤ (b0 - s1 * ONE + (ONE - 1)) / ONE := by
      rw [Nat.le_div_iff_mul_le ONE_pos, Nat.add_mul, Nat.add_mul]
      have := Nat.div_mul_le_self (b0 - (s1 * ONE + s2 * ONE) + (ONE - 1)) ONE
      omega
    generalize hN : (b0 - s1 * ONE + (ONE - 1)) / ONE = N at *
    generalize hM : (b0 - (s1 + s2) * ONE + (ONE - 1)) / ONE = M at *
    have hAA : (A - y1) * ONE ≤ A * ONE := Nat.mul_le_mul_right _ (Nat.sub_le _ _)
    rcases hc2 with ⟨hlt2, hy2, _⟩ | ⟨hle2, _, v2, hv2, hvA2, hy2⟩
    · -- the second sale empties the pool: then the single sale does so as well
      have hNs : N ≤ s2 := by
        refine le_of_half ?_
        omega
      have hM0 : M = 0 := by omega
      have ea : amtF c (M * ONE) = 0 := by rw [hM0, amtF_whole]; simp
      rw [ea] at f2
      refine ⟨_, _, f2 hge' (Nat.zero_le _), by omega, ?_⟩
      rw [Nat.sub_zero, Nat.mul_div_cancel _ ONE_pos]
      omega
    · have hn : M * ONE ≤ (b2 - s2 * ONE + (ONE - 1)) / ONE * ONE := by
        refine Nat.mul_le_mul_right _ (le_of_half ?_)
        have h4 := le_ceil (b2 - s2 * ONE)
        have h5 : (M + s2) * ONE ≤ N * ONE := Nat.mul_le_mul_right _ hn1
        rw [Nat.add_mul] at h5
        omega
      have hV2 : v2 < VMAX := by
        refine lt_of_le_of_lt hvA2 ?_
        rw [ONE_val, VMAX_val]; omega
      have hvF := (amt_eq_ok hz.sn hv2 hV2).1
      have hmono := amtF_mono c hn
      rw [← hvF] at hmono
      refine ⟨_, _, f2 hge' (by omega), by omega, ?_⟩
      have hk2 : y2 * ONE ≤ (A - y1) * ONE - v2 := by rw [hy2]; exact Nat.div_mul_le_self _ _
      have hk1 : y1 * ONE ≤ A * ONE := Nat.mul_le_mul_right _ hy1
      have hk3 : (A - y1) * ONE = A * ONE - y1 * ONE := Nat.sub_mul _ _ _
      rw [Nat.le_div_iff_mul_le ONE_pos]
      exact le_trans (le_of_eq (Nat.add_mul _ _ _)) (pay_sum hk1 hk3 hk2 hmono hvA2)

/-- A whole position whose computed cost fits in the A balance is at most half a unit above the exact
position, on a steep curve. -/
theorem steep_position (hc : Nz c) (hst : Spec.Steep c) {A n : Nat}
    (hn : amtF c (n * ONE) ≤ A * ONE) : (n : ℝ) ≤ Spec.position c A + 1 / 2 := by
  have hsn : (0 : ℝ) < sn c := by exact_mod_cast Nat.pos_of_ne_zero hc.sn
  have hsd : (0 : ℝ) < sd c := by exact_mod_cast Nat.pos_of_ne_zero hc.sd
  have hpd : (0 : ℝ) < pd c := by exact_mod_cast Nat.pos_of_ne_zero hc.pd
  have hs : (0 : ℝ) < (sn c : ℝ) / sd c := div_pos hsn hsd
  have hp : (0 : ℝ) ≤ (pn c : ℝ) / pd c := by positivity
  have e1 : ((Spec.price c : ℚ) : ℝ) = (pn c : ℝ) / pd c := by unfold Spec.price; push_cast; rfl
  have e2 : ((Spec.slope c : ℚ) : ℝ) = (sn c : ℝ) / sd c := by unfold Spec.slope; push_cast; rfl
  have e18 : (ONE : ℝ) = 10 ^ 18 := by rw [ONE_val]; norm_num
  rcases Nat.eq_zero_or_pos n with hn0 | hn0
  · rw [hn0, Nat.cast_zero]
    have := position_nonneg hc A
    linarith
  have hz : (1 : ℝ) / 10 ^ 34 ≤
      ((sn c : ℝ) / sd c) ^ 2 * (((pn c : ℝ) / pd c) ^ 2 + 2 * ((sn c : ℝ) / sd c)) := by
    have h1 : (((1 / 10 ^ 34 : ℚ)) : ℝ) ≤
        ((Spec.slope c ^ 2 * (Spec.price c ^ 2 + 2 * Spec.slope c) : ℚ) : ℝ) := by exact_mod_cast hst
    push_cast at h1
    rw [e1, e2] at h1
    exact h1
  have hq := amtF_gtR hc n
  have hn' : (amtF c (n * ONE) : ℝ) ≤ A * ONE := by exact_mod_cast hn
  rw [e18] at hq hn'
  have hm := marginal_sq c A
  have hm0 : 0 ≤ Spec.marginal c A := Real.sqrt_nonneg _
  have hn1 : (1 : ℝ) ≤ n := by exact_mod_cast hn0
  unfold Spec.position
  rw [e1, e2]
  generalize (sn c : ℝ) / sd c = s at *
  generalize (pn c : ℝ) / pd c = p at *
  generalize Spec.marginal c A = M at *
  generalize (n : ℝ) = n at *
  generalize (amtF c _ : ℝ) = F at *
  have hsp : 8 / 10 ^ 18 ≤ s + p := by
    rcases le_or_gt (8 / 10 ^ 18) s with h | h
    · linarith
    · have h1 : s ^ 2 ≤ (8 / 10 ^ 18) ^ 2 := pow_le_pow_left₀ hs.le h.le 2
      by_contra hcon
      have h2 : p ≤ 8 / 10 ^ 18 := by linarith
      have h3 := pow_le_pow_left₀ hp h2 2
      have h4 : s ^ 2 * (p ^ 2 + 2 * s) ≤
          (8 / 10 ^ 18) ^ 2 * ((8 / 10 ^ 18) ^ 2 + 2 * (8 / 10 ^ 18)) :=
        mul_le_mul h1 (by linarith) (by positivity) (by positivity)
      have h5 : ((8 : ℝ) / 10 ^ 18) ^ 2 * ((8 / 10 ^ 18) ^ 2 + 2 * (8 / 10 ^ 18)) < 1 / 10 ^ 34 := by
        norm_num
      linarith
  have hx : (s * n + p) ^ 2 ≤ M * M + 4 * s / 10 ^ 18 := by
    rw [hm]
    have e : (s * n + p) ^ 2 = p ^ 2 + 2 * s * (s / 2 * n ^ 2 + p * n) := by ring
    have h1 : s / 2 * n ^ 2 + p * n ≤ A + 2 / 10 ^ 18 := by linarith
    have h2 := mul_le_mul_of_nonneg_left h1 (by positivity : 0 ≤ 2 * s)
    rw [e]
    linarith
  have hxp : 8 / 10 ^ 18 ≤ s * n + p := by nlinarith
  suffices hgoal : s * n + p ≤ M + s / 2 by
    have : n = s * n / s := by field_simp
    rw [this, ← sub_le_iff_le_add, le_div_iff₀ hs]
    have e : (s * n / s - 1 / 2) * s = s * n - s / 2 := by field_simp
    rw [e]
    linarith
  by_contra hcon
  have hlt := not_le.1 hcon
  have hxM : M * M + (s * n + p) * (s / 2) ≤ (s * n + p) ^ 2 := by
    nlinarith
  have h9 : 8 / 10 ^ 18 * (s / 2) < (s * n + p) * (s / 2) ∨ 8 / 10 ^ 18 * (s / 2) = (s * n + p) * (s / 2) :=
    lt_or_eq_of_le (mul_le_mul_of_nonneg_right hxp (by linarith))
  nlinarith

/-- What the history of a steep pool maintains about the `o` token B outside: up to half a unit they are
within the position rounded down, or their computed cost fits in the A balance. -/
def Covered (c : LinearPriceCurve) (A o : Nat) : Prop :=
  (∃ b, bValue c (A * ONE) false = .ok b ∧ o * ONE ≤ b + roundingCorrection) ∨
    amtF c (o * ONE) ≤ A * ONE

theorem Covered.zero {A : Nat} : Covered c A 0 := by
  right
  rw [amtF_whole]
  simp

theorem Covered.mono_o {A o o' : Nat} (h : Covered c A o') (hle : o ≤ o') : Covered c A o := by
  rcases h with ⟨b, hb, h⟩ | h
  · exact Or.inl ⟨b, hb, le_trans (Nat.mul_le_mul_right _ hle) h⟩
  · exact Or.inr (le_trans (amtF_mono c (Nat.mul_le_mul_right _ hle)) h)

theorem Covered.mono_a (hc : Nz c) {A A' o : Nat} (h : Covered c A o) (hle : A ≤ A')
    (hA : A' < 36893488147419103232) : Covered c A' o := by
  rcases h with ⟨b, hb, h⟩ | h
  · obtain ⟨b', hb'⟩ := bValue_down_total hc hA
    exact Or.inl ⟨b', hb', le_trans h (Nat.add_le_add_right (bValue_mono hc hle hA hb hb') _)⟩
  · exact Or.inr (le_trans h (Nat.mul_le_mul_right _ hle))

theorem Covered.up (hc : Nz c) (hst : Spec.Steep c) {A o b : Nat} (h : Covered c A o)
    (hA : A < 36893488147419103232) (hb : bValue c (A * ONE) true = .ok b) :
    o * ONE ≤ b + roundingCorrection := by
  rcases h with ⟨b', hb', h⟩ | h
  · exact le_trans h (Nat.add_le_add_right (bValue_down_le_up hc hA hb' hb) _)
  · exact steep_up hc hst hA hb h

theorem Covered.position (hc : Nz c) (hst : Spec.Steep c) {A o : Nat} (h : Covered c A o)
    (hA : A < 36893488147419103232) (hs : 0 ≤ 1 / 10 ^ 18 / (Spec.slope c : ℝ)) :
    (o : ℝ) ≤ Spec.position c A + 1 / 10 ^ 18 / (Spec.slope c : ℝ) + 1 / 2 := by
  rcases h with ⟨b, hb, h⟩ | h
  · have h6 := bValue_down_leR hc hA hb
    have h7 : (o : ℝ) * ONE ≤ b + roundingCorrection := by exact_mod_cast h
    have e18 : (10 : ℝ) ^ 18 = (ONE : ℝ) := by rw [ONE_val]; norm_num
    have e2 : (roundingCorrection : ℝ) = 1 / 2 * ONE := by rw [rc_eq, ONE_val]; norm_num
    rw [e2] at h7
    have h8 : (o : ℝ) ≤ (b : ℝ) / ONE + 1 / 2 := by
      rw [← sub_le_iff_le_add, le_div_iff₀ oneR_pos]
      linarith
    rw [e18]
    linarith
  · have := steep_position hc hst h
    linarith

end Linear
end Verif
