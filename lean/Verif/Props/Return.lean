import Verif.Props.Level

/-
C04 for every valid curve.
-/

namespace Verif
namespace Props
open Spec
open Linear hiding price marginal_sq position_nonneg

/-- The cost of a position a little below the exact one. -/
theorem cost_below {c : LinearPriceCurve} (hv : isCurveParamValid c = .ok ()) {A : Nat} {d x : ℝ}
    (hx : 0 ≤ x) (hd : 0 ≤ d) (h : position c A - d ≤ x) : (A : ℝ) - d * marginal c A ≤ costR c x := by
  have hs := (slack_bounds hv).1
  have hp := priceR_nonneg c
  have e := (C45_position_unique c hv A (position c A) (position_nonneg hv _)).2 rfl
  have hm : marginal c A = ((slope c : ℚ) : ℝ) * position c A + ((Spec.price c : ℚ) : ℝ) := by
    unfold position
    field_simp
    ring
  have hpos := position_nonneg hv A
  rw [← e, hm]
  unfold costR
  generalize ((slope c : ℚ) : ℝ) = s at *
  generalize ((Spec.price c : ℚ) : ℝ) = p at *
  generalize position c A = q at *
  rcases le_or_gt q x with h1 | h1
  · have h2 : s / 2 * q ^ 2 ≤ s / 2 * x ^ 2 := by gcongr
    have h3 : p * q ≤ p * x := by gcongr
    have h4 : 0 ≤ d * (s * q + p) := by positivity
    linarith
  · have h2 : q - x ≤ d := by linarith
    have h3 : (q - x) * (s * q + p) ≤ d * (s * q + p) := mul_le_mul_of_nonneg_right h2 (by positivity)
    nlinarith [mul_nonneg hs.le (sq_nonneg (q - x))]

/-- C04 for every valid curve: buying, without exhausting the pool, and selling back gains less than
`5/slope`, the marginal price of the pool and two, all divided by `10^18`. -/
theorem C04_any_partial (c : LinearPriceCurve) (hv : isCurveParamValid c = .ok ())
    (s A B : Nat) (r r' : SwapWithoutFeesResult) (hs : s < 2 ^ 64) (hA : A < 2 ^ 64)
    (hbuy : Linear.swapWithoutFees c s A B .AtoB = .ok r)
    (hne : r.destination_amount_swapped < B)
    (hsell : Linear.swapWithoutFees c r.destination_amount_swapped
        (B - r.destination_amount_swapped) (A + r.source_amount_swapped) .BtoA = .ok r') :
    (r'.destination_amount_swapped : ℝ) <
        r.source_amount_swapped + (5 / (slope c : ℝ) + marginal c A + 2) / 10 ^ 18 ∧
      (5 / (slope c : ℝ) + marginal c A + 2 ≤ 10 ^ 18 →
        r'.destination_amount_swapped ≤ r.source_amount_swapped) := by
  have hz := nz_of_valid hv
  obtain ⟨hpos, hslack, hone⟩ := slack_bounds hv
  have key : (r'.destination_amount_swapped : ℝ) <
      r.source_amount_swapped + (5 / (slope c : ℝ) + marginal c A + 2) / 10 ^ 18 := by
    obtain ⟨h3, _, h5⟩ := swapWithoutFees_buy hbuy
    obtain ⟨b0, hb0, hc⟩ := swapAToB_ok h3
    rcases hc with ⟨e, _⟩ | ⟨hx, b1, hb1, hle, hy⟩
    · omega
    rw [hx] at hsell ⊢
    obtain ⟨k3, _, k5⟩ := swapWithoutFees_sell hsell
    obtain ⟨b2, hb2, hc⟩ := swapBToA_ok k3
    have hfl : r.destination_amount_swapped * Dfs.ONE ≤ b1 - b0 := by
      rw [hy]; exact Nat.div_mul_le_self _ _
    have hup := bValue_down_le_up hz (by omega) hb1 hb2
    rcases hc with ⟨hlt, _⟩ | ⟨hle2, hx2, v, hv', hvA, hy2⟩
    · omega
    have hce := le_ceil (b2 - r.destination_amount_swapped * Dfs.ONE)
    have hb0n : b0 ≤ (b2 - r.destination_amount_swapped * Dfs.ONE + (Dfs.ONE - 1)) / Dfs.ONE * Dfs.ONE := by
      omega
    have hV : v < VMAX := by
      refine lt_of_le_of_lt hvA ?_
      rw [Dfs.ONE_val, VMAX_val]; omega
    have hvF := (amt_eq_ok hz.sn hv' hV).1
    have hmono := amtF_mono c hb0n
    rw [← hvF] at hmono
    have hlow := (amtF_bounds hz b0).1
    have hg := (up_any hz (by omega) hb0).1
    have hgn : 0 ≤ grain c A := grain_nonneg hv A
    have hcost := cost_below hv (A := A) (d := grain c A + 1 / 10 ^ 18) (x := (b0 : ℝ) / 10 ^ 18)
      (by positivity) (by positivity) (by linarith)
    have hm0 : 0 ≤ marginal c A := Real.sqrt_nonneg _
    have hgm : grain c A * marginal c A ≤ 5 / (slope c : ℝ) / 10 ^ 18 := by
      unfold grain
      rcases hm0.eq_or_lt with h0 | h0
      · rw [← h0]
        simp
        positivity
      · apply le_of_eq
        field_simp
    have hyr : (r'.destination_amount_swapped : ℝ) * 10 ^ 18 ≤ (A + s) * 10 ^ 18 - v := by
      have h6 : r'.destination_amount_swapped * Dfs.ONE ≤ (A + s) * Dfs.ONE - v := by
        rw [hy2]; exact Nat.div_mul_le_self _ _
      have h7 : r'.destination_amount_swapped * Dfs.ONE + v ≤ (A + s) * Dfs.ONE := by omega
      have h8 : (r'.destination_amount_swapped : ℝ) * Dfs.ONE + v ≤ (A + s) * Dfs.ONE := by
        exact_mod_cast h7
      rw [oneR] at h8
      linarith
    have hmr : (amtF c b0 : ℝ) ≤ v := by exact_mod_cast hmono
    rw [oneR] at hlow
    have hlow2 : costR c ((b0 : ℝ) / 10 ^ 18) * 10 ^ 18 - 2 < amtF c b0 := by
      have := mul_lt_mul_of_pos_right hlow (show (0 : ℝ) < 10 ^ 18 by norm_num)
      rw [div_mul_cancel₀ _ (by norm_num), sub_mul, div_mul_cancel₀ _ (by norm_num)] at this
      exact this
    have hfin : (r'.destination_amount_swapped : ℝ) * 10 ^ 18 <
        s * 10 ^ 18 + (5 / (slope c : ℝ) + marginal c A + 2) := by
      have e : (grain c A + 1 / 10 ^ 18) * marginal c A =
          grain c A * marginal c A + marginal c A / 10 ^ 18 := by ring
      rw [e] at hcost
      generalize grain c A * marginal c A = g at *
      generalize 5 / ((slope c : ℚ) : ℝ) = q at *
      generalize costR c _ = z at *
      have h9 : (A : ℝ) * 10 ^ 18 - q - marginal c A ≤ z * 10 ^ 18 := by
        have := mul_le_mul_of_nonneg_right hcost (show (0 : ℝ) ≤ 10 ^ 18 by norm_num)
        have h10 := mul_le_mul_of_nonneg_right hgm (show (0 : ℝ) ≤ 10 ^ 18 by norm_num)
        rw [div_mul_cancel₀ _ (by norm_num)] at h10
        have e2 : ((A : ℝ) - (g + marginal c A / 10 ^ 18)) * 10 ^ 18 =
            A * 10 ^ 18 - g * 10 ^ 18 - marginal c A := by field_simp; ring
        rw [e2] at this
        linarith
      linarith
    have e18 : (0 : ℝ) < 10 ^ 18 := by norm_num
    rw [← sub_lt_iff_lt_add', lt_div_iff₀ e18]
    linarith
  refine ⟨key, fun h => ?_⟩
  have h1 : (5 / (slope c : ℝ) + marginal c A + 2) / 10 ^ 18 ≤ 1 := by
    rw [div_le_one (by norm_num)]
    exact h
  have h2 : (r'.destination_amount_swapped : ℝ) < (r.source_amount_swapped + 1 : Nat) := by
    push_cast
    linarith
  have h3 : r'.destination_amount_swapped < r.source_amount_swapped + 1 := by exact_mod_cast h2
  omega

/-- On every valid curve, whatever its slope and price, the gain is at most 36 base units of token A. -/
theorem C04_any_slack (c : LinearPriceCurve) (hv : isCurveParamValid c = .ok ())
    (s A B : Nat) (r r' : SwapWithoutFeesResult) (hs : s < 2 ^ 64) (hA : A < 2 ^ 64)
    (hbuy : Linear.swapWithoutFees c s A B .AtoB = .ok r)
    (hne : r.destination_amount_swapped < B)
    (hsell : Linear.swapWithoutFees c r.destination_amount_swapped
        (B - r.destination_amount_swapped) (A + r.source_amount_swapped) .BtoA = .ok r') :
    r'.destination_amount_swapped ≤ r.source_amount_swapped + 36 := by
  have h1 := (C04_any_partial c hv s A B r r' hs hA hbuy hne hsell).1
  obtain ⟨hpos, hslack, hone⟩ := slack_bounds hv
  have h5 : 5 / ((slope c : ℚ) : ℝ) ≤ 5 * 10 ^ 18 := by
    rw [div_le_one hpos] at hone
    rw [div_le_iff₀ hpos]
    linarith
  have hm : marginal c A ≤ 319509 * 10 ^ 14 := by
    have hz := nz_of_valid hv
    have hsd : (1 : ℝ) ≤ sd c := by exact_mod_cast Nat.one_le_iff_ne_zero.2 hz.sd
    have hpd : (1 : ℝ) ≤ pd c := by exact_mod_cast Nat.one_le_iff_ne_zero.2 hz.pd
    have hsn : (sn c : ℝ) ≤ 2 ^ 64 := by
      have : sn c ≤ 2 ^ 64 := (UInt64.toNat_lt _).le
      exact_mod_cast this
    have hpn : (pn c : ℝ) ≤ 2 ^ 64 := by
      have : pn c ≤ 2 ^ 64 := (UInt64.toNat_lt _).le
      exact_mod_cast this
    have hAr : (A : ℝ) ≤ 2 ^ 64 := by exact_mod_cast hA.le
    have e1 : ((slope c : ℚ) : ℝ) ≤ 2 ^ 64 := by
      rw [slope_realE]
      exact le_trans (div_le_self (Nat.cast_nonneg _) hsd) hsn
    have e2 : ((Spec.price c : ℚ) : ℝ) ≤ 2 ^ 64 := by
      rw [price_realE]
      exact le_trans (div_le_self (Nat.cast_nonneg _) hpd) hpn
    have e3 := priceR_nonneg c
    unfold marginal
    refine Real.sqrt_le_iff.2 ⟨by norm_num, ?_⟩
    have f1 : ((Spec.price c : ℚ) : ℝ) ^ 2 ≤ (2 ^ 64) ^ 2 := pow_le_pow_left₀ e3 e2 2
    have f2 : ((slope c : ℚ) : ℝ) * A ≤ 2 ^ 64 * 2 ^ 64 :=
      mul_le_mul e1 hAr (Nat.cast_nonneg _) (by norm_num)
    have f3 : ((2 : ℝ) ^ 64) ^ 2 + 2 * (2 ^ 64 * 2 ^ 64) ≤ (319509 * 10 ^ 14) ^ 2 := by norm_num
    linarith
  have h2 : (5 / (slope c : ℝ) + marginal c A + 2) / 10 ^ 18 < 37 := by
    rw [div_lt_iff₀ (by norm_num)]
    linarith
  have h3 : (r'.destination_amount_swapped : ℝ) < (r.source_amount_swapped + 37 : Nat) := by
    push_cast
    linarith
  have h4 : r'.destination_amount_swapped < r.source_amount_swapped + 37 := by exact_mod_cast h3
  omega

example : 5 / (slope thirdCurve : ℝ) + marginal thirdCurve 20 + 2 ≤ 10 ^ 18 ∧
    Linear.swapWithoutFees thirdCurve 60 20 100 .AtoB = .ok ⟨60, 10⟩ ∧
    Linear.swapWithoutFees thirdCurve 10 (100 - 10) (20 + 60) .BtoA = .ok ⟨10, 54⟩ := by
  refine ⟨?_, by decide +kernel, by decide +kernel⟩
  have e1 : ((slope thirdCurve : ℚ) : ℝ) = 1 / 3 := by
    unfold slope thirdCurve
    simp only [show UInt64.toNat 1 = 1 from rfl, show UInt64.toNat 3 = 3 from rfl]
    norm_num
  have e2 : ((Spec.price thirdCurve : ℚ) : ℝ) = 1 / 7 := by
    unfold Spec.price thirdCurve
    simp only [show UInt64.toNat 1 = 1 from rfl, show UInt64.toNat 7 = 7 from rfl]
    norm_num
  have hm : marginal thirdCurve 20 ≤ 4 := by
    unfold marginal
    rw [e1, e2]
    exact Real.sqrt_le_iff.2 ⟨by norm_num, by norm_num⟩
  rw [e1]
  linarith

end Props
end Verif
