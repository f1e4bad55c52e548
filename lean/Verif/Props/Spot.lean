import Verif.Lemmas.LinearSplit
import Verif.Props.Accuracy
import Verif.Spec.Spot

/-
C70-C72: selling in parts, the price of a trade against the price the pool quotes before and after
it, and a second pool that carries on where a first one ends.
-/

namespace Verif
namespace Props
open Spec
open Linear hiding price

/-! ### C70: splitting a sale -/

/-- The full claim of C70. -/
def C70_statement : Prop :=
  ∀ (c : LinearPriceCurve), isCurveParamValid c = .ok () →
    ∀ (s1 s2 A B : Nat) (r1 r2 : SwapWithoutFeesResult), A < 2 ^ 64 → s1 + s2 < 2 ^ 64 →
      Linear.swapWithoutFees c s1 B A .BtoA = .ok r1 →
      Linear.swapWithoutFees c s2 (B + r1.source_amount_swapped)
        (A - r1.destination_amount_swapped) .BtoA = .ok r2 →
      ∃ r, Linear.swapWithoutFees c (s1 + s2) B A .BtoA = .ok r ∧
        r1.destination_amount_swapped + r2.destination_amount_swapped ≤
          r.destination_amount_swapped

/-- C70 is false of the code: with slope `12/10^19` (accepted by validation, but its half is not a
multiple of `10^-18`), two sales out of 1905 token A pay 8 and 1549, one sale of the sum 1556. -/
theorem C70_false : ¬ C70_statement := by
  intro h
  obtain ⟨r, h1, h2⟩ := h ⟨12, 10000000000000000000, 0, 1⟩ (by decide +kernel) 119739416 32142274314
    1905 0 ⟨119739416, 8⟩ ⟨32142274314, 1549⟩ (by decide) (by decide) (by decide +kernel)
    (by decide +kernel)
  have h3 : Linear.swapWithoutFees ⟨12, 10000000000000000000, 0, 1⟩ (119739416 + 32142274314) 0 1905
      .BtoA = .ok ⟨32262013730, 1556⟩ := by decide +kernel
  rw [h3] at h1
  rw [← Res.ok.inj h1] at h2
  exact absurd h2 (by decide)

/-- C70 for representable curves: whenever two successive sales succeed, so does one sale of both
amounts, and it pays at least as much.  Missing from the full claim: parameters whose half-slope,
price or squared price is not a multiple of `10^-18` (`C70_false`). -/
theorem C70_split_sale_partial (c : LinearPriceCurve) (hv : isCurveParamValid c = .ok ())
    (hr : Representable c) (s1 s2 A B : Nat) (r1 r2 : SwapWithoutFeesResult) (hA : A < 2 ^ 64)
    (hs : s1 + s2 < 2 ^ 64) (h1 : Linear.swapWithoutFees c s1 B A .BtoA = .ok r1)
    (h2 : Linear.swapWithoutFees c s2 (B + r1.source_amount_swapped)
      (A - r1.destination_amount_swapped) .BtoA = .ok r2) :
    ∃ r, Linear.swapWithoutFees c (s1 + s2) B A .BtoA = .ok r ∧
      r1.destination_amount_swapped + r2.destination_amount_swapped ≤
        r.destination_amount_swapped := by
  obtain ⟨H, P, Q, hrep⟩ := Rep_of_spec (nz_of_valid hv) hr
  obtain ⟨k1, k2, k3⟩ := swapWithoutFees_sell h1
  obtain ⟨k4, _, _⟩ := swapWithoutFees_sell h2
  obtain ⟨x, y, e, hx, hy⟩ := hrep.sell_split hv (lt64 hA) (lt64 hs) k1 k4 k2
  refine ⟨⟨x, y⟩, ?_, hy⟩
  unfold Linear.swapWithoutFees
  simp only []
  rw [e, Res.ok_bind]
  simp only [mapZeroToNone, if_neg hx, if_neg (show ¬ y = 0 by omega), Res.ok_bind]

example : Linear.swapWithoutFees sampleCurve 3 50 100 .BtoA = .ok ⟨3, 46⟩ ∧
    Linear.swapWithoutFees sampleCurve 2 (50 + 3) (100 - 46) .BtoA = .ok ⟨2, 26⟩ ∧
    Linear.swapWithoutFees sampleCurve (3 + 2) 50 100 .BtoA = .ok ⟨5, 72⟩ := by decide +kernel

/-! ### C71: the price of a trade -/

section
variable {c : LinearPriceCurve}

theorem marginal_nonneg (c : LinearPriceCurve) (A : Nat) : 0 ≤ marginal c A := Real.sqrt_nonneg _

theorem marginal_sq (hv : isCurveParamValid c = .ok ()) (A : Nat) :
    marginal c A * marginal c A = (Spec.price c : ℝ) ^ 2 + 2 * (slope c : ℝ) * A := by
  have hs := slope_pos hv
  unfold marginal
  exact Real.mul_self_sqrt (by positivity)

theorem marginal_mono (hv : isCurveParamValid c = .ok ()) {A A' : Nat} (h : A ≤ A') :
    marginal c A ≤ marginal c A' := by
  have hs := slope_pos hv
  unfold marginal
  apply Real.sqrt_le_sqrt
  have : (A : ℝ) ≤ A' := by exact_mod_cast h
  gcongr

theorem marginal_pos (hv : isCurveParamValid c = .ok ()) {A : Nat} (h : 0 < A) :
    0 < marginal c A := by
  have hs := slope_pos hv
  unfold marginal
  apply Real.sqrt_pos.2
  have : (0 : ℝ) < A := by exact_mod_cast h
  have : 0 < 2 * (slope c : ℝ) * A := by positivity
  have := sq_nonneg (Spec.price c : ℝ)
  linarith

/-- Between two states of the vault the exact curve moves by the amount over the mean price. -/
theorem position_step (hv : isCurveParamValid c = .ok ()) (A s : Nat) :
    (position c (A + s) - position c A) * meanPrice c A (A + s) = s := by
  have hs := slope_pos hv
  have e1 := marginal_sq hv A
  have e2 := marginal_sq hv (A + s)
  unfold position meanPrice
  generalize marginal c A = m at *
  generalize marginal c (A + s) = m' at *
  generalize ((slope c : ℚ) : ℝ) = k at *
  push_cast at e2
  rw [← sub_div, div_mul_eq_mul_div, div_eq_iff hs.ne']
  calc (m' - (Spec.price c : ℝ) - (m - (Spec.price c : ℝ))) * ((m + m') / 2)
      = (m' * m' - m * m) / 2 := by ring
    _ = s * k := by rw [e1, e2]; ring

theorem meanPrice_pos (hv : isCurveParamValid c = .ok ()) {A s : Nat} (h : 0 < s) :
    0 < meanPrice c A (A + s) := by
  have h1 := marginal_nonneg c A
  have h2 := marginal_pos hv (show 0 < A + s by omega)
  unfold meanPrice
  linarith

end

/-- C71, purchases.  A purchase that does not empty the vault is priced at the mean of the spot
prices before and after it: the token B handed out are `s` over that mean, at most `10^-18` above
and less than `1 + 10^-18` plus the blur of the two positions below. -/
theorem C71_buy_price (c : LinearPriceCurve) (hv : isCurveParamValid c = .ok ())
    (hr : Representable c) (s A B : Nat) (r : SwapWithoutFeesResult) (hs : s < 2 ^ 64)
    (hA : A < 2 ^ 64) (h : Linear.swapWithoutFees c s A B .AtoB = .ok r)
    (hne : r.destination_amount_swapped < B) :
    (r.destination_amount_swapped : ℝ) < s / meanPrice c A (A + s) + 1 / 10 ^ 18 ∧
    s / meanPrice c A (A + s) - blur c A - blur c (A + s) - 1 / 10 ^ 18 - 1 <
      r.destination_amount_swapped := by
  have h0 := (swapWithoutFees_buy h).2.1
  rcases C46_buy c hv hr s A B r hs hA h with ⟨hx, h1, h2⟩ | ⟨hB, _⟩
  · have hp := meanPrice_pos (c := c) hv (A := A) (s := s) (by omega)
    have e : (s : ℝ) / meanPrice c A (A + s) = position c (A + s) - position c A := by
      rw [div_eq_iff hp.ne']; exact (position_step hv A s).symm
    rw [e]
    exact ⟨h1, h2⟩
  · omega

/-- C71, purchases against the spot price: nobody buys below the price quoted before the trade,
to within `10^-18` of one token. -/
theorem C71_buy_spot (c : LinearPriceCurve) (hv : isCurveParamValid c = .ok ())
    (hr : Representable c) (s A B : Nat) (r : SwapWithoutFeesResult) (hs : s < 2 ^ 64)
    (hA : A < 2 ^ 64) (h : Linear.swapWithoutFees c s A B .AtoB = .ok r)
    (hne : r.destination_amount_swapped < B) :
    ((r.destination_amount_swapped : ℝ) - 1 / 10 ^ 18) * marginal c A < s := by
  have h0 := (swapWithoutFees_buy h).2.1
  have hx : r.source_amount_swapped = s := by
    rcases C46_buy c hv hr s A B r hs hA h with ⟨hx, _⟩ | ⟨hB, _⟩
    · exact hx
    · omega
  obtain ⟨h1, _⟩ := C71_buy_price c hv hr s A B r hs hA h hne
  have hp := meanPrice_pos (c := c) hv (A := A) (s := s) (by omega)
  have h2 : ((r.destination_amount_swapped : ℝ) - 1 / 10 ^ 18) * meanPrice c A (A + s) < s := by
    rw [← lt_div_iff₀ hp]; linarith
  have h3 : marginal c A ≤ meanPrice c A (A + s) := by
    have := marginal_mono (c := c) hv (Nat.le_add_right A s)
    unfold meanPrice; linarith
  have h4 : (1 : ℝ) ≤ r.destination_amount_swapped := by
    have := (swapWithoutFees_buy h).2.2
    exact_mod_cast Nat.one_le_iff_ne_zero.2 this
  have h5 : (0 : ℝ) ≤ (r.destination_amount_swapped : ℝ) - 1 / 10 ^ 18 := by
    have : (1 : ℝ) / 10 ^ 18 ≤ 1 := by norm_num
    linarith
  exact lt_of_le_of_lt (mul_le_mul_of_nonneg_left h3 h5) h2

/-- C71, order of purchases: with more token A already in the vault the same offer never buys more,
to within one token B and the blur. -/
theorem C71_later_buyer (c : LinearPriceCurve) (hv : isCurveParamValid c = .ok ())
    (hr : Representable c) (s A A' B B' : Nat) (r r' : SwapWithoutFeesResult) (hs : s < 2 ^ 64)
    (hAA : A ≤ A') (hA : A' < 2 ^ 64) (h : Linear.swapWithoutFees c s A B .AtoB = .ok r)
    (hne : r.destination_amount_swapped < B)
    (h' : Linear.swapWithoutFees c s A' B' .AtoB = .ok r')
    (hne' : r'.destination_amount_swapped < B') :
    (r'.destination_amount_swapped : ℝ) <
      r.destination_amount_swapped + 1 + blur c A + blur c (A + s) + 2 / 10 ^ 18 := by
  have h0 := (swapWithoutFees_buy h).2.1
  obtain ⟨_, h1⟩ := C71_buy_price c hv hr s A B r hs (lt_of_le_of_lt hAA hA) h hne
  obtain ⟨h2, _⟩ := C71_buy_price c hv hr s A' B' r' hs hA h' hne'
  have hx : r.source_amount_swapped = s := by
    rcases C46_buy c hv hr s A B r hs (lt_of_le_of_lt hAA hA) h with ⟨hx, _⟩ | ⟨hB, _⟩
    · exact hx
    · omega
  have hp := meanPrice_pos (c := c) hv (A := A) (s := s) (by omega)
  have hm : meanPrice c A (A + s) ≤ meanPrice c A' (A' + s) := by
    have k1 := marginal_mono (c := c) hv hAA
    have k2 := marginal_mono (c := c) hv (show A + s ≤ A' + s by omega)
    unfold meanPrice; linarith
  have h3 : (s : ℝ) / meanPrice c A' (A' + s) ≤ s / meanPrice c A (A + s) := by gcongr
  have : (2 : ℝ) / 10 ^ 18 = 1 / 10 ^ 18 + 1 / 10 ^ 18 := by norm_num
  linarith

/-- 30 A into a pool holding 20 buys 2 B and 60 A buys 4, but only one from a pool holding 500. -/
example : Linear.swapWithoutFees sampleCurve 30 20 90 .AtoB = .ok ⟨30, 2⟩ ∧
    Linear.swapWithoutFees sampleCurve 60 500 90 .AtoB = .ok ⟨60, 1⟩ ∧
    Linear.swapWithoutFees sampleCurve 60 20 90 .AtoB = .ok ⟨60, 4⟩ := by decide +kernel

theorem position_ge {c : LinearPriceCurve} (hv : isCurveParamValid c = .ok ()) {A n : Nat}
    (h : cost c n ≤ A) : (n : ℝ) ≤ position c A := by
  have hs := slope_pos hv
  have hp := price_nonneg c
  have hq := position_nonneg hv A
  have e := (C45_position_unique c hv A (position c A) hq).2 rfl
  have h' : costR c n ≤ A := by
    have : ((cost c n : ℚ) : ℝ) ≤ ((A : ℚ) : ℝ) := by exact_mod_cast h
    unfold cost at this
    unfold costR
    push_cast at this
    exact this
  by_contra hc
  have hc' := lt_of_not_ge hc
  rw [← e] at h'
  unfold costR at h'
  generalize position c A = q at *
  generalize ((slope c : ℚ) : ℝ) = k at *
  generalize ((Spec.price c : ℚ) : ℝ) = p at *
  have h1 : q ^ 2 < (n : ℝ) ^ 2 := by gcongr
  have h2 : k / 2 * q ^ 2 < k / 2 * (n : ℝ) ^ 2 := by gcongr
  have h3 : p * q ≤ p * n := by gcongr
  linarith

/-- C71, sales.  A sale is never priced above the mean of the spot prices before and after it, to
within `10^-18` of one token B; a sale that empties the vault, to within half a token B. -/
theorem C71_sell_price (c : LinearPriceCurve) (hv : isCurveParamValid c = .ok ())
    (hr : Representable c) (s A B : Nat) (r : SwapWithoutFeesResult) (hA : A < 2 ^ 64)
    (h : Linear.swapWithoutFees c s B A .BtoA = .ok r) :
    (r.destination_amount_swapped < A →
      (r.destination_amount_swapped : ℝ) <
        (s + 1 / 10 ^ 18) * meanPrice c (A - r.destination_amount_swapped) A) ∧
    (r.destination_amount_swapped : ℝ) <
      (r.source_amount_swapped + 1 / 2 + 1 / 10 ^ 18) *
        meanPrice c (A - r.destination_amount_swapped) A := by
  obtain ⟨h0, _, hy0⟩ := swapWithoutFees_sell h
  have hyA : r.destination_amount_swapped ≤ A := by
    rcases C47_sell c hv hr s A B r hA h with ⟨_, n, _, _, hy⟩ | ⟨hy, _⟩
    · have h1 : ((r.destination_amount_swapped : ℤ) : ℚ) ≤ (A : ℚ) - cost c n := by
        rw [hy]; exact Int.floor_le _
      have h2 : 0 ≤ cost c n := by
        unfold cost slope Spec.price; positivity
      have : (r.destination_amount_swapped : ℚ) ≤ A := by
        push_cast at h1; linarith
      exact_mod_cast this
    · omega
  have hstep := position_step (c := c) hv (A - r.destination_amount_swapped)
    r.destination_amount_swapped
  have hpos := meanPrice_pos (c := c) hv (A := A - r.destination_amount_swapped)
    (s := r.destination_amount_swapped) (by omega)
  have eA : A - r.destination_amount_swapped + r.destination_amount_swapped = A := by omega
  rw [eA] at hstep hpos
  rcases C47_sell c hv hr s A B r hA h with ⟨hx, n, h1, _, hy⟩ | ⟨hy, _, h1, _⟩
  · have hn : (n : ℝ) ≤ position c (A - r.destination_amount_swapped) := by
      apply position_ge hv
      have h2 : ((r.destination_amount_swapped : ℤ) : ℚ) ≤ (A : ℚ) - cost c n := by
        rw [hy]; exact Int.floor_le _
      rw [Nat.cast_sub hyA]
      push_cast at h2
      linarith
    have key : (r.destination_amount_swapped : ℝ) <
        (s + 1 / 10 ^ 18) * meanPrice c (A - r.destination_amount_swapped) A := by
      rw [← hstep]
      exact mul_lt_mul_of_pos_right (by linarith) hpos
    refine ⟨fun _ => key, lt_of_lt_of_le key ?_⟩
    rw [hx]
    exact mul_le_mul_of_nonneg_right (by linarith) hpos.le
  · refine ⟨fun hlt => by omega, ?_⟩
    have hq := position_nonneg hv (A - r.destination_amount_swapped)
    rw [← hstep]
    exact mul_lt_mul_of_pos_right (by linarith) hpos

/-- C71, sales against the spot price: nobody sells above the price quoted before the trade. -/
theorem C71_sell_spot (c : LinearPriceCurve) (hv : isCurveParamValid c = .ok ())
    (hr : Representable c) (s A B : Nat) (r : SwapWithoutFeesResult) (hA : A < 2 ^ 64)
    (h : Linear.swapWithoutFees c s B A .BtoA = .ok r)
    (hlt : r.destination_amount_swapped < A) :
    (r.destination_amount_swapped : ℝ) < (s + 1 / 10 ^ 18) * marginal c A := by
  have h1 := (C71_sell_price c hv hr s A B r hA h).1 hlt
  have h2 : meanPrice c (A - r.destination_amount_swapped) A ≤ marginal c A := by
    have := marginal_mono (c := c) hv (Nat.sub_le A r.destination_amount_swapped)
    unfold meanPrice; linarith
  exact lt_of_lt_of_le h1 (mul_le_mul_of_nonneg_left h2 (by positivity))

example : Linear.swapWithoutFees sampleCurve 3 50 100 .BtoA = .ok ⟨3, 46⟩ ∧
    Linear.swapWithoutFees sampleCurve 15 50 100 .BtoA = .ok ⟨9, 100⟩ := by decide +kernel

/-! ### C72: a second curve that carries on where the first ends -/

theorem continues_marginal {c c' : LinearPriceCurve} {N C : Nat} (hc : Continues c c' N)
    (hC : cost c N = C) (A : Nat) : marginal c' A = marginal c (A + C) := by
  obtain ⟨h1, h2⟩ := hc
  have e : (C : ℝ) = (slope c : ℝ) / 2 * (N : ℝ) ^ 2 + (Spec.price c : ℝ) * N := by
    have : ((cost c N : ℚ) : ℝ) = ((C : ℚ) : ℝ) := by rw [hC]
    unfold cost at this
    push_cast at this
    exact this.symm
  unfold marginal
  rw [h1, h2]
  congr 1
  push_cast
  rw [e]
  ring

/-- C72.  The price a pool quotes once its `N` token B are sold at their exact cost `C` is the initial
price of a curve that continues it, and at every later point the second pool stands where a single
longer curve would: same price, same number of token B out, same blur. -/
theorem C72_handover (c c' : LinearPriceCurve) (hv : isCurveParamValid c = .ok ()) (N C : Nat)
    (hc : Continues c c' N) (hC : cost c N = C) :
    marginal c C = (Spec.price c' : ℝ) ∧
    ∀ A : Nat, marginal c' A = marginal c (C + A) ∧ N + position c' A = position c (C + A) ∧
      blur c' A = blur c (C + A) := by
  have hs := slope_pos hv
  constructor
  · have h := continues_marginal hc hC 0
    rw [Nat.zero_add] at h
    rw [← h]
    unfold marginal
    rw [Nat.cast_zero, mul_zero, add_zero, Real.sqrt_sq (price_nonneg c')]
  · intro A
    have h := continues_marginal hc hC A
    rw [Nat.add_comm C A]
    refine ⟨h, ?_, ?_⟩
    · unfold position
      rw [h, hc.1, hc.2]
      push_cast
      field_simp
      ring
    · unfold blur
      rw [h, hc.1]

/-- C72, purchases: the same offer buys from the second pool what it would buy from one long curve
with the first pool's takings added to its vault, to within one token B and the blur. -/
theorem C72_purchase (c c' : LinearPriceCurve) (hv : isCurveParamValid c = .ok ())
    (hr : Representable c) (hv' : isCurveParamValid c' = .ok ()) (hr' : Representable c')
    (N C : Nat) (hc : Continues c c' N) (hC : cost c N = C) (s A B B' : Nat)
    (r r' : SwapWithoutFeesResult) (hs : s < 2 ^ 64) (hA : C + A < 2 ^ 64)
    (h : Linear.swapWithoutFees c s (C + A) B .AtoB = .ok r)
    (hne : r.destination_amount_swapped < B)
    (h' : Linear.swapWithoutFees c' s A B' .AtoB = .ok r')
    (hne' : r'.destination_amount_swapped < B') :
    |(r'.destination_amount_swapped : ℝ) - r.destination_amount_swapped| <
      1 + blur c (C + A) + blur c (C + A + s) + 2 / 10 ^ 18 := by
  obtain ⟨_, hall⟩ := C72_handover c c' hv N C hc hC
  obtain ⟨_, q1, t1⟩ := hall A
  obtain ⟨_, q2, t2⟩ := hall (A + s)
  have e : (2 : ℝ) / 10 ^ 18 = 1 / 10 ^ 18 + 1 / 10 ^ 18 := by norm_num
  rw [← Nat.add_assoc] at q2 t2
  have hA' : A < 2 ^ 64 := lt_of_le_of_lt (Nat.le_add_left _ _) hA
  rcases C46_buy c hv hr s (C + A) B r hs hA h with ⟨_, h1, h2⟩ | ⟨hB, _⟩
  · rcases C46_buy c' hv' hr' s A B' r' hs hA' h' with ⟨_, h3, h4⟩ | ⟨hB, _⟩
    · rw [t1, t2] at h4
      rw [abs_lt]
      constructor <;> linarith
    · omega
  · omega

/-- Five token B of the sample curve cost 40; the continuing curve starts at price 13. -/
example : Continues sampleCurve ⟨2, 1, 13, 1⟩ 5 ∧ cost sampleCurve (5 : Nat) = (40 : Nat) := by
  unfold Continues
  decide +kernel

example : Linear.swapWithoutFees sampleCurve 100 (40 + 20) 90 .AtoB = .ok ⟨100, 4⟩ ∧
    Linear.swapWithoutFees ⟨2, 1, 13, 1⟩ 100 20 90 .AtoB = .ok ⟨100, 4⟩ ∧
    Representable ⟨2, 1, 13, 1⟩ := by decide +kernel

end Props
end Verif
