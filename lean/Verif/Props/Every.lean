import Verif.Lemmas.LinearEvery
import Verif.Props.Accuracy
import Verif.Props.Steep
import Verif.Props.Spot

/-
C97: how far a linear pool can be from the exact curve, for every set of parameters the program accepts.
C45-C47 give the sharper bounds for parameters that the fixed-point numbers represent exactly.
-/

namespace Verif
namespace Props
open Spec
open Linear hiding price

variable {c : LinearPriceCurve}

theorem grain_nonneg (hv : isCurveParamValid c = .ok ()) (A : Nat) : 0 ≤ grain c A := by
  have hs := slope_pos hv
  have hm : 0 ≤ marginal c A := Real.sqrt_nonneg _
  unfold grain
  positivity

theorem notch_nonneg (hv : isCurveParamValid c = .ok ()) : 0 ≤ notch c := by
  have hs := slope_pos hv
  unfold notch
  positivity

/-- C97.  The position computed by the program on any valid curve, against the exact one. -/
theorem C97_position (c : LinearPriceCurve) (hv : isCurveParamValid c = .ok ()) (A b : Nat) (up : Bool)
    (hA : A < 2 ^ 65) (h : bValue c (A * 10 ^ 18) up = .ok b) :
    (up = true → position c A - grain c A - 1 / 10 ^ 18 < (b : ℝ) / 10 ^ 18 ∧
        (b : ℝ) / 10 ^ 18 ≤ position c A + blur c A + notch c) ∧
    (up = false → position c A - blur c A - grain c A - 1 / 10 ^ 18 < (b : ℝ) / 10 ^ 18 ∧
        (b : ℝ) / 10 ^ 18 ≤ position c A + notch c) := by
  constructor
  · intro e; rw [e] at h; exact up_any (nz_of_valid hv) hA h
  · intro e; rw [e] at h; exact down_any (nz_of_valid hv) hA h

/-- C97.  On a curve with a slope of at least `10^-9`, once a token A is locked, the allowances other than
the blur are less than a thousandth of a token B. -/
theorem C97_ordinary (c : LinearPriceCurve) (hs : 1 / 10 ^ 9 ≤ slope c) (A : Nat) (hA : 1 ≤ A) :
    grain c A + notch c + 1 / 10 ^ 18 < 1 / 1000 := by
  have hs' : (1 : ℝ) / 10 ^ 9 ≤ ((slope c : ℚ) : ℝ) := by
    have : (((1 / 10 ^ 9 : ℚ)) : ℝ) ≤ ((slope c : ℚ) : ℝ) := by exact_mod_cast hs
    push_cast at this; exact this
  have hA' : (1 : ℝ) ≤ A := by exact_mod_cast hA
  have hm : (1 : ℝ) / 10 ^ 5 ≤ marginal c A := by
    unfold marginal
    apply Real.le_sqrt_of_sq_le
    have h1 : (1 : ℝ) / 10 ^ 9 * 1 ≤ ((slope c : ℚ) : ℝ) * A := by gcongr
    have h2 := sq_nonneg ((Spec.price c : ℚ) : ℝ)
    have h3 : ((1 : ℝ) / 10 ^ 5) ^ 2 ≤ 1 / 10 ^ 9 := by norm_num
    linarith
  have g : grain c A ≤ 5 / (10 ^ 18 * (1 / 10 ^ 9) * (1 / 10 ^ 5)) := by
    unfold grain; gcongr
  have n : notch c ≤ 1 / (10 ^ 18 * (1 / 10 ^ 9)) := by
    unfold notch; gcongr
  norm_num at g n ⊢
  linarith

example : 1 / 10 ^ 9 ≤ slope thirdCurve := by decide +kernel

/-- C97.  A successful purchase on any valid curve: either the whole offer is taken and the token B handed
out are those between the two positions, up to a whole token B and the allowances; or the vault is bought
out and the charge is the exact cost of its token B, up to a whole token A and the allowances. -/
theorem C97_buy (c : LinearPriceCurve) (hv : isCurveParamValid c = .ok ())
    (s A B : Nat) (r : SwapWithoutFeesResult) (hs : s < 2 ^ 64)
    (hA : A < 2 ^ 64) (h : Linear.swapWithoutFees c s A B .AtoB = .ok r) :
    (r.source_amount_swapped = s ∧
      (r.destination_amount_swapped : ℝ) <
        position c (A + s) - position c A + grain c A + notch c + 1 / 10 ^ 18 ∧
      position c (A + s) - position c A - blur c A - blur c (A + s) - grain c (A + s) - notch c
        - 1 / 10 ^ 18 - 1 < r.destination_amount_swapped) ∨
    (r.destination_amount_swapped = B ∧ r.source_amount_swapped ≤ s ∧
      (r.source_amount_swapped : ℝ) ≤
        costR c (position c A + blur c A + notch c + B) - A + 1 / 2 + 1 / 10 ^ 18 ∧
      costR c (max 0 (position c A - grain c A - 1 / 10 ^ 18 + B)) - A - 1 / 2 - 2 / 10 ^ 18 <
        r.source_amount_swapped) := by
  have nz := nz_of_valid hv
  have hO : ((Dfs.ONE : Nat) : ℝ) = 10 ^ 18 := by rw [Dfs.ONE_val]; norm_num
  have ho := Linear.oneR_pos
  have hA' := lt64 hA
  have hs' := lt64 hs
  obtain ⟨h1, _, hy0⟩ := swapWithoutFees_buy h
  obtain ⟨b0, hb0, hcase⟩ := swapAToB_ok h1
  generalize r.source_amount_swapped = x at *
  generalize r.destination_amount_swapped = y at *
  obtain ⟨p1, p2⟩ := up_any nz (by omega) hb0
  rw [← hO] at p1 p2 ⊢
  rcases hcase with ⟨hyB, hxs, v, hv', hAv, hx⟩ | ⟨hx, b1, hb1, hle, hy⟩
  · right
    refine ⟨hyB, hxs, ?_⟩
    have hV := VMAX_of_le hA' hs' hx hxs
    obtain ⟨e, _, _⟩ := amt_eq_ok nz.sn hv' hV
    obtain ⟨a1, a2⟩ := amtF_bounds nz (b0 + B * Dfs.ONE)
    rw [← e] at a1 a2
    have eb : ((b0 + B * Dfs.ONE : Nat) : ℝ) / Dfs.ONE = (b0 : ℝ) / Dfs.ONE + B := by
      push_cast; field_simp
    rw [eb] at a1 a2
    have hb0n : (0 : ℝ) ≤ (b0 : ℝ) / Dfs.ONE := by positivity
    have hBn : (0 : ℝ) ≤ B := Nat.cast_nonneg _
    have m1 : costR c ((b0 : ℝ) / Dfs.ONE + B) ≤ costR c (position c A + blur c A + notch c + B) :=
      costR_mono hv (by linarith) (by linarith)
    have m2 : costR c (max 0 (position c A - grain c A - 1 / Dfs.ONE + B)) ≤
        costR c ((b0 : ℝ) / Dfs.ONE + B) :=
      costR_mono hv (le_max_left _ _) (max_le (by linarith) (by linarith))
    have hrc : (Dfs.roundingCorrection : ℝ) = (Dfs.ONE : ℝ) / 2 := by
      have : Dfs.ONE = 2 * Dfs.roundingCorrection := one_eq_two_rc
      rw [this]; push_cast; ring
    have x1 : (x : ℝ) * Dfs.ONE ≤ v - A * Dfs.ONE + Dfs.ONE / 2 := by
      have : x * Dfs.ONE ≤ v - A * Dfs.ONE + Dfs.roundingCorrection := by
        rw [hx]; exact Nat.div_mul_le_self _ _
      have h2 : ((x * Dfs.ONE : Nat) : ℝ) ≤ ((v - A * Dfs.ONE + Dfs.roundingCorrection : Nat) : ℝ) := by
        exact_mod_cast this
      rw [Nat.cast_add, Nat.cast_sub hAv, hrc] at h2
      push_cast at h2; exact h2
    have x2 : (v : ℝ) - A * Dfs.ONE + Dfs.ONE / 2 < Dfs.ONE * (x + 1) := by
      have : v - A * Dfs.ONE + Dfs.roundingCorrection < Dfs.ONE * (x + 1) := by
        rw [hx]; exact Nat.lt_mul_div_succ _ Dfs.ONE_pos
      have h2 : ((v - A * Dfs.ONE + Dfs.roundingCorrection : Nat) : ℝ) < ((Dfs.ONE * (x + 1) : Nat) : ℝ) := by
        exact_mod_cast this
      rw [Nat.cast_add, Nat.cast_sub hAv, hrc] at h2
      push_cast at h2; exact h2
    have e3 : (v : ℝ) / Dfs.ONE - A + 1 / 2 = (v - A * Dfs.ONE + Dfs.ONE / 2) / Dfs.ONE := by
      field_simp
    have x1' : (x : ℝ) ≤ (v : ℝ) / Dfs.ONE - A + 1 / 2 := by
      rw [e3, le_div_iff₀ ho]; exact x1
    have x2' : (v : ℝ) / Dfs.ONE - A + 1 / 2 < x + 1 := by
      rw [e3, div_lt_iff₀ ho]; linarith
    exact ⟨by linarith, by linarith⟩
  · left
    refine ⟨hx, ?_⟩
    obtain ⟨q1, q2⟩ := down_any nz (by omega) hb1
    rw [← hO] at q1 q2
    have y1 : (y : ℝ) * Dfs.ONE ≤ b1 - b0 := by
      have : y * Dfs.ONE ≤ b1 - b0 := by rw [hy]; exact Nat.div_mul_le_self _ _
      have h2 : ((y * Dfs.ONE : Nat) : ℝ) ≤ ((b1 - b0 : Nat) : ℝ) := by exact_mod_cast this
      rw [Nat.cast_sub hle] at h2
      push_cast at h2; exact h2
    have y2 : (b1 : ℝ) - b0 < Dfs.ONE * (y + 1) := by
      have : b1 - b0 < Dfs.ONE * (y + 1) := by rw [hy]; exact Nat.lt_mul_div_succ _ Dfs.ONE_pos
      have h2 : ((b1 - b0 : Nat) : ℝ) < ((Dfs.ONE * (y + 1) : Nat) : ℝ) := by exact_mod_cast this
      rw [Nat.cast_sub hle] at h2
      push_cast at h2; exact h2
    have e1 : ((b1 : ℝ) - b0) / Dfs.ONE = (b1 : ℝ) / Dfs.ONE - (b0 : ℝ) / Dfs.ONE := sub_div _ _ _
    have y1' : (y : ℝ) ≤ ((b1 : ℝ) - b0) / Dfs.ONE := by rw [le_div_iff₀ ho]; exact y1
    have y2' : ((b1 : ℝ) - b0) / Dfs.ONE < y + 1 := by rw [div_lt_iff₀ ho]; linarith
    rw [e1] at y1' y2'
    exact ⟨by linarith, by linarith⟩

/-- C97.  A successful sale on any valid curve: either the whole offer is taken and the pool keeps the
exact cost of `n` token B, where `n` is the remaining position rounded up to a whole token B, up to the
allowances; or everything in the vault is paid and the token B taken are the pool's position rounded to the
nearest whole number, up to the allowances. -/
theorem C97_sell (c : LinearPriceCurve) (hv : isCurveParamValid c = .ok ())
    (s A B : Nat) (r : SwapWithoutFeesResult)
    (hA : A < 2 ^ 64) (h : Linear.swapWithoutFees c s B A .BtoA = .ok r) :
    (r.source_amount_swapped = s ∧ ∃ n : Nat,
      position c A - s - grain c A - 1 / 10 ^ 18 < n ∧
      (n : ℝ) < position c A + blur c A + notch c - s + 1 ∧
      A - costR c n - 1 / 10 ^ 18 - 1 < r.destination_amount_swapped ∧
      (r.destination_amount_swapped : ℝ) < A - costR c n + 2 / 10 ^ 18) ∨
    (r.destination_amount_swapped = A ∧ r.source_amount_swapped ≤ s ∧
      position c A - grain c A - 1 / 2 - 1 / 10 ^ 18 < r.source_amount_swapped ∧
      (r.source_amount_swapped : ℝ) ≤ position c A + blur c A + notch c + 1 / 2) := by
  have nz := nz_of_valid hv
  have hO : ((Dfs.ONE : Nat) : ℝ) = 10 ^ 18 := by rw [Dfs.ONE_val]; norm_num
  have ho := Linear.oneR_pos
  have hA' := lt64 hA
  obtain ⟨h1, _, _⟩ := swapWithoutFees_sell h
  obtain ⟨b0, hb0, hcase⟩ := swapBToA_ok h1
  generalize r.source_amount_swapped = x at *
  generalize r.destination_amount_swapped = y at *
  obtain ⟨p1, p2⟩ := up_any nz (by omega) hb0
  rw [← hO] at p1 p2 ⊢
  rcases hcase with ⟨hlt, hy, hx⟩ | ⟨hle, hx, v, hv', hvA, hy⟩
  · right
    have hrc : (Dfs.roundingCorrection : ℝ) = (Dfs.ONE : ℝ) / 2 := by
      have : Dfs.ONE = 2 * Dfs.roundingCorrection := one_eq_two_rc
      rw [this]; push_cast; ring
    have x1 : x * Dfs.ONE ≤ b0 + Dfs.roundingCorrection := by
      rw [hx]; exact Nat.div_mul_le_self _ _
    have x2 : b0 + Dfs.roundingCorrection < Dfs.ONE * (x + 1) := by
      rw [hx]; exact Nat.lt_mul_div_succ _ Dfs.ONE_pos
    have hxs : x ≤ s := by
      have hrl : Dfs.roundingCorrection < Dfs.ONE := by decide
      have : x * Dfs.ONE < (s + 1) * Dfs.ONE := by rw [Nat.add_mul, Nat.one_mul]; omega
      have := Nat.lt_of_mul_lt_mul_right this
      omega
    have x1r : (x : ℝ) * Dfs.ONE ≤ b0 + Dfs.ONE / 2 := by rw [← hrc]; exact_mod_cast x1
    have x2r : (b0 : ℝ) + Dfs.ONE / 2 < Dfs.ONE * (x + 1) := by rw [← hrc]; exact_mod_cast x2
    have e3 : (b0 : ℝ) / Dfs.ONE + 1 / 2 = (b0 + Dfs.ONE / 2) / Dfs.ONE := by field_simp
    have x1' : (x : ℝ) ≤ (b0 : ℝ) / Dfs.ONE + 1 / 2 := by rw [e3, le_div_iff₀ ho]; exact x1r
    have x2' : (b0 : ℝ) / Dfs.ONE + 1 / 2 < x + 1 := by rw [e3, div_lt_iff₀ ho]; linarith
    exact ⟨hy, hxs, by linarith, by linarith⟩
  · left
    refine ⟨hx, (b0 - s * Dfs.ONE + (Dfs.ONE - 1)) / Dfs.ONE, ?_⟩
    have c1 : (b0 - s * Dfs.ONE + (Dfs.ONE - 1)) / Dfs.ONE * Dfs.ONE ≤
        b0 - s * Dfs.ONE + (Dfs.ONE - 1) := Nat.div_mul_le_self _ _
    have c2 := le_ceil (b0 - s * Dfs.ONE)
    generalize (b0 - s * Dfs.ONE + (Dfs.ONE - 1)) / Dfs.ONE = n at *
    have hV : v < VMAX := by
      refine lt_of_le_of_lt hvA ?_
      rw [Dfs.ONE_val, VMAX_val]; omega
    obtain ⟨e, _, _⟩ := amt_eq_ok nz.sn hv' hV
    obtain ⟨a1, a2⟩ := amtF_bounds nz (n * Dfs.ONE)
    have en : ((n * Dfs.ONE : Nat) : ℝ) / Dfs.ONE = n := by push_cast; field_simp
    rw [← e, en] at a1 a2
    have hop := Dfs.ONE_pos
    have c1' : n * Dfs.ONE + s * Dfs.ONE < b0 + Dfs.ONE := by omega
    have c2' : b0 ≤ n * Dfs.ONE + s * Dfs.ONE := by omega
    have c1r : ((n : ℝ) + s) * Dfs.ONE < b0 + Dfs.ONE := by
      have : ((n * Dfs.ONE + s * Dfs.ONE : Nat) : ℝ) < ((b0 + Dfs.ONE : Nat) : ℝ) := by
        exact_mod_cast c1'
      push_cast at this; linarith
    have c2r : (b0 : ℝ) ≤ ((n : ℝ) + s) * Dfs.ONE := by
      have : ((b0 : Nat) : ℝ) ≤ ((n * Dfs.ONE + s * Dfs.ONE : Nat) : ℝ) := by exact_mod_cast c2'
      push_cast at this; linarith
    have d1 : (n : ℝ) + s < (b0 : ℝ) / Dfs.ONE + 1 := by
      have : (b0 : ℝ) / Dfs.ONE + 1 = (b0 + Dfs.ONE) / Dfs.ONE := by field_simp
      rw [this, lt_div_iff₀ ho]; exact c1r
    have d2 : (b0 : ℝ) / Dfs.ONE ≤ (n : ℝ) + s := by rw [div_le_iff₀ ho]; exact c2r
    have f1 : y * Dfs.ONE ≤ A * Dfs.ONE - v := by rw [hy]; exact Nat.div_mul_le_self _ _
    have f2 : A * Dfs.ONE - v < Dfs.ONE * (y + 1) := by
      rw [hy]; exact Nat.lt_mul_div_succ _ Dfs.ONE_pos
    have g1 : (y : ℝ) * Dfs.ONE ≤ A * Dfs.ONE - v := by
      have : ((y * Dfs.ONE : Nat) : ℝ) ≤ ((A * Dfs.ONE - v : Nat) : ℝ) := by exact_mod_cast f1
      rw [Nat.cast_sub hvA] at this; push_cast at this; exact this
    have g2 : (A : ℝ) * Dfs.ONE - v < Dfs.ONE * (y + 1) := by
      have : ((A * Dfs.ONE - v : Nat) : ℝ) < ((Dfs.ONE * (y + 1) : Nat) : ℝ) := by
        exact_mod_cast f2
      rw [Nat.cast_sub hvA] at this; push_cast at this; exact this
    have e4 : (A : ℝ) - v / Dfs.ONE = (A * Dfs.ONE - v) / Dfs.ONE := by field_simp
    have k1 : (y : ℝ) ≤ A - v / Dfs.ONE := by rw [e4, le_div_iff₀ ho]; exact g1
    have k2 : (A : ℝ) - v / Dfs.ONE < y + 1 := by rw [e4, div_lt_iff₀ ho]; linarith
    exact ⟨by linarith, by linarith, by linarith, by linarith⟩

/-- All four outcomes on a curve with slope 1/3 and price 1/7, which no fixed-point numbers represent. -/
example : isCurveParamValid thirdCurve = .ok () ∧ ¬ Representable thirdCurve ∧
    Linear.swapWithoutFees thirdCurve 100 0 100 .AtoB = .ok ⟨100, 24⟩ ∧
    Linear.swapWithoutFees thirdCurve 1000 0 5 .AtoB = .ok ⟨5, 5⟩ ∧
    Linear.swapWithoutFees thirdCurve 3 76 100 .BtoA = .ok ⟨3, 16⟩ ∧
    Linear.swapWithoutFees thirdCurve 90 76 100 .BtoA = .ok ⟨24, 100⟩ := by decide +kernel

/-- C97, purchases that leave something in the vault: what is handed out is the offer at the mean price
between the two ends. -/
theorem C97_buy_price (c : LinearPriceCurve) (hv : isCurveParamValid c = .ok ())
    (s A B : Nat) (r : SwapWithoutFeesResult) (hs : s < 2 ^ 64)
    (hA : A < 2 ^ 64) (h : Linear.swapWithoutFees c s A B .AtoB = .ok r)
    (hne : r.destination_amount_swapped < B) :
    (r.destination_amount_swapped : ℝ) <
      s / meanPrice c A (A + s) + grain c A + notch c + 1 / 10 ^ 18 ∧
    s / meanPrice c A (A + s) - blur c A - blur c (A + s) - grain c (A + s) - notch c
      - 1 / 10 ^ 18 - 1 < r.destination_amount_swapped := by
  have h0 := (swapWithoutFees_buy h).2.1
  rcases C97_buy c hv s A B r hs hA h with ⟨hx, h1, h2⟩ | ⟨hB, _⟩
  · have hp := meanPrice_pos (c := c) hv (A := A) (s := s) (by omega)
    have e : (s : ℝ) / meanPrice c A (A + s) = position c (A + s) - position c A := by
      rw [div_eq_iff hp.ne']; exact (position_step hv A s).symm
    rw [e]
    exact ⟨h1, h2⟩
  · omega

/-- C97, order of purchases: with more token A already in the vault the same offer never buys more, to
within one token B and the allowances. -/
theorem C97_later_buyer (c : LinearPriceCurve) (hv : isCurveParamValid c = .ok ())
    (s A A' B B' : Nat) (r r' : SwapWithoutFeesResult) (hs : s < 2 ^ 64)
    (hAA : A ≤ A') (hA : A' < 2 ^ 64) (h : Linear.swapWithoutFees c s A B .AtoB = .ok r)
    (hne : r.destination_amount_swapped < B)
    (h' : Linear.swapWithoutFees c s A' B' .AtoB = .ok r')
    (hne' : r'.destination_amount_swapped < B') :
    (r'.destination_amount_swapped : ℝ) <
      r.destination_amount_swapped + 1 + blur c A + blur c (A + s) + grain c A' + grain c (A + s) +
        2 * notch c + 2 / 10 ^ 18 := by
  have h0 := (swapWithoutFees_buy h).2.1
  obtain ⟨_, h1⟩ := C97_buy_price c hv s A B r hs (lt_of_le_of_lt hAA hA) h hne
  obtain ⟨h2, _⟩ := C97_buy_price c hv s A' B' r' hs hA h' hne'
  have hx : r.source_amount_swapped = s := by
    rcases C97_buy c hv s A B r hs (lt_of_le_of_lt hAA hA) h with ⟨hx, _⟩ | ⟨hB, _⟩
    · exact hx
    · omega
  have hp := meanPrice_pos (c := c) hv (A := A) (s := s) (by omega)
  have hm : meanPrice c A (A + s) ≤ meanPrice c A' (A' + s) := by
    have k1 := marginal_mono (c := c) hv hAA
    have k2 := marginal_mono (c := c) hv (show A + s ≤ A' + s by omega)
    unfold meanPrice; linarith
  have h3 : (s : ℝ) / meanPrice c A' (A' + s) ≤ s / meanPrice c A (A + s) := by gcongr
  have : (2 : ℝ) / 10 ^ 18 = 1 / 10 ^ 18 + 1 / 10 ^ 18 := by norm_num
  linarith

/-- 60 token A buy 10 token B from a pool that holds 20, but only 3 from one that holds 500. -/
example : Linear.swapWithoutFees thirdCurve 60 20 90 .AtoB = .ok ⟨60, 10⟩ ∧
    Linear.swapWithoutFees thirdCurve 60 500 90 .AtoB = .ok ⟨60, 3⟩ := by decide +kernel

/-- C97, against the spot price: nobody buys below the price quoted before the trade, to within the allowances, -/
theorem C97_buy_spot (c : LinearPriceCurve) (hv : isCurveParamValid c = .ok ())
    (s A B : Nat) (r : SwapWithoutFeesResult) (hs : s < 2 ^ 64)
    (hA : A < 2 ^ 64) (h : Linear.swapWithoutFees c s A B .AtoB = .ok r)
    (hne : r.destination_amount_swapped < B) :
    ((r.destination_amount_swapped : ℝ) - grain c A - notch c - 1 / 10 ^ 18) * marginal c A < s := by
  have h0 := (swapWithoutFees_buy h).2.1
  have hx : r.source_amount_swapped = s := by
    rcases C97_buy c hv s A B r hs hA h with ⟨hx, _⟩ | ⟨hB, _⟩
    · exact hx
    · omega
  obtain ⟨h1, _⟩ := C97_buy_price c hv s A B r hs hA h hne
  have hp := meanPrice_pos (c := c) hv (A := A) (s := s) (by omega)
  have hs0 : (0 : ℝ) < s := by
    have : 0 < s := by omega
    exact_mod_cast this
  have h2 : ((r.destination_amount_swapped : ℝ) - grain c A - notch c - 1 / 10 ^ 18) *
      meanPrice c A (A + s) < s := by
    rw [← lt_div_iff₀ hp]; linarith
  have h3 : marginal c A ≤ meanPrice c A (A + s) := by
    have := marginal_mono (c := c) hv (Nat.le_add_right A s)
    unfold meanPrice; linarith
  have m0 : 0 ≤ marginal c A := Real.sqrt_nonneg _
  rcases le_total 0 ((r.destination_amount_swapped : ℝ) - grain c A - notch c - 1 / 10 ^ 18) with h5 | h5
  · exact lt_of_le_of_lt (mul_le_mul_of_nonneg_left h3 h5) h2
  · exact lt_of_le_of_lt (mul_nonpos_of_nonpos_of_nonneg h5 m0) hs0

/-- and nobody sells above it. -/
theorem C97_sell_spot (c : LinearPriceCurve) (hv : isCurveParamValid c = .ok ())
    (s A B : Nat) (r : SwapWithoutFeesResult) (hA : A < 2 ^ 64)
    (h : Linear.swapWithoutFees c s B A .BtoA = .ok r) (hlt : r.destination_amount_swapped < A) :
    (r.destination_amount_swapped : ℝ) <
      (s + grain c A + 1 / 10 ^ 18) * marginal c A + 2 / 10 ^ 18 := by
  rcases C97_sell c hv s A B r hA h with ⟨_, n, h1, _, _, h4⟩ | ⟨e, _⟩
  swap
  · omega
  have m0 : 0 ≤ marginal c A := Real.sqrt_nonneg _
  have g0 := grain_nonneg hv A
  have hk := slope_pos hv
  have hcost := (C45_position_unique c hv A (position c A) (position_nonneg hv _)).2 rfl
  have hm : (slope c : ℝ) * position c A + (Spec.price c : ℝ) = marginal c A := by
    unfold position
    field_simp
    ring
  have hle : (A : ℝ) - costR c n ≤ (position c A - n) * marginal c A := by
    rw [← hcost, ← hm]
    unfold costR
    have := mul_nonneg hk.le (sq_nonneg (position c A - n))
    nlinarith
  have h5 : (position c A - n) * marginal c A ≤ (s + grain c A + 1 / 10 ^ 18) * marginal c A :=
    mul_le_mul_of_nonneg_right (by linarith) m0
  linarith

/-- 60 token A at a price of at least 3.65 buy 10 token B; 3 token B at 7.1 bring 16 token A. -/
example : Linear.swapWithoutFees thirdCurve 60 20 90 .AtoB = .ok ⟨60, 10⟩ ∧
    Linear.swapWithoutFees thirdCurve 3 76 100 .BtoA = .ok ⟨3, 16⟩ := by decide +kernel

end Props
end Verif
