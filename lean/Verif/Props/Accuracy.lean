import Verif.Lemmas.LinearAcc
import Verif.Props.Linear

/-
C45-C47: how far a linear pool can be from the exact curve, in both directions.  `Spec.position c A`
is the exact real number of token B sold when `A` token A are locked, `Spec.blur c A` the effect on
it of an error of `2^-30` in the marginal price.
-/

namespace Verif
namespace Props
open Spec
open Linear hiding price

/-! ### The specification is the one intended -/

theorem slope_pos {c : LinearPriceCurve} (hv : isCurveParamValid c = .ok ()) :
    (0 : ℝ) < ((slope c : ℚ) : ℝ) := by
  have hz := nz_of_valid hv
  have h1 : (0 : ℝ) < sn c := by exact_mod_cast Nat.pos_of_ne_zero hz.sn
  have h2 : (0 : ℝ) < sd c := by exact_mod_cast Nat.pos_of_ne_zero hz.sd
  have h3 : ((slope c : ℚ) : ℝ) = sn c / sd c := by unfold slope; push_cast; rfl
  rw [h3]; exact div_pos h1 h2

theorem price_nonneg (c : LinearPriceCurve) : (0 : ℝ) ≤ ((Spec.price c : ℚ) : ℝ) := by
  unfold Spec.price; push_cast; positivity

theorem costR_mono {c : LinearPriceCurve} (hv : isCurveParamValid c = .ok ()) {x y : ℝ}
    (hx : 0 ≤ x) (h : x ≤ y) : costR c x ≤ costR c y := by
  have hs := slope_pos hv
  have hp := price_nonneg c
  unfold costR
  have : x ^ 2 ≤ y ^ 2 := by gcongr
  have h1 : ((slope c : ℚ) : ℝ) / 2 * x ^ 2 ≤ ((slope c : ℚ) : ℝ) / 2 * y ^ 2 := by gcongr
  have h2 : ((Spec.price c : ℚ) : ℝ) * x ≤ ((Spec.price c : ℚ) : ℝ) * y := by gcongr
  linarith

/-- `position c A` is the one non-negative amount of token B whose exact cost is `A`. -/
theorem C45_position_unique (c : LinearPriceCurve) (hv : isCurveParamValid c = .ok ()) (A : Nat)
    (b : ℝ) (hb : 0 ≤ b) : costR c b = A ↔ b = position c A := by
  have hs := slope_pos hv
  have hp := price_nonneg c
  unfold costR position marginal
  generalize ((slope c : ℚ) : ℝ) = k at *
  generalize ((Spec.price c : ℚ) : ℝ) = p at *
  have hsq := Real.mul_self_sqrt (show (0 : ℝ) ≤ p ^ 2 + 2 * k * A by positivity)
  have hnn := Real.sqrt_nonneg (p ^ 2 + 2 * k * A)
  generalize √(p ^ 2 + 2 * k * A) = m at *
  constructor
  · intro h
    rw [eq_div_iff hs.ne']
    have h1 : (k * b + p) * (k * b + p) = m * m := by rw [hsq, ← h]; ring
    have h2 : k * b + p = m := by
      have : 0 ≤ k * b + p := by positivity
      rcases mul_self_eq_mul_self_iff.1 h1 with h3 | h3
      · exact h3
      · linarith
    linarith
  · intro h
    rw [eq_div_iff hs.ne'] at h
    have h1 : m = k * b + p := by linarith
    rw [h1] at hsq
    have h2 : 2 * k * (k / 2 * b ^ 2 + p * b) = 2 * k * A := by nlinarith
    exact mul_left_cancel₀ (by positivity) h2

theorem position_nonneg {c : LinearPriceCurve} (hv : isCurveParamValid c = .ok ()) (A : Nat) :
    0 ≤ position c A := by
  have hs := slope_pos hv
  unfold position marginal
  apply div_nonneg _ hs.le
  have : ((Spec.price c : ℚ) : ℝ) ≤ √((Spec.price c : ℝ) ^ 2 + 2 * (slope c : ℝ) * A) := by
    apply Real.le_sqrt_of_sq_le
    have : (0 : ℝ) ≤ 2 * (slope c : ℝ) * A := by positivity
    linarith
  linarith

theorem blur_nonneg {c : LinearPriceCurve} (hv : isCurveParamValid c = .ok ()) (A : Nat) :
    0 ≤ blur c A := by
  have hs := slope_pos hv
  unfold blur
  exact div_nonneg (Real.sqrt_nonneg _) (by positivity)

/-! ### C45: the computed position -/

/-- C45.  The position computed by the program, rounded in either direction, is within `blur` plus
one unit of the eighteenth decimal of the exact one, and on the right side of it. -/
theorem C45_position (c : LinearPriceCurve) (hv : isCurveParamValid c = .ok ())
    (hr : Representable c) (A b : Nat) (up : Bool) (hA : A < 2 ^ 65)
    (h : bValue c (A * 10 ^ 18) up = .ok b) :
    (up = true → position c A - 1 / 10 ^ 18 < (b : ℝ) / 10 ^ 18 ∧
        (b : ℝ) / 10 ^ 18 ≤ position c A + blur c A) ∧
    (up = false → position c A - blur c A - 1 / 10 ^ 18 < (b : ℝ) / 10 ^ 18 ∧
        (b : ℝ) / 10 ^ 18 ≤ position c A) := by
  obtain ⟨H, P, Q, hrep⟩ := Rep_of_spec (nz_of_valid hv) hr
  have hO : ((Dfs.ONE : Nat) : ℝ) = 10 ^ 18 := by rw [Dfs.ONE_val]; norm_num
  rw [← hO]
  constructor
  · intro e; rw [e] at h; exact hrep.up_bounds hA h
  · intro e; rw [e] at h; exact hrep.down_bounds hA h

/-- 10 token A on the sample curve: the exact position is 2, and both roundings return 2. -/
example : bValue sampleCurve (10 * 10 ^ 18) true = .ok (2 * 10 ^ 18) ∧
    bValue sampleCurve (10 * 10 ^ 18) false = .ok (2 * 10 ^ 18) := by decide +kernel

example : position sampleCurve 10 = 2 := by
  symm
  rw [← C45_position_unique sampleCurve (by decide +kernel) 10 2 (by norm_num)]
  simp [costR, slope, Spec.price, sampleCurve]
  norm_num

/-! ### C46: what a buyer gets -/

/-- C46.  A successful purchase is on the exact curve: either the whole offer `s` is taken and the
token B handed out are those between the positions of `A` and `A + s`, at most `10^-18` above and
less than `1 + 10^-18` plus the blur of the two positions below; or the vault is bought out and the
charge is the exact cost of its token B up to rounding to a whole token A and the blur. -/
theorem C46_buy (c : LinearPriceCurve) (hv : isCurveParamValid c = .ok ())
    (hr : Representable c) (s A B : Nat) (r : SwapWithoutFeesResult) (hs : s < 2 ^ 64)
    (hA : A < 2 ^ 64) (h : Linear.swapWithoutFees c s A B .AtoB = .ok r) :
    (r.source_amount_swapped = s ∧
      (r.destination_amount_swapped : ℝ) < position c (A + s) - position c A + 1 / 10 ^ 18 ∧
      position c (A + s) - position c A - blur c A - blur c (A + s) - 1 / 10 ^ 18 - 1 <
        r.destination_amount_swapped) ∨
    (r.destination_amount_swapped = B ∧ r.source_amount_swapped ≤ s ∧
      (r.source_amount_swapped : ℝ) ≤
        costR c (position c A + blur c A + B) - A + 1 / 2 + 1 / 10 ^ 18 ∧
      costR c (position c A - 1 / 10 ^ 18 + B) - A - 1 / 2 - 2 / 10 ^ 18 <
        r.source_amount_swapped) := by
  obtain ⟨H, P, Q, hrep⟩ := Rep_of_spec (nz_of_valid hv) hr
  have hO : ((Dfs.ONE : Nat) : ℝ) = 10 ^ 18 := by rw [Dfs.ONE_val]; norm_num
  have ho := Linear.oneR_pos
  have hA' := lt64 hA
  have hs' := lt64 hs
  obtain ⟨h1, _, hy0⟩ := swapWithoutFees_buy h
  obtain ⟨b0, hb0, hcase⟩ := swapAToB_ok h1
  generalize r.source_amount_swapped = x at *
  generalize r.destination_amount_swapped = y at *
  obtain ⟨p1, p2⟩ := hrep.up_bounds (by omega) hb0
  rw [← hO]
  rcases hcase with ⟨hyB, hxs, v, hv', hAv, hx⟩ | ⟨hx, b1, hb1, hle, hy⟩
  · right
    refine ⟨hyB, hxs, ?_⟩
    have hV := VMAX_of_le hA' hs' hx hxs
    obtain ⟨e, _, _⟩ := amt_eq_ok hrep.nz.sn hv' hV
    obtain ⟨a1, a2⟩ := amtF_bounds hrep.nz (b0 + B * Dfs.ONE)
    rw [← e] at a1 a2
    have eb : ((b0 + B * Dfs.ONE : Nat) : ℝ) / Dfs.ONE = (b0 : ℝ) / Dfs.ONE + B := by
      push_cast; field_simp
    rw [eb] at a1 a2
    have hB1 : (1 : ℝ) ≤ B := by
      have : 1 ≤ B := by omega
      exact_mod_cast this
    have hone : (1 : ℝ) / Dfs.ONE ≤ 1 := by rw [hO]; norm_num
    have hpos := position_nonneg hv A
    have hbl := blur_nonneg hv A
    have hb0n : (0 : ℝ) ≤ (b0 : ℝ) / Dfs.ONE := by positivity
    have m1 : costR c ((b0 : ℝ) / Dfs.ONE + B) ≤ costR c (position c A + blur c A + B) :=
      costR_mono hv (by linarith) (by linarith)
    have m2 : costR c (position c A - 1 / Dfs.ONE + B) ≤ costR c ((b0 : ℝ) / Dfs.ONE + B) :=
      costR_mono hv (by linarith) (by linarith)
    have hrc : (Dfs.roundingCorrection : ℝ) = (Dfs.ONE : ℝ) / 2 := by
      have : Dfs.ONE = 2 * Dfs.roundingCorrection := one_eq_two_rc
      rw [this]; push_cast; ring
    have x1 : (x : ℝ) * Dfs.ONE ≤ v - A * Dfs.ONE + Dfs.ONE / 2 := by
      have : x * Dfs.ONE ≤ v - A * Dfs.ONE + Dfs.roundingCorrection := by
        rw [hx]; exact Nat.div_mul_le_self _ _
      have h2 : ((x * Dfs.ONE : Nat) : ℝ) ≤ ((v - A * Dfs.ONE + Dfs.roundingCorrection : Nat) : ℝ) := by
        exact_mod_cast this
      rw [Nat.cast_add, Nat.cast_sub hAv, hrc] at h2
      push_cast at h2; exact h2
    have x2 : (v : ℝ) - A * Dfs.ONE + Dfs.ONE / 2 < Dfs.ONE * (x + 1) := by
      have : v - A * Dfs.ONE + Dfs.roundingCorrection < Dfs.ONE * (x + 1) := by
        rw [hx]; exact Nat.lt_mul_div_succ _ Dfs.ONE_pos
      have h2 : ((v - A * Dfs.ONE + Dfs.roundingCorrection : Nat) : ℝ) < ((Dfs.ONE * (x + 1) : Nat) : ℝ) := by
        exact_mod_cast this
      rw [Nat.cast_add, Nat.cast_sub hAv, hrc] at h2
      push_cast at h2; exact h2
    have x1' : (x : ℝ) ≤ (v : ℝ) / Dfs.ONE - A + 1 / 2 := by
      have e3 : (v : ℝ) / Dfs.ONE - A + 1 / 2 = (v - A * Dfs.ONE + Dfs.ONE / 2) / Dfs.ONE := by
        field_simp
      rw [e3, le_div_iff₀ ho]; exact x1
    have x2' : (v : ℝ) / Dfs.ONE - A + 1 / 2 < x + 1 := by
      have e3 : (v : ℝ) / Dfs.ONE - A + 1 / 2 = (v - A * Dfs.ONE + Dfs.ONE / 2) / Dfs.ONE := by
        field_simp
      rw [e3, div_lt_iff₀ ho]; linarith
    exact ⟨by linarith, by linarith⟩
  · left
    refine ⟨hx, ?_⟩
    obtain ⟨q1, q2⟩ := hrep.down_bounds (by omega) hb1
    have y1 : (y : ℝ) * Dfs.ONE ≤ b1 - b0 := by
      have : y * Dfs.ONE ≤ b1 - b0 := by rw [hy]; exact Nat.div_mul_le_self _ _
      have h2 : ((y * Dfs.ONE : Nat) : ℝ) ≤ ((b1 - b0 : Nat) : ℝ) := by exact_mod_cast this
      rw [Nat.cast_sub hle] at h2
      push_cast at h2; exact h2
    have y2 : (b1 : ℝ) - b0 < Dfs.ONE * (y + 1) := by
      have : b1 - b0 < Dfs.ONE * (y + 1) := by rw [hy]; exact Nat.lt_mul_div_succ _ Dfs.ONE_pos
      have h2 : ((b1 - b0 : Nat) : ℝ) < ((Dfs.ONE * (y + 1) : Nat) : ℝ) := by exact_mod_cast this
      rw [Nat.cast_sub hle] at h2
      push_cast at h2; exact h2
    have e1 : ((b1 : ℝ) - b0) / Dfs.ONE = (b1 : ℝ) / Dfs.ONE - (b0 : ℝ) / Dfs.ONE := sub_div _ _ _
    have y1' : (y : ℝ) ≤ ((b1 : ℝ) - b0) / Dfs.ONE := by rw [le_div_iff₀ ho]; exact y1
    have y2' : ((b1 : ℝ) - b0) / Dfs.ONE < y + 1 := by rw [div_lt_iff₀ ho]; linarith
    rw [e1] at y1' y2'
    exact ⟨by linarith, by linarith⟩

/-- Both outcomes: an offer of 10 A buys 2 B; an offer of 1000 A for the last 5 B is charged
`cost 5 = 40`. -/
example : Linear.swapWithoutFees sampleCurve 10 0 100 .AtoB = .ok ⟨10, 2⟩ ∧
    Linear.swapWithoutFees sampleCurve 1000 0 5 .AtoB = .ok ⟨40, 5⟩ := by decide +kernel

/-! ### C47: what a seller gets -/

/-- C47.  A successful sale is on the exact curve: either the whole offer `s` is taken and the pool
keeps exactly the cost of `n` token B (rounded up to a whole token A), where `n` is the remaining
position rounded up to a whole token B, up to the blur; or everything in the vault is paid and the
token B taken are the pool's position rounded to the nearest whole number, up to the blur. -/
theorem C47_sell (c : LinearPriceCurve) (hv : isCurveParamValid c = .ok ())
    (hr : Representable c) (s A B : Nat) (r : SwapWithoutFeesResult)
    (hA : A < 2 ^ 64) (h : Linear.swapWithoutFees c s B A .BtoA = .ok r) :
    (r.source_amount_swapped = s ∧ ∃ n : Nat,
      position c A - s - 1 / 10 ^ 18 < n ∧ (n : ℝ) < position c A + blur c A - s + 1 ∧
      (r.destination_amount_swapped : ℤ) = ⌊(A : ℚ) - cost c n⌋) ∨
    (r.destination_amount_swapped = A ∧ r.source_amount_swapped ≤ s ∧
      position c A - 1 / 2 - 1 / 10 ^ 18 < r.source_amount_swapped ∧
      (r.source_amount_swapped : ℝ) ≤ position c A + blur c A + 1 / 2) := by
  obtain ⟨H, P, Q, hrep⟩ := Rep_of_spec (nz_of_valid hv) hr
  have hO : ((Dfs.ONE : Nat) : ℝ) = 10 ^ 18 := by rw [Dfs.ONE_val]; norm_num
  have ho := Linear.oneR_pos
  have hA' := lt64 hA
  obtain ⟨h1, _, _⟩ := swapWithoutFees_sell h
  obtain ⟨b0, hb0, hcase⟩ := swapBToA_ok h1
  generalize r.source_amount_swapped = x at *
  generalize r.destination_amount_swapped = y at *
  obtain ⟨p1, p2⟩ := hrep.up_bounds (by omega) hb0
  rw [← hO]
  rcases hcase with ⟨hlt, hy, hx⟩ | ⟨hle, hx, v, hv', hvA, hy⟩
  · right
    have hrc : (Dfs.roundingCorrection : ℝ) = (Dfs.ONE : ℝ) / 2 := by
      have : Dfs.ONE = 2 * Dfs.roundingCorrection := one_eq_two_rc
      rw [this]; push_cast; ring
    have x1 : x * Dfs.ONE ≤ b0 + Dfs.roundingCorrection := by
      rw [hx]; exact Nat.div_mul_le_self _ _
    have x2 : b0 + Dfs.roundingCorrection < Dfs.ONE * (x + 1) := by
      rw [hx]; exact Nat.lt_mul_div_succ _ Dfs.ONE_pos
    have hxs : x ≤ s := by
      have hrl : Dfs.roundingCorrection < Dfs.ONE := by decide
      have : x * Dfs.ONE < (s + 1) * Dfs.ONE := by rw [Nat.add_mul, Nat.one_mul]; omega
      have := Nat.lt_of_mul_lt_mul_right this
      omega
    have x1r : (x : ℝ) * Dfs.ONE ≤ b0 + Dfs.ONE / 2 := by rw [← hrc]; exact_mod_cast x1
    have x2r : (b0 : ℝ) + Dfs.ONE / 2 < Dfs.ONE * (x + 1) := by rw [← hrc]; exact_mod_cast x2
    have e3 : (b0 : ℝ) / Dfs.ONE + 1 / 2 = (b0 + Dfs.ONE / 2) / Dfs.ONE := by field_simp
    have x1' : (x : ℝ) ≤ (b0 : ℝ) / Dfs.ONE + 1 / 2 := by rw [e3, le_div_iff₀ ho]; exact x1r
    have x2' : (b0 : ℝ) / Dfs.ONE + 1 / 2 < x + 1 := by rw [e3, div_lt_iff₀ ho]; linarith
    exact ⟨hy, hxs, by linarith, by linarith⟩
  · left
    refine ⟨hx, (b0 - s * Dfs.ONE + (Dfs.ONE - 1)) / Dfs.ONE, ?_⟩
    have c1 : (b0 - s * Dfs.ONE + (Dfs.ONE - 1)) / Dfs.ONE * Dfs.ONE ≤
        b0 - s * Dfs.ONE + (Dfs.ONE - 1) := Nat.div_mul_le_self _ _
    have c2 := le_ceil (b0 - s * Dfs.ONE)
    generalize (b0 - s * Dfs.ONE + (Dfs.ONE - 1)) / Dfs.ONE = n at *
    have hV : v < VMAX := by
      refine lt_of_le_of_lt hvA ?_
      rw [Dfs.ONE_val, VMAX_val]; omega
    obtain ⟨e, _, _⟩ := amt_eq_ok hrep.nz.sn hv' hV
    rw [hrep.amtF_whole] at e
    have hop := Dfs.ONE_pos
    have c1' : n * Dfs.ONE + s * Dfs.ONE < b0 + Dfs.ONE := by omega
    have c2' : b0 ≤ n * Dfs.ONE + s * Dfs.ONE := by omega
    have c1r : ((n : ℝ) + s) * Dfs.ONE < b0 + Dfs.ONE := by
      have : ((n * Dfs.ONE + s * Dfs.ONE : Nat) : ℝ) < ((b0 + Dfs.ONE : Nat) : ℝ) := by
        exact_mod_cast c1'
      push_cast at this; linarith
    have c2r : (b0 : ℝ) ≤ ((n : ℝ) + s) * Dfs.ONE := by
      have : ((b0 : Nat) : ℝ) ≤ ((n * Dfs.ONE + s * Dfs.ONE : Nat) : ℝ) := by exact_mod_cast c2'
      push_cast at this; linarith
    have d1 : (n : ℝ) + s < (b0 : ℝ) / Dfs.ONE + 1 := by
      have : (b0 : ℝ) / Dfs.ONE + 1 = (b0 + Dfs.ONE) / Dfs.ONE := by field_simp
      rw [this, lt_div_iff₀ ho]; exact c1r
    have d2 : (b0 : ℝ) / Dfs.ONE ≤ (n : ℝ) + s := by rw [div_le_iff₀ ho]; exact c2r
    refine ⟨by linarith, by linarith, ?_⟩
    rw [cost_eq hrep, ← e]
    symm
    rw [Int.floor_eq_iff]
    have hoq : (0 : ℚ) < Dfs.ONE := by exact_mod_cast Dfs.ONE_pos
    have f1 : y * Dfs.ONE ≤ A * Dfs.ONE - v := by rw [hy]; exact Nat.div_mul_le_self _ _
    have f2 : A * Dfs.ONE - v < Dfs.ONE * (y + 1) := by
      rw [hy]; exact Nat.lt_mul_div_succ _ Dfs.ONE_pos
    have g1 : (y : ℚ) * Dfs.ONE ≤ A * Dfs.ONE - v := by
      have : ((y * Dfs.ONE : Nat) : ℚ) ≤ ((A * Dfs.ONE - v : Nat) : ℚ) := by exact_mod_cast f1
      rw [Nat.cast_sub hvA] at this; push_cast at this; exact this
    have g2 : (A : ℚ) * Dfs.ONE - v < Dfs.ONE * (y + 1) := by
      have : ((A * Dfs.ONE - v : Nat) : ℚ) < ((Dfs.ONE * (y + 1) : Nat) : ℚ) := by
        exact_mod_cast f2
      rw [Nat.cast_sub hvA] at this; push_cast at this; exact this
    have e4 : (A : ℚ) - v / Dfs.ONE = (A * Dfs.ONE - v) / Dfs.ONE := by field_simp
    rw [e4]
    push_cast
    exact ⟨by rw [le_div_iff₀ hoq]; exact g1, by rw [div_lt_iff₀ hoq]; linarith⟩

/-- Both outcomes: with 10 A in the vault (2 B out) one B is taken back for `10 - cost 1 = 6`; an
offer of 50 B is cut to 2 B and paid the whole 10 A. -/
example : Linear.swapWithoutFees sampleCurve 1 98 10 .BtoA = .ok ⟨1, 6⟩ ∧
    Linear.swapWithoutFees sampleCurve 50 98 10 .BtoA = .ok ⟨2, 10⟩ := by decide +kernel

/-! ### C48: redeeming outstanding tokens -/

/-- The full claim of C48: while the vault covers `n` outstanding token B and the position can be
computed, `s` of them can be redeemed for their exact cost, up to two base units of rounding. -/
def C48_statement : Prop :=
  ∀ (c : LinearPriceCurve), isCurveParamValid c = .ok () → Representable c →
    ∀ s n A B : Nat, A < 2 ^ 64 → B + n < 2 ^ 64 → 1 ≤ s → s ≤ n → cost c n ≤ A →
      bValue c (A * 10 ^ 18) true ≠ .panic →
      2 ≤ cost c n - cost c (n - s : Nat) →
      ∃ r, Linear.swapWithoutFees c s B A .BtoA = .ok r ∧
        cost c n - cost c (n - s : Nat) - 2 ≤ r.destination_amount_swapped

/-- A flat curve: every token B costs one token A plus `2*10^-18` times the tokens sold before. -/
def flatCurve : LinearPriceCurve := ⟨2, 1000000000000000000, 1, 1⟩

/-- C48 is false of the code: on the flat curve with `10^12` token A locked and 999998000000 token B
out, a million token B (exact cost more than a million token A) are taken for one token A. -/
theorem C48_false : ¬ C48_statement := by
  intro h
  obtain ⟨r, h1, h2⟩ := h flatCurve (by decide +kernel) (by decide +kernel) 1000000 999998000000
    1000000000000 4611686018427387904 (by decide) (by decide) (by decide) (by decide)
    (by decide +kernel) (by decide +kernel) (by decide +kernel)
  have e : Linear.swapWithoutFees flatCurve 1000000 4611686018427387904 1000000000000 .BtoA =
      .ok ⟨1000000, 1⟩ := by decide +kernel
  rw [e] at h1
  rw [← Res.ok.inj h1] at h2
  exact absurd h2 (by decide +kernel)

/-- On the same pool every sale of up to 500000 token B is refused. -/
theorem C48_small_sales_fail (s B : Nat) (hs : s ≤ 500000) (r : SwapWithoutFeesResult) :
    Linear.swapWithoutFees flatCurve s B 1000000000000 .BtoA ≠ .ok r := by
  intro h
  obtain ⟨h1, _, _⟩ := swapWithoutFees_sell h
  obtain ⟨b0, hb0, hcase⟩ := swapBToA_ok h1
  have e : bValue flatCurve (1000000000000 * Dfs.ONE) true =
      .ok (1000000000000 * Dfs.ONE) := by decide +kernel
  rw [e] at hb0
  rw [← Res.ok.inj hb0] at hcase
  rcases hcase with ⟨hlt, _, _⟩ | ⟨hle, hx, v, hv, hvA, hy⟩
  · have := Nat.lt_of_mul_lt_mul_right hlt
    omega
  · have hV : v < VMAX := lt_of_le_of_lt hvA (by decide)
    obtain ⟨e2, _, _⟩ := amt_eq_ok (by decide) hv hV
    have hm : 999999500000 * Dfs.ONE ≤
        (1000000000000 * Dfs.ONE - s * Dfs.ONE + (Dfs.ONE - 1)) / Dfs.ONE * Dfs.ONE := by
      refine le_trans ?_ (le_ceil _)
      rw [← Nat.sub_mul]
      exact Nat.mul_le_mul_right _ (by omega)
    have := amtF_mono flatCurve hm
    rw [← e2] at this
    have e3 : 1000000000000 * Dfs.ONE < amtF flatCurve (999999500000 * Dfs.ONE) := by
      decide +kernel
    omega

/-- On the same pool every purchase offering up to `10^8` token A is refused. -/
theorem C48_small_purchases_fail (s : Nat) (hs : s ≤ 100000000) (r : SwapWithoutFeesResult)
    (hB : r.destination_amount_swapped ≤ 4611686018427387904) :
    Linear.swapWithoutFees flatCurve s 1000000000000 4611686018427387904 .AtoB ≠ .ok r := by
  intro h
  obtain ⟨r', h', _⟩ := C06_buy_succeeds flatCurve (by decide +kernel) s 100000000 1000000000000
    4611686018427387904 r (by decide) (by decide) hs h hB
  have e : Linear.swapWithoutFees flatCurve 100000000 1000000000000 4611686018427387904 .AtoB =
      .none := by decide +kernel
  rw [e] at h'
  cases h'

/-- C48 up to the blur of the position.  Missing from the full claim: the payment is measured from
the position plus `blur` plus one token B, instead of from the position itself (without that the
claim is false, `C48_false`). -/
theorem C48_sell_partial (c : LinearPriceCurve) (hv : isCurveParamValid c = .ok ())
    (hr : Representable c) (s A B : Nat) (hA : A < 2 ^ 64) (hs : s < 2 ^ 64) (hs1 : 1 ≤ s)
    (hnp : bValue c (A * 10 ^ 18) true ≠ .panic) (hpos : 1 ≤ position c A)
    (hq : costR c (max 0 (position c A + blur c A - s + 1)) ≤ A - 1) :
    ∃ r, Linear.swapWithoutFees c s B A .BtoA = .ok r ∧
      A - costR c (max 0 (position c A + blur c A - s + 1)) - 1 < r.destination_amount_swapped := by
  obtain ⟨H, P, Q, hrep⟩ := Rep_of_spec (nz_of_valid hv) hr
  have hA' := lt64 hA
  have hs' := lt64 hs
  have ho := Linear.oneR_pos
  have hO : ((Dfs.ONE : Nat) : ℝ) = 10 ^ 18 := by rw [Dfs.ONE_val]; norm_num
  have hbl := blur_nonneg hv A
  obtain ⟨b0, hb0⟩ : ∃ b0, bValue c (A * Dfs.ONE) true = .ok b0 := by
    have := (C44_up_iff c hv A (by omega)).1
    rcases hb : bValue c (A * Dfs.ONE) true with b0 | _ | _
    · exact ⟨b0, rfl⟩
    · exact absurd hb this
    · exact absurd hb hnp
  obtain ⟨p1, p2⟩ := hrep.up_bounds (by omega) hb0
  obtain ⟨k1, k2⟩ := swapBToA_of hA' hs' hv hb0
  have hcn : 0 ≤ costR c (max 0 (position c A + blur c A - s + 1)) := by
    have := costR_mono hv le_rfl (le_max_left 0 (position c A + blur c A - s + 1))
    have h0 : costR c 0 = 0 := by unfold costR; ring
    linarith
  have hA1 : 1 ≤ A := by
    have : (1 : ℝ) ≤ A := by linarith
    exact_mod_cast this
  rcases Nat.lt_or_ge b0 (s * Dfs.ONE) with hlt | hge
  · have hx : (b0 + Dfs.roundingCorrection) / Dfs.ONE ≠ 0 := by
      have hb1 : (1 : ℝ) - 1 / Dfs.ONE < (b0 : ℝ) / Dfs.ONE := by linarith
      have hb2 : (Dfs.ONE : ℝ) - 1 < b0 := by
        have e : (1 : ℝ) - 1 / Dfs.ONE = (Dfs.ONE - 1) / Dfs.ONE := by field_simp
        rw [e, div_lt_div_iff_of_pos_right ho] at hb1; exact hb1
      have hb3 : Dfs.ONE < b0 + 1 := by
        have : (Dfs.ONE : ℝ) < b0 + 1 := by linarith
        exact_mod_cast this
      have : 1 ≤ (b0 + Dfs.roundingCorrection) / Dfs.ONE := by
        rw [Nat.le_div_iff_mul_le Dfs.ONE_pos]
        have : 1 ≤ Dfs.roundingCorrection := by decide
        omega
      omega
    refine ⟨_, swapWithoutFees_of_sell (k1 hlt) hx (by omega), ?_⟩
    simp only []
    linarith
  · have c1 : (b0 - s * Dfs.ONE + (Dfs.ONE - 1)) / Dfs.ONE * Dfs.ONE ≤
        b0 - s * Dfs.ONE + (Dfs.ONE - 1) := Nat.div_mul_le_self _ _
    replace k2 := k2 hge
    generalize (b0 - s * Dfs.ONE + (Dfs.ONE - 1)) / Dfs.ONE = n at *
    have hop := Dfs.ONE_pos
    have c1' : n * Dfs.ONE + s * Dfs.ONE < b0 + Dfs.ONE := by omega
    have c1r : ((n : ℝ) + s) * Dfs.ONE < b0 + Dfs.ONE := by
      have : ((n * Dfs.ONE + s * Dfs.ONE : Nat) : ℝ) < ((b0 + Dfs.ONE : Nat) : ℝ) := by
        exact_mod_cast c1'
      push_cast at this; linarith
    have d1 : (n : ℝ) + s < (b0 : ℝ) / Dfs.ONE + 1 := by
      have : (b0 : ℝ) / Dfs.ONE + 1 = (b0 + Dfs.ONE) / Dfs.ONE := by field_simp
      rw [this, lt_div_iff₀ ho]; exact c1r
    have hcost : costR c n ≤ costR c (max 0 (position c A + blur c A - s + 1)) :=
      costR_mono hv (Nat.cast_nonneg _) (le_trans (by linarith) (le_max_right _ _))
    have hLr : (costR c n : ℝ) = (L H P n : ℝ) / Dfs.ONE := by
      have := cost_eq hrep n
      have h2 : costR c n = ((cost c n : ℚ) : ℝ) := by
        unfold costR cost; push_cast; ring
      rw [h2, this]; push_cast; rfl
    have hLA : L H P n + Dfs.ONE ≤ A * Dfs.ONE := by
      have h1 : (L H P n : ℝ) / Dfs.ONE ≤ A - 1 := by rw [← hLr]; linarith
      rw [div_le_iff₀ ho] at h1
      have : (L H P n : ℝ) + Dfs.ONE ≤ A * Dfs.ONE := by linarith
      exact_mod_cast this
    rw [hrep.amtF_whole] at k2
    replace k2 := k2 (by omega)
    have hy1 : 1 ≤ (A * Dfs.ONE - L H P n) / Dfs.ONE := by
      rw [Nat.le_div_iff_mul_le Dfs.ONE_pos]; omega
    refine ⟨_, swapWithoutFees_of_sell k2 (by omega) (by omega), ?_⟩
    simp only []
    have f2 : A * Dfs.ONE - L H P n < Dfs.ONE * ((A * Dfs.ONE - L H P n) / Dfs.ONE + 1) :=
      Nat.lt_mul_div_succ _ Dfs.ONE_pos
    generalize (A * Dfs.ONE - L H P n) / Dfs.ONE = y at *
    have g2 : (A : ℝ) * Dfs.ONE - L H P n < Dfs.ONE * (y + 1) := by
      have : ((A * Dfs.ONE - L H P n : Nat) : ℝ) < ((Dfs.ONE * (y + 1) : Nat) : ℝ) := by
        exact_mod_cast f2
      rw [Nat.cast_sub (by omega)] at this; push_cast at this; exact this
    have g3 : (A : ℝ) - costR c n < y + 1 := by
      rw [hLr]
      have e4 : (A : ℝ) - (L H P n : ℝ) / Dfs.ONE = (A * Dfs.ONE - L H P n) / Dfs.ONE := by
        field_simp
      rw [e4, div_lt_iff₀ ho]; linarith
    linarith

/-- Purchases: an offer that moves the exact position by more than one token B plus the blur of both
ends succeeds, unless what is left in the vault is worth less than half a token A. -/
theorem C48_buy_partial (c : LinearPriceCurve) (hv : isCurveParamValid c = .ok ())
    (hr : Representable c) (s A B : Nat) (hA : A < 2 ^ 64) (hs : s < 2 ^ 64) (hB : 1 ≤ B)
    (hnp : bValue c (A * 10 ^ 18) true ≠ .panic)
    (hw : 1 / 2 + 2 / 10 ^ 18 ≤ costR c (position c A - 1 / 10 ^ 18 + B) - A)
    (hq : 1 + blur c A + blur c (A + s) + 1 / 10 ^ 18 ≤ position c (A + s) - position c A) :
    ∃ r, Linear.swapWithoutFees c s A B .AtoB = .ok r := by
  obtain ⟨H, P, Q, hrep⟩ := Rep_of_spec (nz_of_valid hv) hr
  have hA' := lt64 hA
  have hs' := lt64 hs
  have ho := Linear.oneR_pos
  have hO : ((Dfs.ONE : Nat) : ℝ) = 10 ^ 18 := by rw [Dfs.ONE_val]; norm_num
  have hbl := blur_nonneg hv A
  have hbl2 := blur_nonneg hv (A + s)
  have hs1 : s ≠ 0 := by
    intro h0
    rw [h0, Nat.add_zero] at hq
    have : (0 : ℝ) ≤ 1 / 10 ^ 18 := by positivity
    linarith
  obtain ⟨b0, hb0⟩ : ∃ b0, bValue c (A * Dfs.ONE) true = .ok b0 := by
    have := (C44_up_iff c hv A (by omega)).1
    rcases hb : bValue c (A * Dfs.ONE) true with b0 | _ | _
    · exact ⟨b0, rfl⟩
    · exact absurd hb this
    · exact absurd hb hnp
  obtain ⟨p1, p2⟩ := hrep.up_bounds (by omega) hb0
  rcases hm : maximumARemaining c (A * Dfs.ONE) b0 s B with ⟨x, y⟩ | _ | _
  · have hsw : swapAToB c s A B = .ok (x, y) := by
      rw [swapAToB_of (by omega) hb0, hm]
    obtain ⟨hyB, hxs, v, hv', hAv, hx⟩ := maximumARemaining_ok hm
    have hV := VMAX_of_le hA' hs' hx hxs
    obtain ⟨e, _, _⟩ := amt_eq_ok hrep.nz.sn hv' hV
    obtain ⟨a1, _⟩ := amtF_bounds hrep.nz (b0 + B * Dfs.ONE)
    rw [← e] at a1
    have eb : ((b0 + B * Dfs.ONE : Nat) : ℝ) / Dfs.ONE = (b0 : ℝ) / Dfs.ONE + B := by
      push_cast; field_simp
    rw [eb] at a1
    have hB1 : (1 : ℝ) ≤ B := by exact_mod_cast hB
    have hone : (1 : ℝ) / Dfs.ONE ≤ 1 := by rw [hO]; norm_num
    have hpos := position_nonneg hv A
    have m2 : costR c (position c A - 1 / Dfs.ONE + B) ≤ costR c ((b0 : ℝ) / Dfs.ONE + B) :=
      costR_mono hv (by linarith) (by linarith)
    rw [← hO] at hw
    have hv2 : (1 : ℝ) / 2 < (v : ℝ) / Dfs.ONE - A := by linarith
    have hv3 : A * Dfs.ONE + Dfs.roundingCorrection ≤ v := by
      have e3 : (v : ℝ) / Dfs.ONE - A = (v - A * Dfs.ONE) / Dfs.ONE := by field_simp
      rw [e3, lt_div_iff₀ ho] at hv2
      have hrc : (Dfs.roundingCorrection : ℝ) = (Dfs.ONE : ℝ) / 2 := by
        have : Dfs.ONE = 2 * Dfs.roundingCorrection := one_eq_two_rc
        rw [this]; push_cast; ring
      have : (A : ℝ) * Dfs.ONE + Dfs.roundingCorrection ≤ v := by rw [hrc]; linarith
      exact_mod_cast this
    have hx1 : 1 ≤ x := by
      rw [hx, Nat.le_div_iff_mul_le Dfs.ONE_pos]
      have : Dfs.ONE = 2 * Dfs.roundingCorrection := one_eq_two_rc
      omega
    exact ⟨_, swapWithoutFees_of_buy hsw (by omega) (by omega)⟩
  · obtain ⟨b1, hb1⟩ := C44_down_total c hv (A + s) (by omega)
    obtain ⟨q1, q2⟩ := hrep.down_bounds (A := A + s) (by omega) hb1
    rw [← hO] at hq
    have h1 : (1 : ℝ) + (b0 : ℝ) / Dfs.ONE < (b1 : ℝ) / Dfs.ONE := by linarith
    have h2 : b0 + Dfs.ONE < b1 := by
      have e : (1 : ℝ) + (b0 : ℝ) / Dfs.ONE = (b0 + Dfs.ONE) / Dfs.ONE := by field_simp; ring
      rw [e, div_lt_div_iff_of_pos_right ho] at h1
      exact_mod_cast h1
    have hsw := swapAToB_none hA' hs' hb0 hb1 (by omega)
      (out_lt_u128 hv (A := A + s) (by omega) hb1) hm
    refine ⟨_, swapWithoutFees_of_buy hsw hs1 ?_⟩
    have : 1 ≤ (b1 - b0) / Dfs.ONE := by
      rw [Nat.le_div_iff_mul_le Dfs.ONE_pos]; omega
    omega
  · exact absurd hm maximumARemaining_ne_panic

/-- The hypotheses of both theorems hold on the sample curve: 50 token B are sold back into a vault
of 10300 token A (position 100), and 10300 token A buy from a fresh pool. -/
theorem sample_position : position sampleCurve 10300 = 100 ∧ blur sampleCurve 10300 = 203 / 2 ^ 31 ∧
    position sampleCurve 0 = 0 ∧ blur sampleCurve 0 = 3 / 2 ^ 31 := by
  have hv : isCurveParamValid sampleCurve = .ok () := by decide +kernel
  have e1 : ((slope sampleCurve : ℚ) : ℝ) = 2 := by simp [slope, sampleCurve]
  have e2 : ((Spec.price sampleCurve : ℚ) : ℝ) = 3 := by simp [Spec.price, sampleCurve]
  have m1 : marginal sampleCurve 10300 = 203 := by
    unfold marginal
    rw [e1, e2, Real.sqrt_eq_iff_mul_self_eq (by norm_num) (by norm_num)]
    norm_num
  have m2 : marginal sampleCurve 0 = 3 := by
    unfold marginal
    rw [e1, e2, Real.sqrt_eq_iff_mul_self_eq (by norm_num) (by norm_num)]
    norm_num
  unfold position blur
  rw [m1, m2, e1, e2]
  norm_num

example : ∃ r, Linear.swapWithoutFees sampleCurve 50 900 10300 .BtoA = .ok r ∧
    (7544 : ℝ) < r.destination_amount_swapped := by
  obtain ⟨p, b, _, _⟩ := sample_position
  have e1 : ((slope sampleCurve : ℚ) : ℝ) = 2 := by simp [slope, sampleCurve]
  have e2 : ((Spec.price sampleCurve : ℚ) : ℝ) = 3 := by simp [Spec.price, sampleCurve]
  have hm : max (0 : ℝ) (100 + 203 / 2 ^ 31 - (50 : Nat) + 1) = 51 + 203 / 2 ^ 31 := by
    rw [max_eq_right] <;> norm_num
  have hc : costR sampleCurve (51 + 203 / 2 ^ 31) < 2755 := by
    unfold costR; rw [e1, e2]; norm_num
  obtain ⟨r, h1, h2⟩ := C48_sell_partial sampleCurve (by decide +kernel) (by decide +kernel) 50 10300
    900 (by decide) (by decide) (by decide) (by decide +kernel) (by rw [p]; norm_num)
    (by rw [p, b, hm]; push_cast; linarith)
  rw [p, b, hm] at h2
  push_cast at h2
  exact ⟨r, h1, by linarith⟩

example : ∃ r, Linear.swapWithoutFees sampleCurve 10300 0 900 .AtoB = .ok r := by
  obtain ⟨p, b, p0, b0⟩ := sample_position
  have e1 : ((slope sampleCurve : ℚ) : ℝ) = 2 := by simp [slope, sampleCurve]
  have e2 : ((Spec.price sampleCurve : ℚ) : ℝ) = 3 := by simp [Spec.price, sampleCurve]
  refine C48_buy_partial sampleCurve (by decide +kernel) (by decide +kernel) 10300 0
    900 (by decide) (by decide) (by decide) (by decide +kernel) ?_ ?_
  · rw [p0]; unfold costR; rw [e1, e2]; norm_num
  · rw [Nat.zero_add, p, b, p0, b0]; norm_num

end Props
end Verif
