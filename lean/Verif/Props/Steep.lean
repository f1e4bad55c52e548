import Verif.Props.Unbacked
import Verif.Props.Spot
import Verif.Lemmas.Steep

/-
C03, C60 and C70 on curves whose parameters need not be multiples of `10^-18`, but which are steep enough
for the rounding not to matter.
-/

namespace Verif
namespace Props
open Spec
open Linear hiding price

/-- A curve with slope `1/3` and price `1/7`: none of the three parameters is a multiple of `10^-18`. -/
def thirdCurve : LinearPriceCurve := ⟨1, 3, 1, 7⟩

/-- A curve with slope `10^-10/3` and price nothing. -/
def gentleCurve : LinearPriceCurve := ⟨1, 30000000000, 0, 1⟩

/-- Every slope from `4·10^-12` on is steep, and at a price of ten or more every slope that passes
validation. -/
theorem steep_of (c : LinearPriceCurve) (hv : isCurveParamValid c = .ok ())
    (h : 4 / 10 ^ 12 ≤ slope c ∨ 10 ≤ price c) : Steep c := by
  have h1 := ((C11_params c).1 (by simp only [Curve.validate, hv])).2.2.2
  have hp : 0 ≤ price c := by unfold price; positivity
  unfold Steep
  generalize slope c = s at *
  generalize price c = p at *
  rcases h with h | h
  · have h2 : (4 / 10 ^ 12 : ℚ) ^ 2 ≤ s ^ 2 := pow_le_pow_left₀ (by positivity) h 2
    have h3 : (2 * (4 / 10 ^ 12) : ℚ) ≤ p ^ 2 + 2 * s := by linarith [sq_nonneg p]
    refine le_trans ?_ (mul_le_mul h2 h3 (by positivity) (sq_nonneg s))
    norm_num
  · have h2 : (1 / 10 ^ 18 : ℚ) ^ 2 ≤ s ^ 2 := pow_le_pow_left₀ (by positivity) h1 2
    have h3 : (10 : ℚ) ^ 2 ≤ p ^ 2 + 2 * s := by
      have := pow_le_pow_left₀ (by norm_num : (0 : ℚ) ≤ 10) h 2
      have : (0 : ℚ) ≤ s := le_trans (by positivity) h1
      linarith
    refine le_trans ?_ (mul_le_mul h2 h3 (by positivity) (sq_nonneg s))
    norm_num

/-- C03 for steep curves.  Missing from the full claim: curves that are neither steep nor representable
(for which it can be false, `C03_false`). -/
theorem C03_steep_partial (c : LinearPriceCurve) (hv : isCurveParamValid c = .ok ()) (hst : Steep c)
    (s A B : Nat) (r r' : SwapWithoutFeesResult) (hA : A < 2 ^ 64)
    (hsell : Linear.swapWithoutFees c s B A .BtoA = .ok r)
    (hbuy : Linear.swapWithoutFees c r.destination_amount_swapped
        (A - r.destination_amount_swapped) (B + r.source_amount_swapped) .AtoB = .ok r')
    (hne : r'.destination_amount_swapped < B + r.source_amount_swapped) :
    r'.destination_amount_swapped ≤ r.source_amount_swapped :=
  steep_sell_buy (nz_of_valid hv) hst (lt64 hA) (swapWithoutFees_sell hsell).1
    (swapWithoutFees_buy hbuy).1 hne

theorem thirdCurve_steep : Steep thirdCurve := by
  unfold Steep slope price thirdCurve
  simp only [show UInt64.toNat 1 = 1 from rfl, show UInt64.toNat 3 = 3 from rfl,
    show UInt64.toNat 7 = 7 from rfl]
  norm_num

example : ¬ Representable thirdCurve ∧ isCurveParamValid thirdCurve = .ok () ∧
    Linear.swapWithoutFees thirdCurve 3 50 100 .BtoA = .ok ⟨3, 16⟩ ∧
    Linear.swapWithoutFees thirdCurve 16 (100 - 16) (50 + 3) .AtoB = .ok ⟨16, 2⟩ := by
  decide +kernel
example : Steep gentleCurve ∧ ¬ Representable gentleCurve ∧ ¬ Steep drainCurve := by
  refine ⟨?_, by decide +kernel, ?_⟩
  · unfold Steep slope price gentleCurve
    simp only [show UInt64.toNat 1 = 1 from rfl, show UInt64.toNat 0 = 0 from rfl,
      show UInt64.toNat 30000000000 = 30000000000 from rfl]
    norm_num
  · unfold Steep slope price drainCurve
    simp only [show UInt64.toNat 1 = 1 from rfl, show UInt64.toNat 0 = 0 from rfl,
      show UInt64.toNat 19 = 19 from rfl,
      show UInt64.toNat 10000000000000000000 = 10000000000000000000 from rfl]
    norm_num

/-- C70 for steep curves: whenever two successive sales succeed, so does one sale of both amounts, and it
pays at least as much.  Missing from the full claim: curves that are neither steep nor representable
(for which it can be false, `C70_false`). -/
theorem C70_steep_partial (c : LinearPriceCurve) (hv : isCurveParamValid c = .ok ()) (hst : Steep c)
    (s1 s2 A B : Nat) (r1 r2 : SwapWithoutFeesResult) (hA : A < 2 ^ 64)
    (hs : s1 + s2 < 2 ^ 64) (h1 : Linear.swapWithoutFees c s1 B A .BtoA = .ok r1)
    (h2 : Linear.swapWithoutFees c s2 (B + r1.source_amount_swapped)
      (A - r1.destination_amount_swapped) .BtoA = .ok r2) :
    ∃ r, Linear.swapWithoutFees c (s1 + s2) B A .BtoA = .ok r ∧
      r1.destination_amount_swapped + r2.destination_amount_swapped ≤
        r.destination_amount_swapped := by
  obtain ⟨k1, k2, k3⟩ := swapWithoutFees_sell h1
  obtain ⟨k4, _, _⟩ := swapWithoutFees_sell h2
  obtain ⟨x, y, e, hx, hy⟩ := steep_sell_split hst hv (lt64 hA) (lt64 hs) k1 k4 k2
  refine ⟨⟨x, y⟩, ?_, hy⟩
  unfold Linear.swapWithoutFees
  simp only []
  rw [e, Res.ok_bind]
  simp only [mapZeroToNone, if_neg hx, if_neg (show ¬ y = 0 by omega), Res.ok_bind]

example : Linear.swapWithoutFees thirdCurve 3 50 100 .BtoA = .ok ⟨3, 16⟩ ∧
    Linear.swapWithoutFees thirdCurve 4 (50 + 3) (100 - 16) .BtoA = .ok ⟨4, 21⟩ ∧
    Linear.swapWithoutFees thirdCurve (3 + 4) 50 100 .BtoA = .ok ⟨7, 43⟩ := by decide +kernel

/-- What every history of a steep pool that does not empty the B vault maintains about the level `T`, if it
holds at the start. -/
theorem steep_inv {c : LinearPriceCurve} (hz : Nz c) (hst : Steep c) {A0 B0 T : Nat} (hA0 : A0 < 2 ^ 64)
    (hstart : ∀ o, B0 + o = T → Covered c A0 o) {y : Nat × Nat} (hy : HistoryNonEmpty c (A0, B0) y) :
    y.1 < 2 ^ 64 ∧ ∀ o, y.2 + o = T → Covered c y.1 o := by
  induction hy with
  | refl =>
    exact ⟨hA0, hstart⟩
  | tail _ hstep ih =>
    obtain ⟨h1, h2⟩ := ih
    obtain ⟨hstep, hne⟩ := hstep
    cases hstep with
    | @buy A B s r hs hr hd hA =>
      refine ⟨hA, fun o ho => ?_⟩
      simp only [] at ho hne h1 h2 ⊢
      obtain ⟨h3, _, h5⟩ := swapWithoutFees_buy hr
      obtain ⟨b0, hb0, hc⟩ := swapAToB_ok h3
      rcases hc with ⟨e, _⟩ | ⟨hx, b1, hb1, hle, hy⟩
      · omega
      have hfl : r.destination_amount_swapped * Dfs.ONE ≤ b1 - b0 := by
        rw [hy]; exact Nat.div_mul_le_self _ _
      rw [hx]
      refine Or.inl ⟨b1, hb1, ?_⟩
      rcases Nat.lt_or_ge o r.destination_amount_swapped with hlt | hge
      · have : o * Dfs.ONE ≤ r.destination_amount_swapped * Dfs.ONE :=
          Nat.mul_le_mul_right _ hlt.le
        omega
      · obtain ⟨k, rfl⟩ := Nat.exists_eq_add_of_le hge
        have hk := (h2 k (by omega)).up hz hst (by omega) hb0
        rw [Nat.add_mul]
        omega
    | @sell A B s r hs hr hd hB =>
      obtain ⟨h3, _, h5⟩ := swapWithoutFees_sell hr
      simp only [] at hne h1 h2 ⊢
      refine ⟨by omega, fun o ho => ?_⟩
      obtain ⟨b0, hb0, hc⟩ := swapBToA_ok h3
      have hk := (h2 (o + r.source_amount_swapped) (by omega)).up hz hst (by omega) hb0
      rw [Nat.add_mul] at hk
      rcases hc with ⟨hlt, hy, hx⟩ | ⟨hle, hx, v, hv', hvA, hy⟩
      · have h0 : o = 0 := by
          have h6 : b0 + Dfs.roundingCorrection <
              Dfs.ONE * ((b0 + Dfs.roundingCorrection) / Dfs.ONE + 1) :=
            Nat.lt_mul_div_succ _ Dfs.ONE_pos
          rw [← hx, Nat.mul_add, Nat.mul_comm Dfs.ONE r.source_amount_swapped, Nat.mul_one] at h6
          rcases Nat.eq_zero_or_pos o with h7 | h7
          · exact h7
          · have : 1 * Dfs.ONE ≤ o * Dfs.ONE := Nat.mul_le_mul_right _ h7
            omega
        rw [h0]
        exact Covered.zero
      · obtain ⟨k1, k2, k3⟩ := sell_keeps hz (lt64 h1) hv' hvA hy
        rw [k1] at k3
        have hce := le_ceil (b0 - s * Dfs.ONE)
        rw [hx] at hk
        have hon : o ≤ (b0 - s * Dfs.ONE + (Dfs.ONE - 1)) / Dfs.ONE := le_of_half (by omega)
        exact Or.inr (le_trans (amtF_mono c (Nat.mul_le_mul_right _ hon)) k3)
    | @donate A B u w hA hB =>
      refine ⟨hA, fun o ho => ?_⟩
      simp only [] at ho h1 h2 ⊢
      exact ((h2 (o + w) (by omega)).mono_a hz (Nat.le_add_right A u) (by omega)).mono_o
        (Nat.le_add_right o w)

/-- C60 for steep curves, sales included: over any history in which the B vault is never emptied, the token
B outside exceed the exact curve's position for the A held by at most `10^-18` over the slope plus one
half; all but two of them are worth no more than the A held.  Missing from the full claim: curves that
are neither steep nor representable (`C60_false`), and emptying the vault. -/
theorem C60_steep_partial (c : LinearPriceCurve) (hv : isCurveParamValid c = .ok ()) (hst : Steep c)
    (A0 B0 A B : Nat) (hA0 : A0 < 2 ^ 64) (h : HistoryNonEmpty c (A0, B0) (A, B)) (out : Nat)
    (ho : B + out = B0) :
    (out : ℝ) ≤ position c A + 1 / 10 ^ 18 / (slope c : ℝ) + 1 / 2 ∧
      ∀ k, out = k + 2 → cost c k ≤ A := by
  have hz := nz_of_valid hv
  have hpos : (0 : ℝ) < ((slope c : ℚ) : ℝ) ∧ 1 / 10 ^ 18 / ((slope c : ℚ) : ℝ) ≤ 1 := by
    have h1 := ((C11_params c).1 (by simp only [Curve.validate, hv])).2.2.2
    have h2 : ((1 : ℝ) / 10 ^ 18) ≤ ((slope c : ℚ) : ℝ) := by
      have : (((1 : ℚ) / 10 ^ 18 : ℚ) : ℝ) ≤ ((slope c : ℚ) : ℝ) := by exact_mod_cast h1
      push_cast at this
      exact this
    have h3 : (0 : ℝ) < ((slope c : ℚ) : ℝ) := lt_of_lt_of_le (by norm_num) h2
    exact ⟨h3, by rw [div_le_one h3]; exact h2⟩
  have hslack : 0 ≤ 1 / 10 ^ 18 / ((slope c : ℚ) : ℝ) := div_nonneg (by norm_num) hpos.1.le
  obtain ⟨hA, hk⟩ := steep_inv hz hst hA0 (T := B0) (fun o ho => by
    have h0 : o = 0 := by omega
    rw [h0]
    exact Covered.zero) h
  simp only [] at hA hk
  have hmain := (hk out ho).position hz hst (by omega) hslack
  refine ⟨hmain, ?_⟩
  intro k hk2
  subst hk2
  push_cast at hmain
  have hkp : (k : ℝ) ≤ position c A := by linarith [hpos.2]
  have hm := marginal_sq hv A
  have hm0 : 0 ≤ marginal c A := Real.sqrt_nonneg _
  have hp0 : (0 : ℝ) ≤ ((price c : ℚ) : ℝ) := by unfold price; push_cast; positivity
  have hs0 := hpos.1
  unfold position at hkp
  rw [le_div_iff₀ hs0] at hkp
  have hgoal : ((cost c k : ℚ) : ℝ) ≤ ((A : ℚ) : ℝ) := by
    unfold cost
    push_cast
    generalize ((price c : ℚ) : ℝ) = p at *
    generalize ((slope c : ℚ) : ℝ) = s at *
    generalize marginal c A = M at *
    have hkk : (0 : ℝ) ≤ k := Nat.cast_nonneg k
    have h1 : s * k + p ≤ M := by linarith
    have h2 : (s * k + p) * (s * k + p) ≤ M * M :=
      mul_self_le_mul_self (by positivity) h1
    rw [hm] at h2
    have h3 : 2 * s * (s / 2 * (k : ℝ) ^ 2 + p * k) ≤ 2 * s * A := by nlinarith
    exact le_of_mul_le_mul_left h3 (by positivity)
  exact_mod_cast hgoal

example : HistoryNonEmpty thirdCurve (0, 100) (84, 79) := by
  refine (Relation.ReflTransGen.single ⟨PoolStep.buy (A := 0) (B := 100) 100 ⟨100, 24⟩ (by decide)
    (by decide +kernel) (by decide) (by decide), by decide⟩).tail ⟨?_, by decide⟩
  exact PoolStep.sell (c := thirdCurve) (A := 100) (B := 76) 3 ⟨3, 16⟩ (by decide) (by decide +kernel) (by decide) (by decide)

end Props
end Verif
