import Verif.Props.Linear
import Verif.Lemmas.LinearAny

/-
C60: which linear pools stay backed when the curve parameters are not multiples of `10^-18`.
-/

namespace Verif
namespace Props
open Spec
open Linear hiding price

/-- The full claim of C60: C01 for every curve that passes validation. -/
def C60_statement : Prop :=
  ∀ (c : LinearPriceCurve), isCurveParamValid c = .ok () →
    ∀ (B0 A B : Nat), B0 < 2 ^ 64 → History c (0, B0) (A, B) →
      ∀ out, B + out = B0 → cost c out < A + 1

/-- A curve that passes validation but whose half-slope is not a multiple of `10^-18`. -/
def drainCurve : LinearPriceCurve := ⟨19, 10000000000000000000, 0, 1⟩

theorem drain_cycle (B : Nat) (h : 2000000000 ≤ B) (hB : B + 366522339 < 2 ^ 64) :
    History drainCurve (2, B) (2, B - 114372662) := by
  have hs : Linear.swapBToA drainCurve 366522339 2 = .ok (366522339, 1) := by decide +kernel
  have h1 : PoolStep drainCurve (2, B) (1, B + 366522339) :=
    PoolStep.sell (A := 2) (B := B) 366522339 ⟨366522339, 1⟩ (by decide)
      (swapWithoutFees_of_sell hs (by decide) (by decide)) (by decide) hB
  have hb0 : bValue drainCurve (1 * Dfs.ONE) true = .ok 911605688421052631578947368 := by decide +kernel
  have hb1 : bValue drainCurve ((1 + 1) * Dfs.ONE) false = .ok 1392500689473684210526315789 := by
    decide +kernel
  have hm := maximumARemaining_none (c := drainCurve) (A := 1) (b0 := 911605688421052631578947368)
    (s := 1) (B := B + 366522339) (B1 := 2000000000) (nz_of_bValue hb0) (by decide) (by decide)
    (by omega) (by decide +kernel)
  have hb := swapAToB_none (c := drainCurve) (s := 1) (A := 1) (B := B + 366522339) (by decide)
    (by decide) hb0 hb1 (by decide) (by decide +kernel) hm
  have e : (1392500689473684210526315789 - 911605688421052631578947368) / Dfs.ONE = 480895001 := by
    decide +kernel
  rw [e] at hb
  have h2 : PoolStep drainCurve (1, B + 366522339) (1 + 1, B + 366522339 - 480895001) :=
    PoolStep.buy (A := 1) (B := B + 366522339) 1 ⟨1, 480895001⟩ (by decide)
      (swapWithoutFees_of_buy hb (by decide) (by decide)) (by simp only []; omega) (by decide)
  have e2 : B + 366522339 - 480895001 = B - 114372662 := by omega
  rw [e2] at h2
  exact (Relation.ReflTransGen.single h1).tail h2

/-- On that curve a fresh pool of any size can be emptied of token B, down to two thousand million base
units, for two base units of token A in all: buy for two, then repeat "sell 366522339 for one, buy for
one", which yields 114372662 each time. -/
theorem C60_drain (n B0 : Nat) (h : 2000000000 + 1392500689 + n * 114372662 ≤ B0)
    (hB : B0 + 366522339 < 2 ^ 64) :
    History drainCurve (0, B0) (2, B0 - 1392500689 - n * 114372662) := by
  have hb0 : bValue drainCurve (0 * Dfs.ONE) true = .ok 0 := by decide +kernel
  have hb1 : bValue drainCurve ((0 + 2) * Dfs.ONE) false = .ok 1392500689473684210526315789 := by
    decide +kernel
  have hm := maximumARemaining_none (c := drainCurve) (A := 0) (b0 := 0) (s := 2) (B := B0)
    (B1 := 3000000000) (nz_of_bValue hb0) (by decide) (by decide) (by omega) (by decide +kernel)
  have hb := swapAToB_none (c := drainCurve) (s := 2) (A := 0) (B := B0) (by decide) (by decide) hb0 hb1
    (by decide) (by decide +kernel) hm
  have e : (1392500689473684210526315789 - 0) / Dfs.ONE = 1392500689 := by decide +kernel
  rw [e] at hb
  have h1 : PoolStep drainCurve (0, B0) (0 + 2, B0 - 1392500689) :=
    PoolStep.buy (A := 0) (B := B0) 2 ⟨2, 1392500689⟩ (by decide)
      (swapWithoutFees_of_buy hb (by decide) (by decide)) (by simp only []; omega) (by decide)
  induction n with
  | zero =>
    rw [Nat.zero_mul, Nat.sub_zero]
    exact Relation.ReflTransGen.single h1
  | succ n ih =>
    have h2 := drain_cycle (B0 - 1392500689 - n * 114372662) (by omega) (by omega)
    have e3 : B0 - 1392500689 - n * 114372662 - 114372662 = B0 - 1392500689 - (n + 1) * 114372662 := by
      omega
    rw [e3] at h2
    have h4 : 2000000000 + 1392500689 + n * 114372662 ≤ B0 :=
      le_trans (Nat.add_le_add_left (Nat.mul_le_mul_right _ (Nat.le_succ n)) _) h
    have h5 := ih h4
    exact Relation.ReflTransGen.trans h5 h2

/-- C60 is false of the code: with `2^63` token B in the pool, more than `9·10^18` of them end up outside
for two token A; the curve values them at more than `8·10^19`. -/
theorem C60_false : ¬ C60_statement := by
  intro h
  have hd := C60_drain 80643152587 9223372036854775808 (by norm_num) (by norm_num)
  have e : 9223372036854775808 - 1392500689 - 80643152587 * 114372662 = 2014898525 := by decide
  rw [e] at hd
  have h1 := h drainCurve (by decide +kernel) 9223372036854775808 2 2014898525 (by decide) hd
    9223372034839877283 (by decide)
  have h2 : ¬ cost drainCurve 9223372034839877283 < ((2 : Nat) : ℚ) + 1 := by decide +kernel
  exact h2 h1

/-- What remains for every valid curve: as long as nobody sells and the B vault is not emptied, the
token B outside never exceed the exact curve's position for the A held by more than `10^-18` over the
slope, that is by more than one base unit.  Missing from the full claim: sales, which make it false
(`C60_false`; see C01 for representable curves), and emptying the vault. -/
theorem C60_purchases_partial (c : LinearPriceCurve) (hv : isCurveParamValid c = .ok ())
    (A0 B0 A B : Nat) (hA0 : A0 < 2 ^ 64) (h : HistoryRising c (A0, B0) (A, B)) (out : Nat)
    (ho : B + out = B0) :
    (out : ℝ) ≤ position c A + 1 / 10 ^ 18 / (slope c : ℝ) ∧ 1 / 10 ^ 18 / (slope c : ℝ) ≤ 1 := by
  have hz := nz_of_valid hv
  have e18 : (10 : ℝ) ^ 18 = (Dfs.ONE : ℝ) := by rw [Dfs.ONE_val]; norm_num
  have hpos : (0 : ℝ) < ((slope c : ℚ) : ℝ) ∧ 1 / 10 ^ 18 / ((slope c : ℚ) : ℝ) ≤ 1 := by
    have h1 := ((C11_params c).1 (by simp only [Curve.validate, hv])).2.2.2
    have h2 : ((1 : ℝ) / 10 ^ 18) ≤ ((slope c : ℚ) : ℝ) := by
      have : (((1 : ℚ) / 10 ^ 18 : ℚ) : ℝ) ≤ ((slope c : ℚ) : ℝ) := by exact_mod_cast h1
      push_cast at this
      exact this
    have h3 : (0 : ℝ) < ((slope c : ℚ) : ℝ) := lt_of_lt_of_le (by norm_num) h2
    exact ⟨h3, by rw [div_le_one h3]; exact h2⟩
  refine ⟨?_, hpos.2⟩
  have key : ∀ y : Nat × Nat, HistoryRising c (A0, B0) y → y.1 < 2 ^ 64 ∧
      ∀ o, y.2 + o = B0 → o = 0 ∨ ∃ A1 b, A1 ≤ y.1 ∧ bValue c (A1 * Dfs.ONE) false = .ok b ∧
        o * Dfs.ONE ≤ b := by
    intro y hy
    induction hy with
    | refl => exact ⟨hA0, fun o ho => Or.inl (by simp only [] at ho; omega)⟩
    | tail _ hstep ih =>
      obtain ⟨h1, h2⟩ := ih
      obtain ⟨hstep, hup, hne⟩ := hstep
      cases hstep with
      | @buy A B s r hs hr hd hA =>
        refine ⟨hA, fun o ho => ?_⟩
        simp only [] at ho hne h1 h2 ⊢
        obtain ⟨h3, _, h5⟩ := swapWithoutFees_buy hr
        obtain ⟨b0, hb0, hc⟩ := swapAToB_ok h3
        rcases hc with ⟨e, _⟩ | ⟨hx, b1, hb1, hle, hy⟩
        · omega
        right
        refine ⟨A + s, b1, by omega, hb1, ?_⟩
        have hfl : r.destination_amount_swapped * Dfs.ONE ≤ b1 - b0 := by
          rw [hy]; exact Nat.div_mul_le_self _ _
        rcases Nat.lt_or_ge o r.destination_amount_swapped with hlt | hge
        · have : o * Dfs.ONE ≤ r.destination_amount_swapped * Dfs.ONE :=
            Nat.mul_le_mul_right _ hlt.le
          omega
        · obtain ⟨k, rfl⟩ := Nat.exists_eq_add_of_le hge
          have hk : k * Dfs.ONE ≤ b0 := by
            rcases h2 k (by omega) with h0 | ⟨A1, b, hA1, hb, hkb⟩
            · rw [h0, Nat.zero_mul]; exact Nat.zero_le _
            · obtain ⟨b', hb'⟩ := bValue_down_total hz (A := A) (by omega)
              have m1 := bValue_mono hz hA1 (by omega) hb hb'
              have m2 := bValue_down_le_up hz (by omega) hb' hb0
              omega
          rw [Nat.add_mul]
          omega
      | @sell A B s r hs hr hd hB =>
        obtain ⟨_, _, h5⟩ := swapWithoutFees_sell hr
        simp only [] at hup
        omega
      | @donate A B u w hA hB =>
        refine ⟨hA, fun o ho => ?_⟩
        simp only [] at ho h2 ⊢
        rcases h2 (o + w) (by omega) with h0 | ⟨A1, b, hA1, hb, hkb⟩
        · left; omega
        · right
          refine ⟨A1, b, by omega, hb, le_trans (Nat.mul_le_mul_right _ (Nat.le_add_right o w)) hkb⟩
  obtain ⟨hA, hk⟩ := key _ h
  simp only [] at hA hk
  have hslack : 0 ≤ 1 / 10 ^ 18 / ((slope c : ℚ) : ℝ) := div_nonneg (by norm_num) hpos.1.le
  rcases hk out ho with h0 | ⟨A1, b, hA1, hb, hle⟩
  · rw [h0]
    have := position_nonneg hz A
    push_cast
    linarith
  · have h1 := bValue_down_leR hz (by omega) hb
    have h2 := position_mono hz hA1
    have h3 : (out : ℝ) ≤ (b : ℝ) / Dfs.ONE := by
      rw [le_div_iff₀ oneR_pos]
      exact_mod_cast hle
    rw [e18]
    linarith

example : HistoryRising drainCurve (0, 9000000000) (2, 7607499311) :=
  Relation.ReflTransGen.single ⟨PoolStep.buy (A := 0) (B := 9000000000) 2 ⟨2, 1392500689⟩ (by decide)
    (by decide +kernel) (by decide) (by decide), by decide, by decide⟩
example : History drainCurve (0, 9000000000) (2, 9000000000 - 1392500689 - 20 * 114372662) :=
  C60_drain 20 9000000000 (by decide) (by decide)

end Props
end Verif
