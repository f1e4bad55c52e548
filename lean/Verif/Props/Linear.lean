import Verif.Lemmas.LinearTrades
import Verif.Model.Curve

/-
C01-C06, C11, C44: the linear bonding curve.
Amounts are natural numbers of base units; `Spec.cost c b` is the exact rational amount of token A
that `b` outstanding token B are worth on the curve.
-/

namespace Verif
namespace Props
open Spec
open Linear hiding price

/-- Sample curve used in the examples: slope 2, initial price 3, i.e. cost `b² + 3b`. -/
def sampleCurve : LinearPriceCurve := ⟨2, 1, 3, 1⟩

/-! ### C01, C02: backing over histories -/

theorem lt64 {x : Nat} (h : x < 2 ^ 64) : x < 18446744073709551616 := h

/-- The invariant is carried along every history; used by C01 and C41. -/
theorem history_GInv {c : LinearPriceCurve} {H P Q B0 T : Nat} (hrep : Rep c H P Q)
    (hT : Anchor H P B0 T) {x y : Nat × Nat} (hx : x.1 < 2 ^ 64) (hI : GInv H P B0 T x.1 x.2)
    (h : History c x y) : y.1 < 2 ^ 64 ∧ GInv H P B0 T y.1 y.2 := by
  induction h with
  | refl => exact ⟨hx, hI⟩
  | tail _ hstep ih =>
    obtain ⟨h1, h2⟩ := ih
    cases hstep with
    | buy s r hs hr hd hA =>
      obtain ⟨h3, _, h5⟩ := swapWithoutFees_buy hr
      exact ⟨hA, hrep.GInv_buy hT (lt64 h1) (lt64 hs) h3 hd h5 h2⟩
    | sell s r hs hr hd hB =>
      obtain ⟨h3, _, _⟩ := swapWithoutFees_sell hr
      exact ⟨lt_of_le_of_lt (Nat.sub_le _ _) h1, (hrep.GInv_sell hT (lt64 h1) h3 h2).2⟩
    | donate u w hA hB => exact ⟨hA, GInv_donate hT h2⟩

/-- C01.  Over every history of a valid representable linear pool that started with `B0` token B
(and any A), the pool's A plus one base unit exceeds the cost of the B that is out. -/
theorem C01_solvency (c : LinearPriceCurve) (hv : isCurveParamValid c = .ok ())
    (hr : Representable c) (A0 B0 A B : Nat) (hA0 : A0 < 2 ^ 64)
    (h : History c (A0, B0) (A, B)) (out : Nat) (ho : B + out = B0) :
    cost c out < A + 1 := by
  obtain ⟨H, P, Q, hrep⟩ := Rep_of_spec (nz_of_valid hv) hr
  obtain ⟨T, hT⟩ := anchor_exists H P B0
  have := (history_GInv (x := (A0, B0)) (y := (A, B)) hrep hT hA0 (GInv_start hT A0) h).2
  have h2 := cost_lt hrep (GInv_backed hT this ho)
  push_cast at h2
  exact h2

/-- C02.  While the B vault never becomes empty the backing is exact. -/
theorem C02_exact (c : LinearPriceCurve) (hv : isCurveParamValid c = .ok ())
    (hr : Representable c) (A0 B0 A B : Nat) (hA0 : A0 < 2 ^ 64)
    (h : HistoryNonEmpty c (A0, B0) (A, B)) (out : Nat) (ho : B + out = B0) :
    cost c out ≤ A := by
  obtain ⟨H, P, Q, hrep⟩ := Rep_of_spec (nz_of_valid hv) hr
  have key : ∀ y : Nat × Nat, HistoryNonEmpty c (A0, B0) y →
      y.1 < 2 ^ 64 ∧ Linear.Inv H P B0 y.1 y.2 := by
    intro y hy
    induction hy with
    | refl =>
      refine ⟨hA0, fun n hn => ?_⟩
      have h0 : n = 0 := by simp only [] at hn; omega
      rw [h0]; unfold L; simp
    | tail _ hstep ih =>
      obtain ⟨h1, h2⟩ := ih
      obtain ⟨hstep, hne⟩ := hstep
      cases hstep with
      | buy s r hs hr hd hA =>
        obtain ⟨h3, _, h5⟩ := swapWithoutFees_buy hr
        simp only [] at hne
        exact ⟨hA, hrep.buy_inv_partial (lt64 h1) (lt64 hs) h3 (by omega) h2⟩
      | sell s r hs hr hd hB =>
        obtain ⟨h3, _, _⟩ := swapWithoutFees_sell hr
        exact ⟨lt_of_le_of_lt (Nat.sub_le _ _) h1, (hrep.sell_inv' (lt64 h1) h3 h2).2⟩
      | donate u w hA hB => exact ⟨hA, Inv_donate h2⟩
  exact cost_le hrep ((key _ h).2 out (by simp only []; omega))

/-- C01/C02 apply: the sample curve is valid and representable, and a history that buys 2 token B
for 10 token A and sells 1 back for 6 exists. -/
example : isCurveParamValid sampleCurve = .ok () ∧ Representable sampleCurve := by
  decide +kernel

example : HistoryNonEmpty sampleCurve (0, 100) (4, 99) := by
  have h1 : PoolStep sampleCurve (0, 100) (10, 98) :=
    PoolStep.buy (A := 0) (B := 100) 10 ⟨10, 2⟩ (by decide) (by decide +kernel) (by decide)
      (by decide)
  have h2 : PoolStep sampleCurve (10, 98) (4, 99) :=
    PoolStep.sell (A := 10) (B := 98) 1 ⟨1, 6⟩ (by decide) (by decide +kernel) (by decide)
      (by decide)
  exact (Relation.ReflTransGen.single ⟨h1, by decide⟩).tail ⟨h2, by decide⟩

/-- A buy-out followed by a sale on a flat curve: the one-unit slack of C01 is really used
(`cost 3 = 1.2`, the pool holds 1). -/
example : History ⟨2, 10, 1, 10⟩ (0, 3) (1, 0) ∧ isCurveParamValid ⟨2, 10, 1, 10⟩ = .ok () ∧
    Representable ⟨2, 10, 1, 10⟩ := by
  refine ⟨Relation.ReflTransGen.single ?_, by decide +kernel, by decide +kernel⟩
  exact PoolStep.buy (A := 0) (B := 3) 5 ⟨1, 3⟩ (by decide) (by decide +kernel) (by decide)
    (by decide)

/-! ### C03: sell, then buy back -/

/-- The full claim of C03. -/
def C03_statement : Prop :=
  ∀ (c : LinearPriceCurve), isCurveParamValid c = .ok () →
    ∀ (s A B : Nat) (r r' : SwapWithoutFeesResult), s < 2 ^ 64 → A < 2 ^ 64 → B + s < 2 ^ 64 →
      Linear.swapWithoutFees c s B A .BtoA = .ok r →
      Linear.swapWithoutFees c r.destination_amount_swapped
        (A - r.destination_amount_swapped) (B + r.source_amount_swapped) .AtoB = .ok r' →
      r'.destination_amount_swapped < B + r.source_amount_swapped →
      r'.destination_amount_swapped ≤ r.source_amount_swapped

/-- C03 is false of the code: with slope `19/10^19` (accepted by validation, but its half is not a
multiple of `10^-18`) selling 366522339 token B returns 1 token A, which buys 480895001 back. -/
theorem C03_false : ¬ C03_statement := by
  intro h
  have := h ⟨19, 10000000000000000000, 0, 1⟩ (by decide +kernel) 366522339 2 9223372036854775808
    ⟨366522339, 1⟩ ⟨1, 480895001⟩ (by decide) (by decide) (by decide) (by decide +kernel)
    (by decide +kernel) (by decide)
  exact absurd this (by decide)

/-- C03 for representable curves.  Missing from the full claim: parameters whose half-slope, price
or squared price is not a multiple of `10^-18` (for those the claim is false, `C03_false`). -/
theorem C03_sell_buy_partial (c : LinearPriceCurve) (hv : isCurveParamValid c = .ok ())
    (hr : Representable c) (s A B : Nat) (r r' : SwapWithoutFeesResult) (hA : A < 2 ^ 64)
    (hsell : Linear.swapWithoutFees c s B A .BtoA = .ok r)
    (hbuy : Linear.swapWithoutFees c r.destination_amount_swapped
        (A - r.destination_amount_swapped) (B + r.source_amount_swapped) .AtoB = .ok r')
    (hne : r'.destination_amount_swapped < B + r.source_amount_swapped) :
    r'.destination_amount_swapped ≤ r.source_amount_swapped := by
  obtain ⟨H, P, Q, hrep⟩ := Rep_of_spec (nz_of_valid hv) hr
  exact hrep.sell_buy (lt64 hA) (swapWithoutFees_sell hsell).1 (swapWithoutFees_buy hbuy).1 hne

example : Linear.swapWithoutFees sampleCurve 3 50 100 .BtoA = .ok ⟨3, 46⟩ ∧
    Linear.swapWithoutFees sampleCurve 46 (100 - 46) (50 + 3) .AtoB = .ok ⟨46, 2⟩ := by
  decide +kernel

/-! ### C04: buy, then sell back -/

/-- The full claim of C04. -/
def C04_statement : Prop :=
  ∀ (c : LinearPriceCurve), isCurveParamValid c = .ok () → Representable c →
    ∀ (s A B : Nat) (r r' : SwapWithoutFeesResult), s < 2 ^ 64 → A < 2 ^ 64 → A + s < 2 ^ 64 →
      B < 2 ^ 64 →
      Linear.swapWithoutFees c s A B .AtoB = .ok r →
      r.destination_amount_swapped < B →
      Linear.swapWithoutFees c r.destination_amount_swapped
        (B - r.destination_amount_swapped) (A + r.source_amount_swapped) .BtoA = .ok r' →
      r'.destination_amount_swapped ≤ r.source_amount_swapped

/-- C04 is false of the code for extreme prices: on a curve with slope `4.07·10^17` and price
`9.0·10^18`, a pool holding 1 token A sells one token B for 9204341626269359039 A and takes it back
for one unit more. -/
theorem C04_false : ¬ C04_statement := by
  intro h
  have := h ⟨407355990615214208, 1, 9000663630961751936, 1⟩ (by decide +kernel)
    (by decide +kernel) 9204341626269359039 1 5
    ⟨9204341626269359039, 1⟩ ⟨1, 9204341626269359040⟩ (by decide) (by decide) (by decide)
    (by decide) (by decide +kernel) (by decide) (by decide +kernel)
  exact absurd this (by decide)

theorem marginal_raw {c : LinearPriceCurve} {H P Q A : Nat} (hrep : Rep c H P Q)
    (h : price c ^ 2 + 2 * slope c * A ≤ 10 ^ 36) :
    P * P + 4 * H * (A * Dfs.ONE) ≤ Dfs.ONE * Dfs.ONE * (Dfs.ONE * Dfs.ONE) := by
  have h2 : (0 : ℚ) < Dfs.ONE := by exact_mod_cast Dfs.ONE_pos
  have e1 : slope c = 2 * ((H : ℚ) / Dfs.ONE) := by rw [← sn_cast hrep]; ring
  rw [pn_cast hrep, e1] at h
  have e36 : (10 : ℚ) ^ 36 = (Dfs.ONE : ℚ) * Dfs.ONE := by rw [Dfs.ONE_val]; norm_num
  rw [e36] at h
  have h3 : ((P : ℚ) / Dfs.ONE) ^ 2 + 2 * (2 * ((H : ℚ) / Dfs.ONE)) * A =
      ((P : ℚ) * P + 4 * H * (A * Dfs.ONE)) / (Dfs.ONE * Dfs.ONE) := by
    field_simp
    ring
  rw [h3, div_le_iff₀ (mul_pos h2 h2)] at h
  exact_mod_cast h

/-- C04 when the marginal price `sqrt(price² + 2·slope·A)` of the pool is at most `10^18` token A
per token B.  Missing from the full claim: larger marginal prices, where the claim is false
(`C04_false`) and the gain is bounded by `C04_slack`. -/
theorem C04_buy_sell_partial (c : LinearPriceCurve) (hv : isCurveParamValid c = .ok ())
    (hr : Representable c) (s A B : Nat) (r r' : SwapWithoutFeesResult) (hs : s < 2 ^ 64)
    (hA : A < 2 ^ 64) (hmarg : price c ^ 2 + 2 * slope c * A ≤ 10 ^ 36)
    (hbuy : Linear.swapWithoutFees c s A B .AtoB = .ok r)
    (hne : r.destination_amount_swapped < B)
    (hsell : Linear.swapWithoutFees c r.destination_amount_swapped
        (B - r.destination_amount_swapped) (A + r.source_amount_swapped) .BtoA = .ok r') :
    r'.destination_amount_swapped ≤ r.source_amount_swapped := by
  obtain ⟨H, P, Q, hrep⟩ := Rep_of_spec (nz_of_valid hv) hr
  have hb := (swapWithoutFees_buy hbuy).1
  have := hrep.buy_sell_le (lt64 hA) (lt64 hs) (marginal_raw hrep hmarg) hb hne
    (swapWithoutFees_sell hsell).1
  obtain ⟨_, _, hc⟩ := swapAToB_ok hb
  rcases hc with ⟨h1, _⟩ | ⟨h1, _⟩
  · omega
  · omega

/-- For every representable curve, whatever its price, a buy-and-sell-back gains at most 32 base
units of token A. -/
theorem C04_slack (c : LinearPriceCurve) (hv : isCurveParamValid c = .ok ())
    (hr : Representable c) (s A B : Nat) (r r' : SwapWithoutFeesResult) (hs : s < 2 ^ 64)
    (hA : A < 2 ^ 64)
    (hbuy : Linear.swapWithoutFees c s A B .AtoB = .ok r)
    (hne : r.destination_amount_swapped < B)
    (hsell : Linear.swapWithoutFees c r.destination_amount_swapped
        (B - r.destination_amount_swapped) (A + r.source_amount_swapped) .BtoA = .ok r') :
    r'.destination_amount_swapped ≤ r.source_amount_swapped + 32 := by
  obtain ⟨H, P, Q, hrep⟩ := Rep_of_spec (nz_of_valid hv) hr
  have hb := (swapWithoutFees_buy hbuy).1
  have := hrep.buy_sell_slack (lt64 hA) (lt64 hs) hb hne (swapWithoutFees_sell hsell).1
  obtain ⟨_, _, hc⟩ := swapAToB_ok hb
  rcases hc with ⟨h1, _⟩ | ⟨h1, _⟩
  · omega
  · omega

example : price sampleCurve ^ 2 + 2 * slope sampleCurve * (20 : Nat) ≤ 10 ^ 36 ∧
    Linear.swapWithoutFees sampleCurve 100 20 90 .AtoB = .ok ⟨100, 6⟩ ∧
    Linear.swapWithoutFees sampleCurve 6 (90 - 6) (20 + 100) .BtoA = .ok ⟨6, 92⟩ := by
  refine ⟨?_, by decide +kernel, by decide +kernel⟩
  have e1 : slope sampleCurve = 2 := by
    unfold slope sampleCurve
    rw [show UInt64.toNat 2 = 2 from rfl, show UInt64.toNat 1 = 1 from rfl]
    norm_num
  have e2 : price sampleCurve = 3 := by
    unfold price sampleCurve
    rw [show UInt64.toNat 3 = 3 from rfl, show UInt64.toNat 1 = 1 from rfl]
    norm_num
  rw [e1, e2]; norm_num

/-! ### C05: splitting a purchase -/

/-- C05, whatever the curve parameters: two successive purchases that leave some B in the pool yield
together at most what one purchase with the combined amount yields. -/
theorem C05_split (c : LinearPriceCurve) (s1 s2 A B : Nat) (r1 r2 r : SwapWithoutFeesResult)
    (hA : A < 2 ^ 64) (hs : s1 + s2 < 2 ^ 64)
    (h1 : Linear.swapWithoutFees c s1 A B .AtoB = .ok r1)
    (hn1 : r1.destination_amount_swapped < B)
    (h2 : Linear.swapWithoutFees c s2 (A + r1.source_amount_swapped)
        (B - r1.destination_amount_swapped) .AtoB = .ok r2)
    (hn2 : r2.destination_amount_swapped < B - r1.destination_amount_swapped)
    (h : Linear.swapWithoutFees c (s1 + s2) A B .AtoB = .ok r) :
    r1.destination_amount_swapped + r2.destination_amount_swapped ≤
      r.destination_amount_swapped := by
  obtain ⟨b0, hb0, hc1⟩ := swapAToB_ok (swapWithoutFees_buy h1).1
  have hz := nz_of_bValue hb0
  rcases hc1 with ⟨e, _⟩ | ⟨hx1, b1, hb1, hle1, hy1⟩
  · omega
  have h2' := (swapWithoutFees_buy h2).1
  rw [hx1] at h2'
  obtain ⟨b0', hb0', hc2⟩ := swapAToB_ok h2'
  rcases hc2 with ⟨e, _⟩ | ⟨hx2, b2, hb2, hle2, hy2⟩
  · omega
  obtain ⟨b0'', hb0'', hc⟩ := swapAToB_ok (swapWithoutFees_buy h).1
  rcases hc with ⟨e, _⟩ | ⟨hx, b3, hb3, hle3, hy⟩
  · omega
  rw [hb0] at hb0''
  rw [Nat.add_assoc] at hb2
  rw [hb2] at hb3
  have e1 := Res.ok.inj hb0''
  have e2 := Res.ok.inj hb3
  have hm := bValue_down_le_up hz (by omega) hb1 hb0'
  rw [hy1, hy2, hy]
  rcases le_floor_add (x := b1 - b0) (y := b2 - b0') (z := b3 - b0'') with h | h
  · exact h
  · omega

/-- On validated curves the combined purchase moreover always succeeds. -/
theorem C05_combined_succeeds (c : LinearPriceCurve) (hv : isCurveParamValid c = .ok ())
    (s1 s2 A B : Nat) (r1 r2 : SwapWithoutFeesResult)
    (hA : A < 2 ^ 64) (hs : s1 + s2 < 2 ^ 64)
    (h1 : Linear.swapWithoutFees c s1 A B .AtoB = .ok r1)
    (hn1 : r1.destination_amount_swapped < B)
    (h2 : Linear.swapWithoutFees c s2 (A + r1.source_amount_swapped)
        (B - r1.destination_amount_swapped) .AtoB = .ok r2)
    (hn2 : r2.destination_amount_swapped < B - r1.destination_amount_swapped) :
    ∃ r, Linear.swapWithoutFees c (s1 + s2) A B .AtoB = .ok r ∧
      r1.destination_amount_swapped + r2.destination_amount_swapped ≤
        r.destination_amount_swapped := by
  have hz := nz_of_valid hv
  have h1' := (swapWithoutFees_buy h1).1
  obtain ⟨b0, hb0, hc1⟩ := swapAToB_ok h1'
  rcases hc1 with ⟨e, _⟩ | ⟨hx1, b1, hb1, hle1, hy1⟩
  · omega
  have h2' := (swapWithoutFees_buy h2).1
  rw [hx1] at h2'
  obtain ⟨b0', hb0', hc2⟩ := swapAToB_ok h2'
  rcases hc2 with ⟨e, _⟩ | ⟨hx2, b2, hb2, hle2, hy2⟩
  · omega
  have hm := bValue_down_le_up hz (by omega) hb1 hb0'
  rw [Nat.add_assoc] at hb2
  have hs1 : r1.source_amount_swapped ≠ 0 := (swapWithoutFees_buy h1).2.1
  have hd1 : r1.destination_amount_swapped ≠ 0 := (swapWithoutFees_buy h1).2.2
  have key : ∃ x y, swapAToB c (s1 + s2) A B = .ok (x, y) ∧ x ≠ 0 ∧ y ≠ 0 := by
    rcases hmx : maximumARemaining c (A * Dfs.ONE) b0 (s1 + s2) B with ⟨x, y⟩ | _ | _
    · refine ⟨x, y, ?_, ?_, ?_⟩
      · rw [swapAToB_of (by omega) hb0, hmx]
      · intro hx0
        have := maximumARemaining_down (s := s1) (by omega) hmx
        rw [swapAToB_normal (by omega) hb0 h1' (by omega)] at this
        cases this
      · have := (maximumARemaining_ok hmx).1
        omega
    · refine ⟨s1 + s2, (b2 - b0) / Dfs.ONE, ?_, by omega, ?_⟩
      · refine swapAToB_none (lt64 hA) (lt64 hs) hb0 hb2 (by omega) ?_ hmx
        exact out_lt_u128 hv (by omega) hb2
      · have : (b1 - b0) / Dfs.ONE ≤ (b2 - b0) / Dfs.ONE := Nat.div_le_div_right (by omega)
        omega
    · exact absurd hmx maximumARemaining_ne_panic
  obtain ⟨x, y, hsw, hx, hy⟩ := key
  have hok := swapWithoutFees_of_buy hsw hx hy
  exact ⟨_, hok, C05_split c s1 s2 A B r1 r2 _ hA hs h1 hn1 h2 hn2 hok⟩

example : Linear.swapWithoutFees sampleCurve 30 20 90 .AtoB = .ok ⟨30, 2⟩ ∧
    Linear.swapWithoutFees sampleCurve 70 (20 + 30) (90 - 2) .AtoB = .ok ⟨70, 3⟩ ∧
    Linear.swapWithoutFees sampleCurve (30 + 70) 20 90 .AtoB = .ok ⟨100, 6⟩ := by
  decide +kernel

/-! ### C06: monotonicity -/

/-- The computed position never falls when the A balance grows, in either rounding mode. -/
theorem C06_position_mono (c : LinearPriceCurve) (up : Bool) (A A' b b' : Nat) (hAA : A ≤ A')
    (hA : A' < 2 ^ 65) (h : bValue c (A * 10 ^ 18) up = .ok b)
    (h' : bValue c (A' * 10 ^ 18) up = .ok b') : b ≤ b' :=
  bValue_mono (nz_of_bValue h) hAA (show A' < 36893488147419103232 from hA) h h'

/-- Offering more A (both purchases succeed, the first is payable) never yields less B and never
takes less A. -/
theorem C06_buy_mono (c : LinearPriceCurve) (s s' A B : Nat) (r r' : SwapWithoutFeesResult)
    (hA : A < 2 ^ 64) (hs : s' < 2 ^ 64) (hss : s ≤ s')
    (h : Linear.swapWithoutFees c s A B .AtoB = .ok r) (hB : r.destination_amount_swapped ≤ B)
    (h' : Linear.swapWithoutFees c s' A B .AtoB = .ok r') :
    r.destination_amount_swapped ≤ r'.destination_amount_swapped ∧
      r.source_amount_swapped ≤ r'.source_amount_swapped := by
  obtain ⟨b0, hb0, hc⟩ := swapAToB_inv (swapWithoutFees_buy h).1
  obtain ⟨b0', hb0', hc'⟩ := swapAToB_inv (swapWithoutFees_buy h').1
  have hz := nz_of_bValue hb0
  rw [hb0] at hb0'
  rw [← Res.ok.inj hb0'] at hc'
  rcases hc with hm | ⟨hm, hx, b1, hb1, _, hy⟩
  · have hm2 := maximumARemaining_of_le hss hm
    rcases hc' with hm' | ⟨hm', _⟩
    · rw [hm2] at hm'
      have e := Res.ok.inj hm'
      rw [Prod.mk.injEq] at e
      exact ⟨le_of_eq e.2, le_of_eq e.1⟩
    · rw [hm2] at hm'; cases hm'
  · rcases hc' with hm' | ⟨_, hx', b1', hb1', _, hy'⟩
    · refine ⟨by rw [(maximumARemaining_ok hm').1]; exact hB, ?_⟩
      by_contra hlt
      rw [maximumARemaining_down (s := s) (by omega) hm'] at hm
      cases hm
    · have hle := bValue_mono hz (Nat.add_le_add_left hss A) (by omega) hb1 hb1'
      refine ⟨?_, by omega⟩
      rw [hy, hy']
      exact Nat.div_le_div_right (by omega)

/-- On validated curves a larger offer moreover always succeeds. -/
theorem C06_buy_succeeds (c : LinearPriceCurve) (hv : isCurveParamValid c = .ok ())
    (s s' A B : Nat) (r : SwapWithoutFeesResult)
    (hA : A < 2 ^ 64) (hs : s' < 2 ^ 64) (hss : s ≤ s')
    (h : Linear.swapWithoutFees c s A B .AtoB = .ok r) (hB : r.destination_amount_swapped ≤ B) :
    ∃ r', Linear.swapWithoutFees c s' A B .AtoB = .ok r' ∧
      r.destination_amount_swapped ≤ r'.destination_amount_swapped ∧
      r.source_amount_swapped ≤ r'.source_amount_swapped := by
  have hz := nz_of_valid hv
  obtain ⟨g, hx0, hy0⟩ := swapWithoutFees_buy h
  obtain ⟨b0, hb0, hc⟩ := swapAToB_inv g
  have key : ∃ x y, swapAToB c s' A B = .ok (x, y) ∧ x ≠ 0 ∧ y ≠ 0 := by
    rcases hc with hm | ⟨hm, hx, b1, hb1, hle, hy⟩
    · refine ⟨_, _, ?_, hx0, hy0⟩
      rw [swapAToB_of (by omega) hb0, maximumARemaining_of_le hss hm]
    · rcases hmx : maximumARemaining c (A * Dfs.ONE) b0 s' B with ⟨x, y⟩ | _ | _
      · refine ⟨x, y, ?_, ?_, ?_⟩
        · rw [swapAToB_of (by omega) hb0, hmx]
        · intro hx0
          rw [maximumARemaining_down (s := s) (by omega) hmx] at hm
          cases hm
        · have := (maximumARemaining_ok hmx).1
          omega
      · have hA' : A + s' < 36893488147419103232 := by omega
        obtain ⟨b2, hb2⟩ := bValue_down_total hz hA'
        have hle2 := bValue_mono hz (Nat.add_le_add_left hss A) hA' hb1 hb2
        refine ⟨s', (b2 - b0) / Dfs.ONE, ?_, by omega, ?_⟩
        · refine swapAToB_none (lt64 hA) (lt64 hs) hb0 hb2 (by omega) ?_ hmx
          exact out_lt_u128 hv hA' hb2
        · have : (b1 - b0) / Dfs.ONE ≤ (b2 - b0) / Dfs.ONE := Nat.div_le_div_right (by omega)
          omega
      · exact absurd hmx maximumARemaining_ne_panic
  obtain ⟨x, y, hsw, hx, hy⟩ := key
  have hok := swapWithoutFees_of_buy hsw hx hy
  exact ⟨_, hok, C06_buy_mono c s s' A B r _ hA hs hss h hB hok⟩

/-- Offering more B never yields less A and never takes less B. -/
theorem C06_sell_mono (c : LinearPriceCurve) (s s' A B : Nat) (r r' : SwapWithoutFeesResult)
    (hA : A < 2 ^ 64) (hss : s ≤ s')
    (h : Linear.swapWithoutFees c s B A .BtoA = .ok r)
    (h' : Linear.swapWithoutFees c s' B A .BtoA = .ok r') :
    r.destination_amount_swapped ≤ r'.destination_amount_swapped ∧
      r.source_amount_swapped ≤ r'.source_amount_swapped := by
  obtain ⟨b0, hb0, hc⟩ := swapBToA_ok (swapWithoutFees_sell h).1
  obtain ⟨b0', hb0', hc'⟩ := swapBToA_ok (swapWithoutFees_sell h').1
  have hz := nz_of_bValue hb0
  rw [hb0] at hb0'
  rw [← Res.ok.inj hb0'] at hc'
  have hsO : s * Dfs.ONE ≤ s' * Dfs.ONE := Nat.mul_le_mul_right _ hss
  have hVM : ∀ v, v ≤ A * Dfs.ONE → v < VMAX := by
    intro v hv
    refine lt_of_le_of_lt hv ?_
    have := lt64 hA
    rw [Dfs.ONE_val, VMAX_val]; omega
  rcases hc with ⟨hlt, hy, hx⟩ | ⟨hle, hx, v, hv, hvA, hy⟩
  · rcases hc' with ⟨_, hy', hx'⟩ | ⟨hle', _⟩
    · exact ⟨by omega, by omega⟩
    · omega
  · rcases hc' with ⟨_, hy', hx'⟩ | ⟨hle', hx', v', hv', hvA', hy'⟩
    · constructor
      · rw [hy, hy']
        calc (A * Dfs.ONE - v) / Dfs.ONE ≤ A * Dfs.ONE / Dfs.ONE :=
              Nat.div_le_div_right (Nat.sub_le _ _)
          _ = A := Nat.mul_div_cancel _ Dfs.ONE_pos
      · rw [hx, hx', Nat.le_div_iff_mul_le Dfs.ONE_pos]
        exact le_trans hle (Nat.le_add_right _ _)
    · refine ⟨?_, by omega⟩
      have e1 := (amt_eq_ok hz.sn hv (hVM v hvA)).1
      have e2 := (amt_eq_ok hz.sn hv' (hVM v' hvA')).1
      have hvv : v' ≤ v := by
        rw [e1, e2]
        apply amtF_mono
        gcongr
      rw [hy, hy']
      exact Nat.div_le_div_right (by omega)

example : Linear.swapWithoutFees sampleCurve 30 20 90 .AtoB = .ok ⟨30, 2⟩ ∧
    Linear.swapWithoutFees sampleCurve 100 20 90 .AtoB = .ok ⟨100, 6⟩ ∧
    Linear.swapWithoutFees sampleCurve 1000000 20 90 .AtoB = .ok ⟨8949, 90⟩ := by
  decide +kernel

example : Linear.swapWithoutFees sampleCurve 3 50 100 .BtoA = .ok ⟨3, 46⟩ ∧
    Linear.swapWithoutFees sampleCurve 300 50 100 .BtoA = .ok ⟨9, 100⟩ := by
  decide +kernel

/-! ### C11: validation -/

/-- C11.  Validation accepts exactly the parameters with non-zero slope numerator and denominators
and a slope of at least `10^-18`. -/
theorem C11_params (c : LinearPriceCurve) : (Curve.linear c).validate = .ok () ↔
    0 < c.slope_numerator ∧ 0 < c.slope_denominator ∧ 0 < c.initial_token_a_price_denominator ∧
      (1 : ℚ) / 10 ^ 18 ≤ slope c := by
  have hpos : ∀ x : UInt64, 0 < x ↔ x.toNat ≠ 0 := by
    intro x
    rw [UInt64.lt_iff_toNat_lt]
    simp only [UInt64.toNat_zero]
    omega
  have hval : (Curve.linear c).validate = .ok () ↔ isCurveParamValid c = .ok () := by
    unfold Curve.validate
    rcases hq : isCurveParamValid c with u | _ | _
    · simp [hq]
    · simp [hq]
    · simp [hq]
  rw [hval, valid_iff, hpos, hpos, hpos]
  constructor
  · rintro ⟨h1, h2, h3, h4⟩
    refine ⟨h1, h2, h3, ?_⟩
    have h5 : (0 : ℚ) < sd c := by exact_mod_cast Nat.pos_of_ne_zero h2
    unfold slope
    rw [div_le_div_iff₀ (by norm_num) h5, one_mul]
    have h6 : (sd c : ℚ) ≤ sn c * Dfs.ONE := by exact_mod_cast h4
    rw [Dfs.ONE_val] at h6
    norm_num at h6 ⊢
    exact h6
  · rintro ⟨h1, h2, h3, h4⟩
    refine ⟨h1, h2, h3, ?_⟩
    have h5 : (0 : ℚ) < sd c := by exact_mod_cast Nat.pos_of_ne_zero h2
    unfold slope at h4
    rw [div_le_div_iff₀ (by norm_num) h5, one_mul] at h4
    have h6 : (sd c : ℚ) ≤ sn c * Dfs.ONE := by
      rw [Dfs.ONE_val]
      norm_num at h4 ⊢
      exact h4
    exact_mod_cast h6

/-- C11, supply part: B must be positive and A zero. -/
theorem C11_supply (c : LinearPriceCurve) (a b : UInt64) :
    (Curve.linear c).validateSupply a b = .ok () ↔ b ≠ 0 ∧ a = 0 := by
  unfold Curve.validateSupply
  simp only []
  by_cases hb : b = 0
  · simp [hb]
  · by_cases ha : a = 0
    · simp [ha, hb]
    · simp [ha, hb]

example : (Curve.linear ⟨1, 1000000000000000000, 0, 1⟩).validate = .ok () ∧
    (Curve.linear ⟨1, 1000000000000000001, 0, 1⟩).validate = .error .InvalidCurve := by
  decide +kernel

/-! ### C44: no overflow in the curve position -/

/-- Raw radicand of the curve position: `price² + 2·slope·A` in units of `10^-18`, both terms
rounded down. -/
def radicand (c : LinearPriceCurve) (A : Nat) : Nat :=
  c.initial_token_a_price_numerator.toNat ^ 2 * 10 ^ 18 /
      c.initial_token_a_price_denominator.toNat ^ 2 +
    2 * c.slope_numerator.toNat * (A * 10 ^ 18) / c.slope_denominator.toNat

/-- C44.  Rounding down the position always exists. -/
theorem C44_down_total (c : LinearPriceCurve) (hv : isCurveParamValid c = .ok ()) (A : Nat)
    (hA : A < 2 ^ 65) : ∃ b, bValue c (A * 10 ^ 18) false = .ok b :=
  bValue_down_total (nz_of_valid hv) (show A < 36893488147419103232 from hA)

/-- C44.  Rounding up the position never reports an arithmetic failure, and aborts exactly when the
radicand hits the conversion overflow of the square root (C09). -/
theorem C44_up_iff (c : LinearPriceCurve) (hv : isCurveParamValid c = .ok ()) (A : Nat)
    (hA : A < 2 ^ 65) :
    bValue c (A * 10 ^ 18) true ≠ .none ∧
    (bValue c (A * 10 ^ 18) true = .panic ↔
      ∃ h, 1 ≤ h ∧ (2 ^ 64 - 1) * 4 ^ h < radicand c A ∧ radicand c A < 2 ^ 64 * 4 ^ h) := by
  have hz := nz_of_valid hv
  have hA' : A < 36893488147419103232 := hA
  have e : bValue c (A * Dfs.ONE) true = _ :=
    bValue_eq c hz.sn hz.sd hz.pd (whole_le_AMAX hA') true
  have er : rad c (A * Dfs.ONE) = radicand c A := by
    unfold rad radicand
    rw [Nat.pow_two, Nat.pow_two]
    rfl
  have hlt := rad_lt c (whole_le_AMAX hA')
  have e18 : A * 10 ^ 18 = A * Dfs.ONE := rfl
  rw [e18, e, er] at *
  have h1 := Dfs.sqrtU64_ne_none true hlt
  have h2 := Dfs.sqrtU64_up_panic_iff hlt
  rw [← h2]
  rcases hq : Dfs.sqrtU64 (radicand c A) true with v | _ | _
  · rw [Res.ok_bind]
    simp
  · exact absurd hq h1
  · rw [Res.panic_bind]
    simp

/-- The abort case is reachable on a validated curve with ordinary-looking parameters (slope about
4.1, price 0): a pool holding exactly 9 token A can neither be bought from nor sold to. -/
theorem C44_stuck :
    isCurveParamValid ⟨8198552921648689607, 2000000000000000000, 0, 1⟩ = .ok () ∧
    ∀ s B, Linear.swapWithoutFees ⟨8198552921648689607, 2000000000000000000, 0, 1⟩ s 9 B .AtoB =
        .panic ∧
      Linear.swapWithoutFees ⟨8198552921648689607, 2000000000000000000, 0, 1⟩ s B 9 .BtoA =
        .panic := by
  refine ⟨by decide +kernel, fun s B => ?_⟩
  have hn : Dfs.new 9 = .ok (9 * Dfs.ONE) := by decide +kernel
  have hb : bValue ⟨8198552921648689607, 2000000000000000000, 0, 1⟩ (9 * Dfs.ONE) true = .panic := by
    decide +kernel
  constructor
  · unfold Linear.swapWithoutFees swapAToB
    simp only []
    rw [hn, Res.ok_bind, hb, Res.panic_bind, Res.panic_bind]
  · unfold Linear.swapWithoutFees swapBToA
    simp only []
    rw [hn, Res.ok_bind, hb, Res.panic_bind, Res.panic_bind]

end Props
end Verif
