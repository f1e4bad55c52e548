import Verif.Model.Value
import Verif.Spec.Live
import Verif.Props.Accuracy
import Verif.Props.Curves

/-
C65: the curves' own measure of value.
-/

namespace Verif
namespace Props
open Spec
open Linear hiding price

/-- Balances of token A and token B, given in the order of the trade. -/
def sideA (x y : Nat) : TradeDirection → Nat
  | .AtoB => x
  | .BtoA => y
def sideB (x y : Nat) : TradeDirection → Nat
  | .AtoB => y
  | .BtoA => x

/-- A square root that respects the order of whole numbers (C105 shows that the library's does). -/
def MonotoneRoot (e : SplEnv) : Prop :=
  ∀ m n a b, m ≤ n → e.sqrt (m * 1000000000000) = .ok a → e.sqrt (n * 1000000000000) = .ok b → a ≤ b

/-- C65, the full claim: no swap on a pool with tokens on both sides lowers `normalized_value`. -/
def C65_for (c : Curve) : Prop :=
  ∀ (e : SplEnv), MonotoneRoot e → ∀ (s x y : Nat) (dir : TradeDirection) (f : Fees) (r : SwapResult)
    (v v' : Nat), s < 2 ^ 64 → x < 2 ^ 64 → y < 2 ^ 64 → 0 < x → 0 < y →
    c.swap e s x y dir f = .ok r →
    c.normalizedValue e (sideA x y dir) (sideB x y dir) = .ok v →
    c.normalizedValue e (afterA r dir) (afterB r dir) = .ok v' → v ≤ v'
def C65_statement : Prop := ∀ c : Curve, c.validate = .ok () → C65_for c

theorem price_value {p : UInt64} {A B nv : Nat} (h : ConstantPrice.normalizedValue p A B = .ok nv) :
    ∃ o, nv = worth p.toNat A B / 2 * o ∧ o = Spl.ONE := by
  unfold ConstantPrice.normalizedValue at h
  rw [Res.bind_eq_ok] at h
  obtain ⟨bv, hbv, h⟩ := h
  obtain ⟨hbl, ebv⟩ := cmul_eq_ok.1 hbv
  split at h
  · rename_i hgt
    exfalso
    rw [← ebv] at hbl
    rw [U128_val] at hbl hgt
    rw [U64_val] at hgt
    omega
  · rw [Res.bind_eq_ok] at h
    obtain ⟨s, hs, h⟩ := h
    rw [Res.bind_eq_ok] at h
    obtain ⟨v, hv, h⟩ := h
    have es := (cadd_eq_ok.1 hs).2
    have ev := (cdiv_eq_ok.1 hv).2
    unfold Spl.new at h
    generalize Spl.ONE = o at *
    refine ⟨o, ?_, rfl⟩
    rw [(cmul_eq_ok.1 h).2, ev, es, ebv]
    unfold worth; rw [Nat.mul_comm B]

/-- Whole numbers are multiplied exactly. -/
theorem whole_mul {o a b m : Nat} (ho : o = Spl.ONE) (hA : a < 2 ^ 65) (hB : b < 2 ^ 66)
    (h : Spl.mul (a * o) (b * o) = .ok m) : m = a * b * o := by
  have h0 : 0 < o := by rw [ho]; decide
  have e1 : a * o * (b * o) = a * b * o * o := by ring
  have hl : 2 ^ 65 * 2 ^ 66 * o * o + o < U256 := by rw [ho]; decide +kernel
  have hlt : a * b * o * o + o < U256 := by
    have h1 : a * b ≤ 2 ^ 65 * 2 ^ 66 := (Nat.mul_lt_mul'' hA hB).le
    exact lt_of_le_of_lt (Nat.add_le_add_right (Nat.mul_le_mul_right _ (Nat.mul_le_mul_right _ h1)) _) hl
  unfold Spl.mul at h
  rw [← ho] at h
  generalize a * b * o = w at *
  generalize hU : U256 = U at *
  have hh : o / 2 < o := Nat.div_lt_self h0 (by decide)
  have hm : cmul U (a * o) (b * o) = .ok (w * o) := by rw [cmul_ok (by rw [e1]; omega), e1]
  rw [hm] at h
  simp only [] at h
  rw [cadd_ok (by omega), Res.ok_bind, cdiv_ok (by omega)] at h
  rw [← Res.ok.inj h, Nat.add_comm, Nat.add_mul_div_right _ _ h0, Nat.div_eq_of_lt hh, Nat.zero_add]

theorem product_value {e : SplEnv} {A B v : Nat} (hA : A < 2 ^ 65) (hB : B < 2 ^ 66)
    (h : ConstantProduct.normalizedValue e A B = .ok v) :
    ∃ o, e.sqrt (A * B * o) = .ok v ∧ o = Spl.ONE := by
  unfold ConstantProduct.normalizedValue Spl.new at h
  generalize ho : Spl.ONE = o at *
  refine ⟨o, ?_, rfl⟩
  rw [Res.bind_eq_ok] at h
  obtain ⟨a, ha, h⟩ := h
  rw [Res.bind_eq_ok] at h
  obtain ⟨b, hb, h⟩ := h
  rw [Res.bind_eq_ok] at h
  obtain ⟨m, hm, h⟩ := h
  rw [(cmul_eq_ok.1 ha).2, (cmul_eq_ok.1 hb).2] at hm
  rw [← whole_mul ho.symm hA hB hm]; exact h

theorem product_le {e : SplEnv} (he : MonotoneRoot e) {A B A' B' v v' : Nat} (hA : A < 2 ^ 65)
    (hB : B < 2 ^ 66) (hA' : A' < 2 ^ 65) (hB' : B' < 2 ^ 66) (hle : A * B ≤ A' * B')
    (h : ConstantProduct.normalizedValue e A B = .ok v)
    (h' : ConstantProduct.normalizedValue e A' B' = .ok v') : v ≤ v' := by
  obtain ⟨o, h1, ho⟩ := product_value hA hB h
  obtain ⟨o', h2, ho'⟩ := product_value hA' hB' h'
  rw [ho] at h1
  rw [ho'] at h2
  exact he _ _ _ _ hle h1 h2

/-- C65 on constant-price pools (with any fees). -/
theorem C65_price (p : UInt64) : C65_for (.constantPrice p) := by
  intro e _ s x y dir f r v v' _ _ _ _ _ h h1 h2
  obtain ⟨o, h1, ho⟩ := price_value h1
  obtain ⟨o', h2, ho'⟩ := price_value h2
  rw [h1, h2, ho', ← ho]
  refine Nat.mul_le_mul_right _ (Nat.div_le_div_right ?_)
  have := C16_swap e p s x y dir f r h
  cases dir
  · simp only [sideA, sideB, afterA, afterB, worthDir] at *
    omega
  · simp only [sideA, sideB, afterA, afterB, worthDir] at *
    omega

theorem after_lt {e : SplEnv} {c : Curve} {s x y : Nat} {dir : TradeDirection} {f : Fees}
    {r : SwapResult} (hs : s < 2 ^ 64) (hx : x < 2 ^ 64) (hy : y < 2 ^ 64)
    (h : c.swap e s x y dir f = .ok r) :
    r.new_swap_source_amount < 2 ^ 65 ∧ r.new_swap_destination_amount < 2 ^ 64 := by
  have hb := C07_swap_bounds _ _ _ _ _ _ _ _ h
  constructor <;> omega

/-- C65 on constant-product pools. -/
theorem C65_product : C65_for .constantProduct := by
  intro e he s x y dir f r v v' hs hx hy hx0 hy0 h h1 h2
  obtain ⟨a1, a2⟩ := after_lt hs hx hy h
  have hp := C17_product e s x y dir f r h hx0
  cases dir
  · exact product_le (A := x) (B := y) (A' := r.new_swap_source_amount)
      (B' := r.new_swap_destination_amount) he (by omega) (by omega) a1 (by omega) hp h1 h2
  · refine product_le (A := y) (B := x) (A' := r.new_swap_destination_amount)
      (B' := r.new_swap_source_amount) he (by omega) (by omega) (by omega) (by omega) ?_ h1 h2
    rw [Nat.mul_comm]
    exact le_trans hp (le_of_eq (Nat.mul_comm _ _))

theorem offset_value {e : SplEnv} {o : UInt64} {A B v : Nat}
    (h : Offset.normalizedValue e o A B = .ok v) :
    ConstantProduct.normalizedValue e A (B + o.toNat) = .ok v := by
  unfold Offset.normalizedValue at h
  rw [Res.bind_eq_ok] at h
  obtain ⟨b, hb, h⟩ := h
  rw [(cadd_eq_ok.1 hb).2] at h
  exact h

/-- C65 on offset pools. -/
theorem C65_offset (o : UInt64) : C65_for (.offset o) := by
  intro e he s x y dir f r v v' hs hx hy hx0 hy0 h h1 h2
  have h1 := offset_value h1
  have h2 := offset_value h2
  have ho := o.toNat_lt
  obtain ⟨a1, a2⟩ := after_lt hs hx hy h
  obtain ⟨p1, p2⟩ := C17_offset e o s x y f r
  cases dir
  · exact product_le (A := x) (B := y + o.toNat) (A' := r.new_swap_source_amount)
      (B' := r.new_swap_destination_amount + o.toNat) he (by omega) (by omega) a1 (by omega)
      (p1 h hx0) h1 h2
  · refine product_le (A := y) (B := x + o.toNat) (A' := r.new_swap_destination_amount)
      (B' := r.new_swap_source_amount + o.toNat) he (by omega) (by omega) (by omega) (by omega) ?_
      h1 h2
    rw [Nat.mul_comm]
    exact le_trans (p2 h (by omega)) (le_of_eq (Nat.mul_comm _ _))

/-- An exact integer root, for the examples. -/
def isqrtSpl : SplEnv := ⟨true, fun n => .ok (Nat.sqrt (n * Spl.ONE))⟩
theorem isqrtSpl_mono : MonotoneRoot isqrtSpl := by
  intro m n a b h ha hb
  have ha : Res.ok (Nat.sqrt (m * 1000000000000 * Spl.ONE)) = .ok a := ha
  have hb : Res.ok (Nat.sqrt (n * 1000000000000 * Spl.ONE)) = .ok b := hb
  rw [← Res.ok.inj ha, ← Res.ok.inj hb]
  exact Nat.sqrt_le_sqrt (Nat.mul_le_mul_right _ (Nat.mul_le_mul_right _ h))


example : Curve.constantProduct.swap isqrtSpl 100 1000 5000 .AtoB ⟨1, 100, 1, 100, 0, 1, 0, 1⟩ =
    .ok ⟨1100, 4554, 100, 446, 1, 1⟩ ∧
    Curve.constantProduct.normalizedValue isqrtSpl 1000 5000 = .ok 2236067977499789 ∧
    Curve.constantProduct.normalizedValue isqrtSpl 1100 4554 = .ok 2238168894431338 := by
  decide +kernel

example : (Curve.offset 7).swap isqrtSpl 100 1000 5000 .BtoA ⟨1, 100, 1, 100, 0, 1, 0, 1⟩ =
    .ok ⟨1100, 4557, 100, 443, 1, 1⟩ ∧
    (Curve.offset 7).normalizedValue isqrtSpl 5000 1000 = .ok 2243880567231687 ∧
    (Curve.offset 7).normalizedValue isqrtSpl 4557 1100 = .ok 2246018477216961 := by
  decide +kernel

example : (Curve.constantPrice 3).swap isqrtSpl 100 1000 5000 .AtoB ⟨1, 100, 1, 100, 0, 1, 0, 1⟩ =
    .ok ⟨1098, 4968, 98, 32, 1, 1⟩ ∧
    (Curve.constantPrice 3).normalizedValue isqrtSpl 1000 5000 = .ok 8000000000000000 ∧
    (Curve.constantPrice 3).normalizedValue isqrtSpl 1098 4968 = .ok 8001000000000000 := by
  decide +kernel

/-- C65 fails for the stable curve: the computed invariant drops by one unit. -/
theorem C65_stable_false : ¬ C65_for (.stable 1000) := by
  intro h
  have := h isqrtSpl isqrtSpl_mono 1 10000 1000 .AtoB noFees ⟨10001, 998, 1, 2, 0, 0⟩
    (10988 * Spl.ONE) (10987 * Spl.ONE) (by decide) (by decide) (by decide) (by decide) (by decide)
    (by decide +kernel) (by decide +kernel) (by decide +kernel)
  exact absurd this (by decide)

/-- C65 fails for the linear curve as well: only the leading 32 bits of the value are kept, so a
purchase that carries the value past a power of two halves the measure. -/
theorem C65_linear_false : ¬ C65_for (.linear ⟨2, 1, 3, 1⟩) := by
  intro h
  have := h isqrtSpl isqrtSpl_mono 13 4 1179 .AtoB noFees ⟨17, 1178, 13, 1, 0, 0⟩
    4292814992 2148021816 (by decide) (by decide) (by decide) (by decide) (by decide)
    (by decide +kernel) (by decide +kernel) (by decide +kernel)
  exact absurd this (by decide)

theorem C65_false : ¬ C65_statement := fun h =>
  C65_linear_false (h _ (by decide +kernel))

/-! ### What does hold on linear pools -/

theorem total_value {c : LinearPriceCurve} {A B t : Nat} (h : Linear.totalValue c A B = .ok t) :
    ∃ b, bValue c (A * Dfs.ONE) false = .ok b ∧ t = b + B * Dfs.ONE := by
  unfold Linear.totalValue at h
  rw [Res.bind_eq_ok] at h
  obtain ⟨a, ha, h⟩ := h
  rw [Res.bind_eq_ok] at h
  obtain ⟨b, hb, h⟩ := h
  rw [Res.bind_eq_ok] at h
  obtain ⟨w, hw, h⟩ := h
  rw [(Dfs.new_eq_ok.1 ha).2] at hb
  refine ⟨b, hb, ?_⟩
  rw [(cadd_eq_ok.1 h).2, (Dfs.new_eq_ok.1 hw).2]

/-- C65 on linear pools, before the truncation to 32 bits: a purchase that leaves token B in the
pool never lowers the total value.  Missing: purchases of everything, and the truncated measure
(`C65_linear_false`). -/
theorem C65_linear_buy_partial (e : SplEnv) (c : LinearPriceCurve)
    (hv : isCurveParamValid c = .ok ()) (s A B : Nat) (f : Fees) (r : SwapResult) (t t' : Nat)
    (hs : s < 2 ^ 64) (hA : A < 2 ^ 64) (hB : r.new_swap_destination_amount ≠ 0)
    (h : (Curve.linear c).swap e s A B .AtoB f = .ok r)
    (h1 : Linear.totalValue c A B = .ok t)
    (h2 : Linear.totalValue c r.new_swap_source_amount r.new_swap_destination_amount = .ok t') :
    t ≤ t' := by
  obtain ⟨q, _, _, hfs, h4, h5, h6, h7, h8, h9⟩ := Curve.swap_inv h
  have h4' : Linear.swapWithoutFees c (s - (r.trade_fee + r.owner_fee)) A B .AtoB = .ok q := h4
  obtain ⟨hq, _, _⟩ := swapWithoutFees_buy h4'
  obtain ⟨b, hb, et⟩ := total_value h1
  obtain ⟨b', hb', et'⟩ := total_value h2
  obtain ⟨b0, hb0, hc⟩ := swapAToB_ok hq
  have hA' : A < 36893488147419103232 := by omega
  have m1 := bValue_down_le_up (nz_of_valid hv) hA' hb hb0
  rcases hc with ⟨hy, _⟩ | ⟨hx, b1, hb1, hle, hy⟩
  · exact absurd (by omega) hB
  · have m2 := bValue_mono (nz_of_valid hv) (by omega) (by omega) hb1 hb'
    have m3 : q.destination_amount_swapped * Dfs.ONE ≤ b1 - b0 := by
      rw [hy]; exact Nat.div_mul_le_self _ _
    have m4 : r.new_swap_destination_amount * Dfs.ONE + q.destination_amount_swapped * Dfs.ONE =
        B * Dfs.ONE := by
      rw [← Nat.add_mul]; congr 1; omega
    rw [et, et']
    generalize Dfs.ONE = o at *
    omega

/-- The purchase of `C65_linear_false`, in which the measure halves, raises the total value. -/
example : Linear.totalValue ⟨2, 1, 3, 1⟩ 4 1179 = .ok 1180000000000000000000 ∧
    Linear.totalValue ⟨2, 1, 3, 1⟩ 17 1178 = .ok 1180887482192000000000 := by decide +kernel

theorem costR_strict {c : LinearPriceCurve} (hv : isCurveParamValid c = .ok ()) {x y : ℝ}
    (hx : 0 ≤ x) (h : x < y) : costR c x < costR c y := by
  have hs := slope_pos hv
  have hp := price_nonneg c
  unfold costR
  have h1 : ((slope c : ℚ) : ℝ) / 2 * x ^ 2 < ((slope c : ℚ) : ℝ) / 2 * y ^ 2 := by gcongr
  have h2 : ((Spec.price c : ℚ) : ℝ) * x ≤ ((Spec.price c : ℚ) : ℝ) * y := by gcongr
  linarith

/-- C65 on linear pools, before the truncation: a sale lowers the total value by at most half a
token B plus the blur of the square root at the final balance, on representable curves. -/
theorem C65_linear_sell_partial (e : SplEnv) (c : LinearPriceCurve)
    (hv : isCurveParamValid c = .ok ()) (hr : Representable c) (s A B : Nat) (f : Fees)
    (r : SwapResult) (t t' : Nat) (hA : A < 2 ^ 64)
    (h : (Curve.linear c).swap e s B A .BtoA f = .ok r)
    (h1 : Linear.totalValue c A B = .ok t)
    (h2 : Linear.totalValue c r.new_swap_destination_amount r.new_swap_source_amount = .ok t') :
    (t : ℝ) / 10 ^ 18 <
      (t' : ℝ) / 10 ^ 18 + 1 / 2 + blur c r.new_swap_destination_amount + 2 / 10 ^ 18 := by
  obtain ⟨q, _, _, hfs, h4, h5, h6, h7, h8, h9⟩ := Curve.swap_inv h
  have h4' : Linear.swapWithoutFees c (s - (r.trade_fee + r.owner_fee)) B A .BtoA = .ok q := h4
  obtain ⟨H, P, Q, hrep⟩ := Rep_of_spec (nz_of_valid hv) hr
  have hO : ((Dfs.ONE : Nat) : ℝ) = 10 ^ 18 := by rw [Dfs.ONE_val]; norm_num
  have ho := Linear.oneR_pos
  obtain ⟨b, hb, et⟩ := total_value h1
  obtain ⟨b', hb', et'⟩ := total_value h2
  have hA' : A < 36893488147419103232 := by omega
  obtain ⟨p1, p2⟩ := hrep.down_bounds hA' hb
  obtain ⟨q1, q2⟩ := hrep.down_bounds (by omega) hb'
  have hbl := blur_nonneg hv r.new_swap_destination_amount
  have hn : (r.new_swap_source_amount : ℝ) ≥ B + q.source_amount_swapped := by
    have : B + q.source_amount_swapped ≤ r.new_swap_source_amount := by omega
    exact_mod_cast this
  have e1 : (t : ℝ) / Dfs.ONE = (b : ℝ) / Dfs.ONE + B := by
    rw [et]; push_cast; field_simp
  have e2 : (t' : ℝ) / Dfs.ONE = (b' : ℝ) / Dfs.ONE + r.new_swap_source_amount := by
    rw [et']; push_cast; field_simp
  have hpos : (0 : ℝ) < 1 / Dfs.ONE := by positivity
  have e3 : (2 : ℝ) / Dfs.ONE = 1 / Dfs.ONE + 1 / Dfs.ONE := by ring
  have hcase := C47_sell c hv hr _ A B q hA h4'
  rw [← hO] at hcase ⊢
  rw [e1, e2, e3]
  rcases hcase with ⟨hx, n, n1, _, hy⟩ | ⟨hy, _, n1, _⟩
  · have hpn : (n : ℝ) ≤ position c r.new_swap_destination_amount := by
      have hle : cost c n ≤ (r.new_swap_destination_amount : ℚ) := by
        have h10 : (q.destination_amount_swapped : ℚ) ≤ (A : ℚ) - cost c n := by
          have := Int.floor_le ((A : ℚ) - cost c n)
          rw [← hy] at this; exact_mod_cast this
        have h11 : (r.new_swap_destination_amount : ℚ) = A - q.destination_amount_swapped := by
          rw [h9, h6, Nat.cast_sub (by omega)]
        rw [h11]; linarith
      by_contra hlt
      rw [not_le] at hlt
      have m := costR_strict hv (position_nonneg hv r.new_swap_destination_amount) hlt
      rw [(C45_position_unique c hv _ _ (position_nonneg hv _)).2 rfl] at m
      have hc : costR c n = ((cost c n : ℚ) : ℝ) := by
        unfold costR cost; push_cast; ring
      rw [hc] at m
      have : ((cost c n : ℚ) : ℝ) ≤ (r.new_swap_destination_amount : ℝ) := by exact_mod_cast hle
      linarith
    have hxs : (q.source_amount_swapped : ℝ) = ((s - (r.trade_fee + r.owner_fee) : Nat) : ℝ) := by
      rw [hx]
    linarith
  · have hb0 : (0 : ℝ) ≤ (b' : ℝ) / Dfs.ONE := by positivity
    linarith

example : (Curve.linear ⟨2, 1, 3, 1⟩).swap isqrtSpl 2 98 20 .BtoA noFees =
    .ok ⟨100, 10, 2, 10, 0, 0⟩ ∧
    Linear.totalValue ⟨2, 1, 3, 1⟩ 20 98 = .ok 101216990566000000000 ∧
    Linear.totalValue ⟨2, 1, 3, 1⟩ 10 100 = .ok 102000000000000000000 := by decide +kernel

/-! ### The truncated measure forgets the magnitude -/

theorem bits_shift {v : Nat} (hv : 0 < v) (k : Nat) : Dfs.bits (v * 2 ^ k) = Dfs.bits v + k := by
  induction k with
  | zero => simp
  | succ k ih =>
    have h1 : 0 < v * 2 ^ k := Nat.mul_pos hv (Nat.two_pow_pos k)
    rw [show v * 2 ^ (k + 1) = 2 * (v * 2 ^ k) by ring, ← Nat.add_assoc, ← ih]
    unfold Dfs.bits
    rw [if_neg (by omega), if_neg (by omega), Nat.log2_two_mul (by omega)]

theorem truncate_shift {v : Nat} (hv : 32 ≤ Dfs.bits v) (k : Nat) :
    Linear.truncate32 (v * 2 ^ k) = Linear.truncate32 v := by
  have h0 : 0 < v := by
    rcases Nat.eq_zero_or_pos v with h | h
    · rw [h] at hv; exact absurd hv (by decide)
    · exact h
  unfold Linear.truncate32
  rw [bits_shift h0, Nat.shiftRight_eq_div_pow, Nat.shiftRight_eq_div_pow]
  have key : v * 2 ^ k / 2 ^ (Dfs.bits v + k - 32) = v / 2 ^ (Dfs.bits v - 32) := by
    rw [show Dfs.bits v + k - 32 = (Dfs.bits v - 32) + k by omega, Nat.pow_add]
    exact Nat.mul_div_mul_right _ _ (Nat.two_pow_pos k)
  rw [key]
  by_cases hb : Dfs.bits v > 32
  · rw [if_pos hb, if_pos (by omega)]
  · have : Dfs.bits v = 32 := by omega
    rw [if_neg hb, this]
    split
    · simp
    · rename_i h
      have : k = 0 := by omega
      rw [this]; simp

theorem value_of_total {c : LinearPriceCurve} {A B t : Nat} (h : Linear.totalValue c A B = .ok t) :
    Linear.normalizedValue c A B = .ok (Linear.truncate32 t) := by
  unfold Linear.normalizedValue
  rw [h, Res.ok_bind]

/-- C65.  The linear curve's measure cannot tell a pool from one with a power of two times as many
tokens: with no token A locked, `B` and `B·2^k` token B measure the same. -/
theorem C65_blind (c : LinearPriceCurve) (hv : isCurveParamValid c = .ok ())
    (hr : Representable c) (B k : Nat) (h0 : 0 < B) (hB : B * 2 ^ k < 2 ^ 128) :
    Linear.normalizedValue c 0 (B * 2 ^ k) = Linear.normalizedValue c 0 B ∧
      ∃ v, Linear.normalizedValue c 0 B = .ok v := by
  obtain ⟨H, P, Q, hrep⟩ := Rep_of_spec (nz_of_valid hv) hr
  obtain ⟨b, hb⟩ := C44_down_total c hv 0 (by decide)
  have hb : bValue c (0 * Dfs.ONE) false = .ok b := hb
  have ho := Linear.oneR_pos
  have hz : b = 0 := by
    obtain ⟨_, p2⟩ := hrep.down_bounds (by decide) hb
    rw [← (C45_position_unique c hv 0 0 le_rfl).1 (by unfold costR; simp)] at p2
    rcases Nat.eq_zero_or_pos b with h | h
    · exact h
    · exfalso
      have : (0 : ℝ) < (b : ℝ) / Dfs.ONE := by positivity
      linarith
  have tot : ∀ n, n < 2 ^ 128 → Linear.totalValue c 0 n = .ok (n * Dfs.ONE) := by
    intro n hn
    have hlt : n * Dfs.ONE < U256 :=
      lt_of_lt_of_le (Nat.mul_lt_mul_of_pos_right hn Dfs.ONE_pos) (by decide +kernel)
    have hA : Dfs.new 0 = .ok (0 * Dfs.ONE) := Dfs.new_ok (by decide +kernel)
    unfold Linear.totalValue
    rw [hA, Res.ok_bind, hb, hz, Res.ok_bind, Dfs.new_ok hlt, Res.ok_bind]
    unfold Dfs.add
    rw [cadd_ok (by rw [Nat.zero_add]; exact hlt), Nat.zero_add]
  have hB1 : B < 2 ^ 128 := lt_of_le_of_lt (Nat.le_mul_of_pos_right _ (Nat.two_pow_pos k)) hB
  have hbits : 32 ≤ Dfs.bits (B * Dfs.ONE) := by
    have h1 := Dfs.lt_two_pow_bits (B * Dfs.ONE)
    by_contra hlt
    have h2 : 2 ^ Dfs.bits (B * Dfs.ONE) ≤ 2 ^ 32 := Nat.pow_le_pow_right (by decide) (by omega)
    have h3 : Dfs.ONE ≤ B * Dfs.ONE := Nat.le_mul_of_pos_left _ h0
    have h4 : 2 ^ 32 ≤ Dfs.ONE := by decide +kernel
    omega
  have e : B * 2 ^ k * Dfs.ONE = B * Dfs.ONE * 2 ^ k := by ring
  have t1 := tot _ hB
  have t2 := tot _ hB1
  rw [e] at t1
  have hts := truncate_shift hbits k
  refine ⟨?_, _, value_of_total t2⟩
  rw [value_of_total t1, value_of_total t2, hts]

example : Linear.normalizedValue ⟨2, 1, 3, 1⟩ 0 1000 = .ok 3637978807 ∧
    Linear.normalizedValue ⟨2, 1, 3, 1⟩ 0 1024000 = .ok 3637978807 := by decide +kernel

end Props
end Verif
