import Verif.Lemmas.Exchange
import Verif.Lemmas.Stable
import Verif.Lemmas.LinearSwap
import Verif.Props.Curves
import Mathlib.Tactic.NormNum

/-
C49-C51: both sides of a swap are positive, exact pricing of the value-based curves, and the stable
curve's invariant.
-/

namespace Verif
namespace Props
open Spec

/-! ### C49 -/

/-- The balance a curve trades the offer against is not empty (always so where the price does not
depend on it). -/
def Quoted (c : Curve) (x : Nat) (dir : TradeDirection) : Prop :=
  match c, dir with
  | .constantProduct, _ => 0 < x
  | .offset _, .AtoB => 0 < x
  | .offset o, .BtoA => 0 < x + o.toNat
  | .constantPrice _, _ => True
  | .linear _, _ => True
  | .stable _, _ => True

theorem taken_pos {e : SplEnv} {s x y : Nat} {q : SwapWithoutFeesResult}
    (h : ConstantProduct.swap e s x y = .ok q) (hx : 0 < x) : 0 < q.source_amount_swapped := by
  obtain ⟨_, h2, h3, h4⟩ := ConstantProduct.swap_ok h
  have h4 := h4 hx
  by_contra hc
  have e0 : q.source_amount_swapped = 0 := by omega
  rw [e0, Nat.add_zero] at h4
  have := Nat.le_of_mul_le_mul_left h4 hx
  omega

/-- C49.  Every curve but the stable one refuses to pay nothing. -/
theorem C49_pays (e : SplEnv) (c : Curve) (hc : ∀ amp, c ≠ .stable amp) (s x y : Nat)
    (dir : TradeDirection) (f : Fees) (r : SwapResult) (h : c.swap e s x y dir f = .ok r) :
    0 < r.destination_amount_swapped := by
  obtain ⟨q, _, _, _, h4, _, h6, _, _, _⟩ := Curve.swap_inv h
  rw [h6]
  cases c with
  | constantProduct => exact Nat.pos_of_ne_zero (ConstantProduct.swap_ok h4).2.2.1
  | constantPrice p => exact Nat.pos_of_ne_zero (ConstantPrice.swap_ok h4).2.2.1
  | stable amp => exact absurd rfl (hc amp)
  | offset o =>
    unfold Curve.swapWithoutFees at h4
    simp only [] at h4
    unfold Offset.swapWithoutFees at h4
    cases dir with
    | AtoB =>
      simp only [] at h4
      rw [Res.ok_bind, Res.bind_eq_ok] at h4
      obtain ⟨_, _, h4⟩ := h4
      exact Nat.pos_of_ne_zero (ConstantProduct.swap_ok h4).2.2.1
    | BtoA =>
      simp only [] at h4
      rw [Res.bind_eq_ok] at h4
      obtain ⟨_, _, h4⟩ := h4
      rw [Res.ok_bind] at h4
      exact Nat.pos_of_ne_zero (ConstantProduct.swap_ok h4).2.2.1
  | linear l =>
    unfold Curve.swapWithoutFees at h4
    simp only [] at h4
    cases dir with
    | AtoB => exact Nat.pos_of_ne_zero (Linear.swapWithoutFees_buy h4).2.2
    | BtoA => exact Nat.pos_of_ne_zero (Linear.swapWithoutFees_sell h4).2.2

/-- C49.  Every curve but the stable one takes something beyond the fees, provided the pool holds
something to trade it against. -/
theorem C49_takes (e : SplEnv) (c : Curve) (hc : ∀ amp, c ≠ .stable amp) (s x y : Nat)
    (dir : TradeDirection) (f : Fees) (r : SwapResult) (h : c.swap e s x y dir f = .ok r)
    (hq : Quoted c x dir) : r.trade_fee + r.owner_fee < r.source_amount_swapped := by
  obtain ⟨q, _, _, _, h4, h5, _, _, _, _⟩ := Curve.swap_inv h
  have key : 0 < q.source_amount_swapped := by
    cases c with
    | constantProduct => exact taken_pos h4 hq
    | constantPrice p => exact Nat.pos_of_ne_zero (ConstantPrice.swap_ok h4).2.1
    | stable amp => exact absurd rfl (hc amp)
    | offset o =>
      unfold Curve.swapWithoutFees at h4
      simp only [] at h4
      unfold Offset.swapWithoutFees at h4
      cases dir with
      | AtoB =>
        simp only [] at h4
        rw [Res.ok_bind, Res.bind_eq_ok] at h4
        obtain ⟨_, _, h4⟩ := h4
        exact taken_pos h4 hq
      | BtoA =>
        simp only [] at h4
        rw [Res.bind_eq_ok] at h4
        obtain ⟨ss, hss, h4⟩ := h4
        rw [Res.ok_bind] at h4
        refine taken_pos h4 ?_
        rw [(cadd_eq_ok.1 hss).2]
        exact hq
    | linear l =>
      unfold Curve.swapWithoutFees at h4
      simp only [] at h4
      cases dir with
      | AtoB => exact Nat.pos_of_ne_zero (Linear.swapWithoutFees_buy h4).2.1
      | BtoA => exact Nat.pos_of_ne_zero (Linear.swapWithoutFees_sell h4).2.1
  omega

/-- C49.  The stable curve takes the offer and pays nothing when the payment rounds to zero. -/
theorem C49_stable_pays_nothing :
    (Curve.stable 1).swap sampleSpl 5 100 3 .AtoB noFees = .ok ⟨105, 3, 5, 0, 0, 0⟩ := by
  decide +kernel

example : (Curve.offset 50).swap sampleSpl 40 1000 100 .AtoB sampleFees =
    .ok ⟨1037, 95, 37, 5, 1, 1⟩ := by decide +kernel
example : Quoted (.offset 50) 1000 .AtoB := by show 0 < 1000; omega

/-! ### C50 -/

/-- C50.  The exact outcome of a constant-product swap with a valid fee schedule: which offers are
accepted, and what is taken and paid. -/
theorem C50_product (e : SplEnv) (s x y : Nat) (dir : TradeDirection) (f : Fees)
    (hv : f.validate = .ok ()) (hs : s < 2 ^ 64) (hx : x < 2 ^ 64) (hy : y < 2 ^ 64) (h0 : 0 < x)
    (r : SwapResult) :
    Curve.constantProduct.swap e s x y dir f = .ok r ↔
      ∃ tf of t d, tf = feeOf f.trade_fee_numerator.toNat f.trade_fee_denominator.toNat s ∧
        of = feeOf f.owner_trade_fee_numerator.toNat f.owner_trade_fee_denominator.toNat s ∧
        tf + of ≤ s ∧ ProductTrade (s - (tf + of)) x y t d ∧ r = settled x y t d tf of := by
  have hU : U64 + U64 < U128 := by decide
  have hs' : s < U64 := hs
  have hx' : x < U64 := hx
  have hm : x * y < U128 := by
    have : x * y < U64 * U64 := Nat.mul_lt_mul'' hx hy
    exact lt_of_lt_of_le this (by decide)
  rw [Curve.swap_iff hv hs hx]
  constructor
  · rintro ⟨tf, of, q, h1, h2, h3, h4, _, h6⟩
    exact ⟨tf, of, _, _, h1, h2, h3, (ConstantProduct.swap_iff h0 hm (by omega) q).1 h4, h6⟩
  · rintro ⟨tf, of, t, d, h1, h2, h3, h4, h6⟩
    have h5 := (ConstantProduct.swap_iff (e := e) h0 hm (by omega) ⟨t, d⟩).2 h4
    exact ⟨tf, of, ⟨t, d⟩, h1, h2, h3, h5, (ConstantProduct.swap_ok h5).2.1, h6⟩

example : ProductTrade 997 5000 7000 997 1163 := by
  refine ⟨by norm_num, by norm_num, by norm_num, by norm_num, ?_, ?_⟩
  · show 5000 * 7000 ≤ (5000 + 997) * (7000 - 1163)
    norm_num
  · intro t ht
    have ht : 5000 * 7000 ≤ (5000 + t) * (7000 - 1163) := ht
    omega
example : feeOf 25 10000 1000 = 2 ∧ feeOf 5 10000 1000 = 1 ∧
    settled 5000 7000 997 1163 2 1 = ⟨6000, 5837, 1000, 1163, 2, 1⟩ := by decide
-- less is taken than offered when a smaller amount buys the same payment
example : Curve.constantProduct.swap sampleSpl 1999 1000 10 .AtoB noFees =
    .ok ⟨2500, 4, 1500, 6, 0, 0⟩ := by decide +kernel

/-- C50.  The exact outcome of a constant-price swap with a valid fee schedule. -/
theorem C50_constant_price (e : SplEnv) (p : UInt64) (s x y : Nat) (dir : TradeDirection) (f : Fees)
    (hv : f.validate = .ok ()) (hs : s < 2 ^ 64) (hx : x < 2 ^ 64) (r : SwapResult) :
    (Curve.constantPrice p).swap e s x y dir f = .ok r ↔
      ∃ tf of t d, tf = feeOf f.trade_fee_numerator.toNat f.trade_fee_denominator.toNat s ∧
        of = feeOf f.owner_trade_fee_numerator.toNat f.owner_trade_fee_denominator.toNat s ∧
        tf + of ≤ s ∧ PriceTrade p.toNat (s - (tf + of)) dir t d ∧ d ≤ y ∧
        r = settled x y t d tf of := by
  have hs' : s < U64 := hs
  rw [Curve.swap_iff hv hs hx]
  constructor
  · rintro ⟨tf, of, q, h1, h2, h3, h4, h5, h6⟩
    exact ⟨tf, of, _, _, h1, h2, h3, (ConstantPrice.swap_iff (by omega) q).1 h4, h5, h6⟩
  · rintro ⟨tf, of, t, d, h1, h2, h3, h4, h5, h6⟩
    exact ⟨tf, of, ⟨t, d⟩, h1, h2, h3,
      (ConstantPrice.swap_iff (p := p) (by omega) ⟨t, d⟩).2 h4, h5, h6⟩

example : PriceTrade 7 997 .AtoB 994 142 ∧ PriceTrade 7 997 .BtoA 997 6979 := by
  refine ⟨⟨by norm_num, by norm_num, ?_⟩, ⟨by norm_num, by norm_num, ?_⟩⟩
  · show 994 = 7 * 142 ∧ 994 ≤ 997 ∧ 997 < 994 + 7
    norm_num
  · show 997 = 997 ∧ 6979 = 7 * 997
    norm_num
example : (Curve.constantPrice 7).swap sampleSpl 1000 5000 7000 .AtoB sampleFees =
    .ok ⟨5997, 6858, 997, 142, 2, 1⟩ := by decide +kernel

/-- C50.  The exact outcome of an offset swap: a constant-product trade with token B shifted, refused
if the shifted product leaves 128 bits or the payment exceeds what the pool really holds. -/
theorem C50_offset (e : SplEnv) (o : UInt64) (s x y : Nat) (f : Fees)
    (hv : f.validate = .ok ()) (hs : s < 2 ^ 64) (hx : x < 2 ^ 64) (hy : y < 2 ^ 64)
    (r : SwapResult) :
    (0 < x → ((Curve.offset o).swap e s x y .AtoB f = .ok r ↔
      ∃ tf of t d, tf = feeOf f.trade_fee_numerator.toNat f.trade_fee_denominator.toNat s ∧
        of = feeOf f.owner_trade_fee_numerator.toNat f.owner_trade_fee_denominator.toNat s ∧
        tf + of ≤ s ∧ x * (y + o.toNat) < 2 ^ 128 ∧
        ProductTrade (s - (tf + of)) x (y + o.toNat) t d ∧ d ≤ y ∧ r = settled x y t d tf of)) ∧
    (0 < x + o.toNat → ((Curve.offset o).swap e s x y .BtoA f = .ok r ↔
      ∃ tf of t d, tf = feeOf f.trade_fee_numerator.toNat f.trade_fee_denominator.toNat s ∧
        of = feeOf f.owner_trade_fee_numerator.toNat f.owner_trade_fee_denominator.toNat s ∧
        tf + of ≤ s ∧ (x + o.toNat) * y < 2 ^ 128 ∧
        ProductTrade (s - (tf + of)) (x + o.toNat) y t d ∧ r = settled x y t d tf of)) := by
  have hs' : s < U64 := hs
  constructor
  · intro h0
    rw [Curve.swap_iff hv hs hx]
    constructor
    · rintro ⟨tf, of, q, h1, h2, h3, h4, h5, h6⟩
      obtain ⟨h7, h8⟩ := (Offset.swap_iff_buy (by omega) h0 hx hy q).1 h4
      exact ⟨tf, of, _, _, h1, h2, h3, h7, h8, h5, h6⟩
    · rintro ⟨tf, of, t, d, h1, h2, h3, h7, h4, h5, h6⟩
      exact ⟨tf, of, ⟨t, d⟩, h1, h2, h3,
        (Offset.swap_iff_buy (e := e) (by omega) h0 hx hy ⟨t, d⟩).2 ⟨h7, h4⟩, h5, h6⟩
  · intro h0
    rw [Curve.swap_iff hv hs hx]
    constructor
    · rintro ⟨tf, of, q, h1, h2, h3, h4, h5, h6⟩
      obtain ⟨h7, h8⟩ := (Offset.swap_iff_sell (by omega) h0 hx q).1 h4
      exact ⟨tf, of, _, _, h1, h2, h3, h7, h8, h6⟩
    · rintro ⟨tf, of, t, d, h1, h2, h3, h7, h4, h6⟩
      have h8 := (Offset.swap_iff_sell (e := e) (by omega) h0 hx ⟨t, d⟩).2 ⟨h7, h4⟩
      refine ⟨tf, of, ⟨t, d⟩, h1, h2, h3, h8, ?_, h6⟩
      show d ≤ y
      obtain ⟨g1, g2, g3, _, _⟩ := h4
      have : d * (s - (tf + of)) ≤ y * (s - (tf + of)) :=
        le_trans (Nat.mul_le_mul_left _ (by omega)) g3
      rcases Nat.eq_zero_or_pos (s - (tf + of)) with hz | hz
      · rw [hz, Nat.mul_zero] at g3
        have := Nat.mul_pos g2 (by omega : 0 < x + o.toNat + (s - (tf + of)))
        rw [hz] at this
        omega
      · exact Nat.le_of_mul_le_mul_right this hz

example : ProductTrade 38 1000 150 35 5 := by
  refine ⟨by norm_num, by norm_num, by norm_num, by norm_num, ?_, ?_⟩
  · show 1000 * 150 ≤ (1000 + 35) * (150 - 5)
    norm_num
  · intro t ht
    have ht : 1000 * 150 ≤ (1000 + t) * (150 - 5) := ht
    omega

/-! ### C51 -/

/-- C51, full statement: a stable swap never lowers the pool's invariant. -/
def C51_statement : Prop :=
  ∀ (e : SplEnv) (amp : UInt64) (s x y : Nat) (dir : TradeDirection) (f : Fees) (r : SwapResult),
    (Curve.stable amp).swap e s x y dir f = .ok r → 0 < x → 0 < y → ∀ D : ℝ, 1 ≤ D →
      StableAtLeast (2 * amp.toNat) x y D →
      StableAtLeast (2 * amp.toNat) r.new_swap_source_amount r.new_swap_destination_amount D

/-- C51.  False: one unit put into a pool of 10000 and 1000 takes out two. -/
theorem C51_false : ¬ C51_statement := by
  intro h
  have h1 : (Curve.stable 1000).swap sampleSpl 1 10000 1000 .AtoB noFees =
    .ok ⟨10001, 998, 1, 2, 0, 0⟩ := by decide +kernel
  have h2 := h _ _ _ _ _ _ _ _ h1 (by norm_num) (by norm_num) 10988 (by norm_num)
  have e1 : (1000 : UInt64).toNat = 1000 := by decide
  rw [e1] at h2
  unfold StableAtLeast at h2
  norm_num at h2

/-- C51.  Round trips through a stable pool without fees can be profitable: one unit in, two out,
the same two in, three out. -/
theorem C51_round_trip_profit :
    (Curve.stable 1000).swap sampleSpl 1 10000 1000 .AtoB noFees = .ok ⟨10001, 998, 1, 2, 0, 0⟩ ∧
    (Curve.stable 1000).swap sampleSpl 2 998 10001 .BtoA noFees = .ok ⟨1000, 9998, 2, 3, 0, 0⟩ := by
  decide +kernel

/-- C51.  What holds: the invariant of the new balances, with one more unit on the paying side, is
above the old invariant less one. -/
theorem C51_stable_partial (e : SplEnv) (amp : UInt64) (s x y : Nat) (dir : TradeDirection)
    (f : Fees) (r : SwapResult) (h : (Curve.stable amp).swap e s x y dir f = .ok r) (hx : 0 < x)
    (hy : 0 < y) (D : ℝ) (hD : 1 ≤ D) (hat : StableAtLeast (2 * amp.toNat) x y D) :
    StableAtLeast (2 * amp.toNat) r.new_swap_source_amount
      ((r.new_swap_destination_amount : ℝ) + 1) (D - 1) := by
  obtain ⟨q, _, _, h3, h4, h5, h6, h7, h8, h9⟩ := Curve.swap_inv h
  obtain ⟨e1, _, hamp, Dh, hDh, hnd⟩ := Stable.swapWithoutFees_ok h4
  have eL : ((amp.toNat * 2 : Nat) : ℝ) = 2 * amp.toNat := by push_cast; ring
  have hat' : StableAtLeast ((amp.toNat * 2 : Nat) : ℝ) x y D := by rw [eL]; exact hat
  have hlt := Stable.computeD_ok hx hy (by linarith) hat' hDh
  obtain ⟨_, _, hst⟩ := Stable.computeNewDestination_ok hnd
  rw [eL] at hst
  have hL : (1 : ℝ) ≤ 2 * amp.toNat := by
    have : (1 : ℝ) ≤ amp.toNat := by exact_mod_cast hamp
    linarith
  have hst2 := Stable.atLeast_mono hL (Nat.cast_nonneg _)
    (by positivity : (0 : ℝ) ≤ ((y - q.destination_amount_swapped : Nat) : ℝ) + 1)
    (by linarith : (0 : ℝ) ≤ D - 1) (by linarith : D - 1 ≤ Dh) hst
  rw [h9, h6]
  have hns : (x + (s - (r.trade_fee + r.owner_fee)) : Nat) ≤ r.new_swap_source_amount := by omega
  have hns' : ((x + (s - (r.trade_fee + r.owner_fee)) : Nat) : ℝ) ≤ r.new_swap_source_amount := by
    exact_mod_cast hns
  exact Stable.atLeast_source (by linarith) (by exact_mod_cast (by omega : 0 < x + _)) (by positivity)
    (by linarith) hns' hst2

-- the bound is met by a real trade; 11998 is the invariant of 5000 and 7000, rounded down
example : (Curve.stable 100).swap sampleSpl 1000 5000 7000 .AtoB noFees =
    .ok ⟨6000, 5998, 1000, 1002, 0, 0⟩ := by decide +kernel
example : StableAtLeast (2 * 100) 5000 7000 11998 ∧ ¬ StableAtLeast (2 * 100) 5000 7000 11999 := by
  unfold StableAtLeast
  norm_num

end Props
end Verif
