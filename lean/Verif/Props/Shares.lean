import Verif.Lemmas.Shares
import Verif.Props.Curves

/-
Property C55: pool-token conversions are exact up to rounding, and go through whenever the numbers fit.
-/

namespace Verif.Props
open Verif Spec

/-- On 64-bit balances the proportional curves' conversion is the constant-product one. -/
theorem share_conversion {e : SplEnv} {c : Curve} {A B A' B' : Nat}
    (hc : shareBalances c A B = some (A', B')) (hA : A < 2 ^ 64) (hB : B < 2 ^ 64) (pt S : Nat)
    (rd : RoundDirection) :
    A' < 2 ^ 64 ∧ c.poolTokensToTradingTokens e pt S A B rd =
      ConstantProduct.poolTokensToTradingTokens pt S A' B' rd := by
  cases c with
  | constantProduct =>
    have := Option.some.inj hc
    rw [Prod.mk.injEq] at this
    rw [← this.1, ← this.2]; exact ⟨hA, rfl⟩
  | constantPrice p => cases hc
  | stable a =>
    have := Option.some.inj hc
    rw [Prod.mk.injEq] at this
    rw [← this.1, ← this.2]; exact ⟨hA, rfl⟩
  | offset o =>
    have := Option.some.inj hc
    rw [Prod.mk.injEq] at this
    rw [← this.1, ← this.2]
    refine ⟨hA, ?_⟩
    show Offset.poolTokensToTradingTokens o pt S A B rd = _
    unfold Offset.poolTokensToTradingTokens
    have ho := UInt64.toNat_lt o
    rw [cadd_ok (by rw [U128_val]; omega), Res.ok_bind]
  | linear l => cases hc

/-- C55.  Burning `pt` of `S` pool tokens of a constant-product, stable or offset pool yields exactly
the proportional share of each side rounded down, and is refused only when there are no pool tokens
or the offset side's product exceeds 128 bits. -/
theorem C55_burn (e : SplEnv) (c : Curve) (pt S A B A' B' : Nat) (r : TradingTokenResult)
    (hc : shareBalances c A B = some (A', B')) (hpt : pt < 2 ^ 64) (hA : A < 2 ^ 64)
    (hB : B < 2 ^ 64) :
    c.poolTokensToTradingTokens e pt S A B .Floor = .ok r ↔
      0 < S ∧ pt * B' < 2 ^ 128 ∧ Down (pt * A') S r.token_a_amount ∧
        Down (pt * B') S r.token_b_amount := by
  obtain ⟨h1, h2⟩ := share_conversion (e := e) hc hA hB pt S .Floor
  rw [h2]
  refine ConstantProduct.share_floor ?_ r
  calc pt * A' ≤ (2 ^ 64 - 1) * (2 ^ 64 - 1) := Nat.mul_le_mul (by omega) (by omega)
    _ < U128 := by decide

/-- C55.  Minting `pt` pool tokens on such a pool charges exactly the proportional share of each side
rounded up, except that a share below one unit is charged as zero (the processor refuses that). -/
theorem C55_mint (e : SplEnv) (c : Curve) (pt S A B A' B' : Nat) (r : TradingTokenResult)
    (hc : shareBalances c A B = some (A', B')) (hpt : pt < 2 ^ 64) (hA : A < 2 ^ 64)
    (hB : B < 2 ^ 64) :
    c.poolTokensToTradingTokens e pt S A B .Ceiling = .ok r ↔
      0 < S ∧ pt * B' < 2 ^ 128 ∧ UpWhole (pt * A') S r.token_a_amount ∧
        UpWhole (pt * B') S r.token_b_amount := by
  obtain ⟨h1, h2⟩ := share_conversion (e := e) hc hA hB pt S .Ceiling
  rw [h2]
  refine ConstantProduct.share_ceil ?_ r
  calc pt * A' ≤ (2 ^ 64 - 1) * (2 ^ 64 - 1) := Nat.mul_le_mul (by omega) (by omega)
    _ < U128 := by decide

example : (Curve.offset 5).poolTokensToTradingTokens sampleSpl 3 10 11 20 .Ceiling = .ok ⟨4, 8⟩ :=
  (C55_mint sampleSpl (.offset 5) 3 10 11 20 11 25 ⟨4, 8⟩ (by decide) (by decide) (by decide)
    (by decide)).2 (by decide)
example : (Curve.offset 5).poolTokensToTradingTokens sampleSpl 3 10 11 20 .Floor = .ok ⟨3, 7⟩ :=
  (C55_burn sampleSpl (.offset 5) 3 10 11 20 11 25 ⟨3, 7⟩ (by decide) (by decide) (by decide)
    (by decide)).2 (by decide)

/-- C55.  Burning `pt` of `S` pool tokens of a constant-price pool yields, in each token, exactly the
share of half the pool's value, rounded down; refused only without pool tokens, at price zero, or when
the product exceeds 128 bits. -/
theorem C55_price_burn (e : SplEnv) (p : UInt64) (pt S A B : Nat) (r : TradingTokenResult)
    (hA : A < 2 ^ 64) (hB : B < 2 ^ 64) :
    (Curve.constantPrice p).poolTokensToTradingTokens e pt S A B .Floor = .ok r ↔
      0 < S ∧ 0 < p.toNat ∧ pt * halfWorth p.toNat A B < 2 ^ 128 ∧
        Down (pt * halfWorth p.toNat A B) S r.token_a_amount ∧
        Down (pt * halfWorth p.toNat A B) (p.toNat * S) r.token_b_amount :=
  ConstantPrice.share_floor (e := e) hA hB r

/-- C55.  A charge for minting pool tokens on a constant-price pool that is positive in both tokens
is exactly the share of half the pool's value in each of them, rounded up. -/
theorem C55_price_mint (e : SplEnv) (p : UInt64) (pt S A B : Nat) (r : TradingTokenResult)
    (hA : A < 2 ^ 64) (hB : B < 2 ^ 64)
    (h : (Curve.constantPrice p).poolTokensToTradingTokens e pt S A B .Ceiling = .ok r)
    (ha : 0 < r.token_a_amount) (hb : 0 < r.token_b_amount) :
    Up (pt * halfWorth p.toNat A B) S r.token_a_amount ∧
      Up (pt * halfWorth p.toNat A B) (p.toNat * S) r.token_b_amount :=
  (ConstantPrice.share_ceil hA hB h ha hb).2.2.2

/-- C55.  Minting on a constant-price pool goes through, with a positive charge in both tokens,
whenever the share is at least one whole token B and the product fits 128 bits. -/
theorem C55_price_mint_succeeds (e : SplEnv) (p : UInt64) (pt S A B : Nat) (hA : A < 2 ^ 64)
    (hB : B < 2 ^ 64) (hS : 0 < S) (hp : 0 < p.toNat)
    (hlt : pt * halfWorth p.toNat A B < 2 ^ 128)
    (hge : p.toNat * S ≤ pt * halfWorth p.toNat A B) :
    ∃ r, (Curve.constantPrice p).poolTokensToTradingTokens e pt S A B .Ceiling = .ok r ∧
      0 < r.token_a_amount ∧ 0 < r.token_b_amount :=
  ConstantPrice.share_ceil_of (e := e) hA hB hS hp hlt hge

example : (Curve.constantPrice 3).poolTokensToTradingTokens sampleSpl 4 10 11 20 .Floor =
    .ok ⟨14, 4⟩ :=
  (C55_price_burn sampleSpl 3 4 10 11 20 ⟨14, 4⟩ (by decide) (by decide)).2 (by decide)
example : ∃ r, (Curve.constantPrice 3).poolTokensToTradingTokens sampleSpl 4 10 11 20 .Ceiling =
    .ok r ∧ Up (4 * 35) 10 r.token_a_amount ∧ Up (4 * 35) 30 r.token_b_amount := by
  obtain ⟨r, h1, h2, h3⟩ := C55_price_mint_succeeds sampleSpl 3 4 10 11 20 (by decide) (by decide)
    (by decide) (by decide) (by decide) (by decide)
  exact ⟨r, h1, C55_price_mint sampleSpl 3 4 10 11 20 r (by decide) (by decide) h1 h2 h3⟩

/-- C55.  A single-sided deposit of `s` into a constant-price pool mints exactly the pool tokens in
proportion to the value that counts (the amount less the trade fee on half of it), rounded down;
refused only when the pool is worth nothing or the result exceeds 128 bits. -/
theorem C55_deposit_single (e : SplEnv) (p : UInt64) (s A B S m : Nat) (dir : TradeDirection)
    (f : Fees) (hv : f.validate = .ok ()) (hs0 : s ≠ 0) (hs : s < 2 ^ 64) (hA : A < 2 ^ 64)
    (hB : B < 2 ^ 64) (hS : S < 2 ^ 64) :
    (Curve.constantPrice p).depositSingle e s A B S dir f = .ok m ↔
      0 < worth p.toNat A B ∧ m < 2 ^ 128 ∧
        Down (S * worthOf p.toNat dir (counted f s)) (worth p.toNat A B) m := by
  obtain ⟨fee, h1, h2, h3⟩ := counted_ok hv hs hs0
  have hc : counted f s < U64 := lt_of_le_of_lt (Nat.sub_le _ _) hs
  unfold Curve.depositSingle
  rw [if_neg hs0, cdiv_ok (by decide), Res.ok_bind, h1, Res.ok_bind, h2, Res.ok_bind]
  exact ConstantPrice.trading_floor_iff (e := e) hc hA hB hS

/-- C55.  A positive number of pool tokens charged for a single-sided withdrawal from a constant-price
pool is exactly in proportion to the value that counts, rounded up. -/
theorem C55_withdraw_single (e : SplEnv) (p : UInt64) (s A B S m : Nat) (dir : TradeDirection)
    (f : Fees) (hv : f.validate = .ok ()) (hs : s < 2 ^ 64) (hm : 0 < m)
    (h : (Curve.constantPrice p).withdrawSingle e s A B S dir f = .ok m) :
    Up (S * worthOf p.toNat dir (counted f s)) (worth p.toNat A B) m := by
  unfold Curve.withdrawSingle at h
  by_cases hs0 : s = 0
  · rw [if_pos hs0] at h
    have := Res.ok.inj h
    omega
  · obtain ⟨fee, h1, h2, h3⟩ := counted_ok hv hs hs0
    rw [if_neg hs0, cdiv_ok (by decide), Res.ok_bind, h1, Res.ok_bind, h2, Res.ok_bind] at h
    exact ConstantPrice.trading_ceil_up h hm

/-- C55.  Such a withdrawal is priced whenever it is worth at least one pool token and the product fits
128 bits. -/
theorem C55_withdraw_single_succeeds (e : SplEnv) (p : UInt64) (s A B S : Nat)
    (dir : TradeDirection) (f : Fees) (hv : f.validate = .ok ()) (hs0 : s ≠ 0) (hs : s < 2 ^ 64)
    (hA : A < 2 ^ 64) (hB : B < 2 ^ 64) (hpos : 0 < worth p.toNat A B)
    (hge : worth p.toNat A B ≤ S * worthOf p.toNat dir (counted f s))
    (hlt : S * worthOf p.toNat dir (counted f s) < 2 ^ 128) :
    ∃ m, (Curve.constantPrice p).withdrawSingle e s A B S dir f = .ok m ∧ 0 < m := by
  obtain ⟨fee, h1, h2, h3⟩ := counted_ok hv hs hs0
  have hc : counted f s < U64 := lt_of_le_of_lt (Nat.sub_le _ _) hs
  unfold Curve.withdrawSingle
  rw [if_neg hs0, cdiv_ok (by decide), Res.ok_bind, h1, Res.ok_bind, h2, Res.ok_bind]
  exact ConstantPrice.trading_ceil_of (e := e) hc hA hB hpos hge hlt

example : (Curve.constantPrice 3).depositSingle sampleSpl 100 11 20 1000 .BtoA sampleFees =
    .ok 4183 :=
  (C55_deposit_single sampleSpl 3 100 11 20 1000 4183 .BtoA sampleFees (by decide) (by decide)
    (by decide) (by decide) (by decide) (by decide)).2 (by decide +kernel)
example : ∃ m, (Curve.constantPrice 3).withdrawSingle sampleSpl 10 11 20 1000 .BtoA sampleFees =
    .ok m ∧ Up (1000 * 27) 71 m := by
  obtain ⟨m, h1, h2⟩ := C55_withdraw_single_succeeds sampleSpl 3 10 11 20 1000 .BtoA sampleFees
    (by decide) (by decide) (by decide) (by decide) (by decide) (by decide) (by decide +kernel)
    (by decide +kernel)
  exact ⟨m, h1, C55_withdraw_single sampleSpl 3 10 11 20 1000 m .BtoA sampleFees (by decide)
    (by decide) h2 h1⟩

end Verif.Props
