import Verif.Lemmas.Plain
import Verif.Lemmas.AbortRun
import Verif.Props.Serve
import Verif.Props.Exchange

/-
C84: trades on linear pools follow a formula in plain arithmetic.
-/

namespace Verif
namespace Props

open Spec Linear Processor

/-- An outcome as a result of the model. -/
def resOf : Outcome → Res SwapWithoutFeesResult
  | .trade t d => .ok ⟨t, d⟩
  | .refused => .none
  | .aborted => .panic

theorem buy_settle {c : LinearPriceCurve} {s A B x y : Nat} (h : swapAToB c s A B = .ok (x, y)) :
    Linear.swapWithoutFees c s A B .AtoB = resOf (.of x y) := by
  unfold Linear.swapWithoutFees mapZeroToNone Outcome.of
  simp only []
  rw [h, Res.ok_bind]
  by_cases hx : x = 0
  · rw [if_pos (Or.inl hx), if_pos hx]; rfl
  · by_cases hy : y = 0
    · rw [if_pos (Or.inr hy), if_neg hx, if_pos hy]; rfl
    · rw [if_neg (not_or.2 ⟨hx, hy⟩), if_neg hx, if_neg hy]; rfl

theorem sell_settle {c : LinearPriceCurve} {s A B x y : Nat} (h : swapBToA c s A = .ok (x, y)) :
    Linear.swapWithoutFees c s B A .BtoA = resOf (.of x y) := by
  unfold Linear.swapWithoutFees mapZeroToNone Outcome.of
  simp only []
  rw [h, Res.ok_bind]
  by_cases hx : x = 0
  · rw [if_pos (Or.inl hx), if_pos hx]; rfl
  · by_cases hy : y = 0
    · rw [if_pos (Or.inr hy), if_neg hx, if_pos hy]; rfl
    · rw [if_neg (not_or.2 ⟨hx, hy⟩), if_neg hx, if_neg hy]; rfl

theorem plain_down (c : LinearPriceCurve) (hv : isCurveParamValid c = .ok ()) {A : Nat}
    (hA : A < 36893488147419103232) : ∃ b, plainPosition c false A = some b := by
  obtain ⟨b, hb⟩ := bValue_down_total (nz_of_valid hv) hA
  rw [bValue_plain (nz_of_valid hv) hA] at hb
  cases hp : plainPosition c false A with
  | none => rw [hp] at hb; cases hb
  | some b => exact ⟨b, rfl⟩

theorem buyAt_eq {c : LinearPriceCurve} {s A B b0 b1 : Nat}
    (hq : plainPosition c false (A + s) = some b1) :
    plainBuyAt c s A B b0 = if A * Dfs.ONE ≤ amtF c (b0 + B * Dfs.ONE) ∧
          (amtF c (b0 + B * Dfs.ONE) - A * Dfs.ONE + Dfs.roundingCorrection) / Dfs.ONE ≤ s then
        .of ((amtF c (b0 + B * Dfs.ONE) - A * Dfs.ONE + Dfs.roundingCorrection) / Dfs.ONE) B
      else .of s ((b1 - b0) / Dfs.ONE) := by
  unfold plainBuyAt
  rw [hq, Option.elim_some, pow18, half18, ← amtF_plain]

theorem sellAt_eq {c : LinearPriceCurve} {s A b0 : Nat} :
    plainSellAt c s A b0 = if b0 < s * Dfs.ONE then .of ((b0 + Dfs.roundingCorrection) / Dfs.ONE) A
    else if amtF c ((b0 - s * Dfs.ONE + (Dfs.ONE - 1)) / Dfs.ONE * Dfs.ONE) ≤ A * Dfs.ONE then
      .of s ((A * Dfs.ONE - amtF c ((b0 - s * Dfs.ONE + (Dfs.ONE - 1)) / Dfs.ONE * Dfs.ONE)) /
        Dfs.ONE)
    else .refused := by
  unfold plainSellAt
  rw [pow18, half18, quotient_one, ← amtF_plain]

theorem plain_buy (c : LinearPriceCurve) (hv : isCurveParamValid c = .ok ()) {s A B : Nat}
    (hs : s < 18446744073709551616) (hA : A < 18446744073709551616)
    (hB : B < 18446744073709551616) :
    Linear.swapWithoutFees c s A B .AtoB = resOf (plainBuy c s A B) := by
  have hc := nz_of_valid hv
  have hb := bValue_plain hc (show A < 36893488147419103232 by omega) true
  unfold plainBuy
  cases hp : plainPosition c true A with
  | none =>
    rw [hp] at hb
    have hb' : bValue c (A * Dfs.ONE) true = .panic := hb
    unfold Linear.swapWithoutFees swapAToB
    simp only []
    rw [new_u64' hA, Res.ok_bind, hb', Res.panic_bind, Option.elim_none]
    rfl
  | some b0 =>
    rw [hp] at hb
    have hb0 : bValue c (A * Dfs.ONE) true = .ok b0 := hb
    obtain ⟨b1, hb1⟩ := plain_down c hv (show A + s < 36893488147419103232 by omega)
    rw [Option.elim_some, buyAt_eq hb1]
    have hm := maximumARemaining_plain hv hA hs hB hb0
    split
    · rename_i h
      rw [if_pos h] at hm
      exact buy_settle (by rw [swapAToB_of (by omega) hb0, hm])
    · rename_i h
      rw [if_neg h] at hm
      have hb1' : bValue c ((A + s) * Dfs.ONE) false = .ok b1 := by
        rw [bValue_plain hc (by omega), hb1]; rfl
      by_cases hle : b0 ≤ b1
      · exact buy_settle (swapAToB_none hA hs hb0 hb1' hle (out_lt_u128 hv (by omega) hb1') hm)
      · have hn : swapAToB c s A B = .none := by
          have ha : Dfs.add (A * Dfs.ONE) (s * Dfs.ONE) = .ok ((A + s) * Dfs.ONE) := by
            rw [Nat.add_mul]
            refine cadd_ok ?_
            rw [Dfs.ONE_val, U256_val]; omega
          rw [swapAToB_of (by omega) hb0, hm]
          simp only []
          rw [new_u64' hs, Res.ok_bind, ha, Res.ok_bind, hb1', Res.ok_bind]
          have : Dfs.sub b1 b0 = .none := by
            unfold Dfs.sub csub
            rw [if_neg hle]
          rw [this]; rfl
        have e0 : b1 - b0 = 0 := by omega
        unfold Linear.swapWithoutFees
        simp only []
        rw [hn, e0, Nat.zero_div]
        unfold Outcome.of
        rw [if_pos (Or.inr rfl)]
        rfl

theorem plain_sell (c : LinearPriceCurve) (hv : isCurveParamValid c = .ok ()) {s A B : Nat}
    (hs : s < 18446744073709551616) (hA : A < 18446744073709551616) :
    Linear.swapWithoutFees c s B A .BtoA = resOf (plainSell c s A) := by
  have hc := nz_of_valid hv
  have hb := bValue_plain hc (show A < 36893488147419103232 by omega) true
  unfold plainSell
  cases hp : plainPosition c true A with
  | none =>
    rw [hp] at hb
    have hb' : bValue c (A * Dfs.ONE) true = .panic := hb
    unfold Linear.swapWithoutFees swapBToA
    simp only []
    rw [new_u64' hA, Res.ok_bind, hb', Res.panic_bind, Option.elim_none]
    rfl
  | some b0 =>
    rw [hp] at hb
    have hb0 : bValue c (A * Dfs.ONE) true = .ok b0 := hb
    rw [Option.elim_some, sellAt_eq]
    have h2 := swapBToA_of hA hs hv hb0
    split
    · rename_i h
      exact sell_settle (h2.1 h)
    · rename_i h
      split
      · rename_i h'
        exact sell_settle (h2.2 (Nat.le_of_not_lt h) h')
      · rename_i h'
        have := swapBToA_short hv hA hs hb0 (Nat.le_of_not_lt h) (Nat.lt_of_not_le h')
        unfold Linear.swapWithoutFees
        simp only []
        rw [this]
        rfl

/-- C84.  For every valid curve and all amounts that fit in 64 bits, in either direction, what the program
does with an offer – trade, refuse or abort – is what the plain formula says, to the last unit.  None of
the limits of the program's arithmetic shows, other than the abort that is part of the formula. -/
theorem C84_trade (c : LinearPriceCurve) (hv : isCurveParamValid c = .ok ()) (s x y : Nat)
    (hs : s < 2 ^ 64) (hx : x < 2 ^ 64) (hy : y < 2 ^ 64) (dir : TradeDirection) :
    Linear.swapWithoutFees c s x y dir = resOf (plainTrade c s x y dir) := by
  cases dir with
  | AtoB => exact plain_buy c hv (lt64 hs) (lt64 hx) (lt64 hy)
  | BtoA => exact plain_sell c hv (lt64 hs) (lt64 hy)

/-- C84.  The formula aborts exactly at the balances singled out in C44. -/
theorem C84_abort (c : LinearPriceCurve) (hv : isCurveParamValid c = .ok ()) (s x y : Nat)
    (hs : s < 2 ^ 64) (hx : x < 2 ^ 64) (hy : y < 2 ^ 64) (dir : TradeDirection) :
    plainTrade c s x y dir = .aborted ↔
      Stuck c (match dir with | .AtoB => x | .BtoA => y) := by
  have hs' := lt64 hs
  have hx' := lt64 hx
  have hy' := lt64 hy
  have hc := nz_of_valid hv
  have pos : ∀ A, A < 18446744073709551616 → (plainPosition c true A = none ↔ Stuck c A) := by
    intro A hA
    have hA' : A < 36893488147419103232 := by omega
    rw [← stuck_iff hv (show A < 2 ^ 65 from hA'), bValue_plain hc hA' true]
    cases plainPosition c true A with
    | none => exact ⟨fun _ => rfl, fun _ => rfl⟩
    | some b => exact ⟨nofun, nofun⟩
  have ofn : ∀ t d, Outcome.of t d ≠ .aborted := by
    intro t d
    unfold Outcome.of
    split <;> nofun
  cases dir with
  | AtoB =>
    rw [← pos x hx']
    change plainBuy c s x y = _ ↔ _
    unfold plainBuy
    cases plainPosition c true x with
    | none => exact ⟨fun _ => rfl, fun _ => rfl⟩
    | some b0 =>
      refine ⟨fun h => ?_, nofun⟩
      obtain ⟨b1, hb1⟩ := plain_down c hv (show x + s < 36893488147419103232 by omega)
      rw [Option.elim_some, buyAt_eq hb1] at h
      split at h
      · exact absurd h (ofn _ _)
      · exact absurd h (ofn _ _)
  | BtoA =>
    rw [← pos y hy']
    change plainSell c s y = _ ↔ _
    unfold plainSell
    cases plainPosition c true y with
    | none => exact ⟨fun _ => rfl, fun _ => rfl⟩
    | some b0 =>
      refine ⟨fun h => ?_, nofun⟩
      rw [Option.elim_some, sellAt_eq] at h
      split at h
      · exact absurd h (ofn _ _)
      · split at h
        · exact absurd h (ofn _ _)
        · cases h

/-- C84, with fees.  Which offers are accepted by a linear curve under any valid fee schedule, and what
is taken and paid. -/
theorem C84_fees (e : SplEnv) (c : LinearPriceCurve) (hv : isCurveParamValid c = .ok ()) (s x y : Nat)
    (dir : TradeDirection) (f : Fees) (hf : f.validate = .ok ()) (hs : s < 2 ^ 64) (hx : x < 2 ^ 64)
    (hy : y < 2 ^ 64) (r : SwapResult) :
    (Curve.linear c).swap e s x y dir f = .ok r ↔
      ∃ tf of t d, tf = feeOf f.trade_fee_numerator.toNat f.trade_fee_denominator.toNat s ∧
        of = feeOf f.owner_trade_fee_numerator.toNat f.owner_trade_fee_denominator.toNat s ∧
        tf + of ≤ s ∧ plainTrade c (s - (tf + of)) x y dir = .trade t d ∧ d ≤ y ∧
        r = settled x y t d tf of := by
  have hs' := lt64 hs
  have key : ∀ k, k ≤ s → ∀ q, (Curve.linear c).swapWithoutFees e k x y dir = .ok q ↔
      plainTrade c k x y dir = .trade q.source_amount_swapped q.destination_amount_swapped := by
    intro k hk q
    rw [show (Curve.linear c).swapWithoutFees e k x y dir = Linear.swapWithoutFees c k x y dir from
      rfl, C84_trade c hv k x y (lt_of_le_of_lt hk hs) hx hy dir]
    cases plainTrade c k x y dir with
    | trade t d =>
      constructor
      · intro h
        cases h
        rfl
      · intro h
        injection h with h1 h2
        rw [h1, h2]
        rfl
    | refused => exact ⟨nofun, nofun⟩
    | aborted => exact ⟨nofun, nofun⟩
  rw [Curve.swap_iff hf hs hx]
  constructor
  · rintro ⟨tf, of, q, h1, h2, h3, h4, h5, h6⟩
    exact ⟨tf, of, _, _, h1, h2, h3, (key _ (Nat.sub_le _ _) q).1 h4, h5, h6⟩
  · rintro ⟨tf, of, t, d, h1, h2, h3, h4, h5, h6⟩
    exact ⟨tf, of, ⟨t, d⟩, h1, h2, h3, (key _ (Nat.sub_le _ _) ⟨t, d⟩).2 h4, h5, h6⟩

/-- The figures of the program's own tests (curve/linear_price.rs l.496-540, l.600-625 and l.1570-1660):
purchases, a buy-out, sales, a sale of more than was ever sold, an offer too small for the precision of
the root. -/
example : plainTrade ⟨1, 2, 150, 3⟩ 101 0 5000 .AtoB = .trade 101 2 := by decide +kernel
example : plainTrade ⟨1, 200000000, 150, 3⟩ 10000_0000_0000 81600_0000_0000 20_0000_0000 .AtoB =
    .trade 5900_0000_0000 20_0000_0000 := by decide +kernel
example : plainTrade ⟨5689549999968874, 1000000000000, 35915742315103, 1⟩ 200000000 4800000000
    7296939463019977480000 .BtoA = .trade 200000000 7296939427104235162052 := by decide +kernel
example : plainTrade ⟨5689549999968874, 1000000000000, 35915742315103, 1⟩ 300000000 4800000000
    7296939463019977480000 .BtoA = .trade 200000000 7296939463019977480000 := by decide +kernel
example : plainTrade ⟨37, 1400000000000000000, 7, 2⟩ 100000000 0 1285000000000000 .AtoB =
    .refused := by decide +kernel
example : plainTrade ⟨37, 1400000000000000000, 7, 2⟩ 1000000000000 0 1285000000000000 .AtoB =
    .trade 1000000000000 285713513513 := by decide +kernel
/-- The abort of C44. -/
example : plainTrade ⟨8198552921648689607, 2000000000000000000, 0, 1⟩ 5 9 100 .AtoB = .aborted := by
  decide +kernel
example : isCurveParamValid ⟨37, 1400000000000000000, 7, 2⟩ = .ok () := by decide +kernel

/-- C84, on the ledger.  On every ledger that can occur, a swap with a linear pool moves its vaults by the
amounts of the formula, applied to the vaults' balances and the amount offered. -/
theorem C84_ledger (env : Env) (K : Pubkey → Prop) (he : EnvOk env K) (w w' : World)
    (hr : Reachable env K w) (signers : List Pubkey) (hs : ∀ u ∈ signers, ¬ IsPda env K u)
    (a : SwapAccounts) (x y : UInt64) (s : SwapV1) (c : LinearPriceCurve)
    (hp : PoolAt env w a.swap s) (hl : s.swap_curve = .linear c)
    (h : exec env signers (.swap a x y) w = .ok w') :
    ∃ dir t d, a.swapSource = vaultIn s dir ∧ a.swapDestination = vaultOut s dir ∧
      plainTrade c x.toNat (bal w (vaultIn s dir)).toNat (bal w (vaultOut s dir)).toNat dir =
        .trade t d ∧ y.toNat ≤ d ∧
      bal w' (vaultIn s dir) = bal w (vaultIn s dir) + t ∧
      bal w' (vaultOut s dir) = bal w (vaultOut s dir) - d := by
  unfold exec at h
  rw [req_bind] at h
  obtain ⟨hu, h⟩ := h
  obtain ⟨s', tin, tout, pm, r, fee, xi, xo, w1, w2, run⟩ := processSwap_ok h
  have e : s' = s :=
    Except.ok.inj ((unpackSwap_of (poolAt_of run.owner run.state)).symm.trans (unpackSwap_of hp))
  subst e
  obtain ⟨w0, h0, hst⟩ := hr
  obtain ⟨hK, ⟨z, hc⟩, hcf⟩ := reachable_pool he h0 hst _ _ hp
  have hcv := hcf.curve
  rw [hl] at hcv
  have hv : isCurveParamValid c = .ok () := by
    unfold Curve.validate at hcv
    simp only [] at hcv
    split at hcv
    · assumption
    · cases hcv
  have hf : s'.fees = ⟨0, 1, 0, 1, 0, 1, 0, 1⟩ := by
    rcases hcf.kind with ⟨p, h1⟩ | ⟨l, _, h2⟩
    · rw [hl] at h1; cases h1
    · exact h2
  obtain ⟨e1, e2⟩ := swapDirection_in run.srcIs run.dstIs run.srcNeDst
  obtain ⟨dir, hdir⟩ : ∃ dir, swapDirection s' a = dir := ⟨_, rfl⟩
  have hq := run.result
  rw [hdir] at e1 e2 hq
  have hb := swap_vaults hK hc hcf hs hu run
  rw [hl] at hq
  have hq' := (linear_swap_amounts hf hq).1
  rw [C84_trade c hv _ _ _ x.toNat_lt tin.amount.toNat_lt tout.amount.toNat_lt] at hq'
  have n1 : (bal w a.swapSource).toNat = tin.amount.toNat := nbal_token run.srcTok.2
  have n2 : (bal w a.swapDestination).toNat = tout.amount.toNat := nbal_token run.dstTok.2
  refine ⟨dir, r.source_amount_swapped, r.destination_amount_swapped, e1, e2, ?_, run.slippage, ?_⟩
  · rw [← e1, ← e2, n1, n2]
    cases hpt : plainTrade c x.toNat tin.amount.toNat tout.amount.toNat dir with
    | trade t d => rw [hpt] at hq'; cases hq'; rfl
    | refused => rw [hpt] at hq'; cases hq'
    | aborted => rw [hpt] at hq'; cases hq'
  · rw [← e1, ← e2]
    exact hb

/-- The sample user sells two token B to the live linear pool: the hypotheses are met, and the vaults move
as the formula says. -/
example : ∃ w', exec Sample.env [Sample.key 1, Sample.key 2, Sample.key 50] Sample.sell live = .ok w' ∧
    ∃ dir t d, Sample.key 4 = vaultIn pool1 dir ∧ Sample.key 3 = vaultOut pool1 dir ∧
      plainTrade Sample.lin 2 (bal live (vaultIn pool1 dir)).toNat
        (bal live (vaultOut pool1 dir)).toNat dir = .trade t d ∧ 1 ≤ d ∧
      bal w' (vaultIn pool1 dir) = bal live (vaultIn pool1 dir) + t ∧
      bal w' (vaultOut pool1 dir) = bal live (vaultOut pool1 dir) - d := by
  have h := exec_ranTo (w := live) (i := Sample.sell) (by decide +kernel)
  refine ⟨_, h, C84_ledger Sample.env samplePools sample_ok live _ live_reachable _ sample_signers
    ⟨Sample.key 1, Sample.key 129, Sample.key 50, Sample.key 31, Sample.key 4, Sample.key 3,
      Sample.key 30, Sample.key 5, Sample.key 6, Sample.key 101⟩ 2 1 pool1 Sample.lin ?_ rfl ?_⟩
  · exact live_pool1
  · exact h
example : plainTrade Sample.lin 2 98 18 .BtoA = .trade 2 14 := by decide +kernel

end Props
end Verif
