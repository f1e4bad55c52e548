import Verif.Lemmas.Runs
import Verif.Props.Curves
import Verif.Props.Sample

/-
Properties of single instructions on the ledger: C27, C29-C33, C36, C37 (partial), C39, C40.
-/

namespace Verif
namespace Props
open Spec Processor

theorem exec_ok {env : Env} {signers : List Pubkey} {i : Instr} {w w' : World}
    (h : exec env signers i w = .ok w') : i.signer ∈ signers := by
  unfold exec at h
  rw [req_bind] at h
  exact h.1

theorem exec_swap {env : Env} {signers : List Pubkey} {a : SwapAccounts} {x y : UInt64}
    {w w' : World} (h : exec env signers (.swap a x y) w = .ok w') :
    a.userAuthority ∈ signers ∧ processSwap env signers x y a none w = .ok w' := by
  unfold exec at h; rw [req_bind] at h; exact h

theorem exec_depositAll {env : Env} {signers : List Pubkey} {a : DepositAllAccounts}
    {x y z : UInt64} {w w' : World} (h : exec env signers (.depositAll a x y z) w = .ok w') :
    a.userAuthority ∈ signers ∧ processDepositAll env signers x y z a w = .ok w' := by
  unfold exec at h; rw [req_bind] at h; exact h

theorem exec_withdrawAll {env : Env} {signers : List Pubkey} {a : WithdrawAllAccounts}
    {x y z : UInt64} {w w' : World} (h : exec env signers (.withdrawAll a x y z) w = .ok w') :
    a.userAuthority ∈ signers ∧ processWithdrawAll env signers x y z a w = .ok w' := by
  unfold exec at h; rw [req_bind] at h; exact h

theorem exec_depositSingle {env : Env} {signers : List Pubkey} {a : DepositSingleAccounts}
    {x y : UInt64} {w w' : World} (h : exec env signers (.depositSingle a x y) w = .ok w') :
    a.userAuthority ∈ signers ∧ processDepositSingle env signers x y a w = .ok w' := by
  unfold exec at h; rw [req_bind] at h; exact h

theorem exec_withdrawSingle {env : Env} {signers : List Pubkey} {a : WithdrawSingleAccounts}
    {x y : UInt64} {w w' : World} (h : exec env signers (.withdrawSingle a x y) w = .ok w') :
    a.userAuthority ∈ signers ∧ processWithdrawSingle env signers x y a w = .ok w' := by
  unfold exec at h; rw [req_bind] at h; exact h

/-- Both initialise instructions run `process_initialize` with some curve and fees. -/
inductive InitOf : Instr → InitAccounts → Fees → Curve → Prop
  | price (a : InitAccounts) (f : Fees) (p : UInt64) :
      InitOf (.initConstantPrice a f p) a f (.constantPrice p)
  | linear (a : InitAccounts) (c : LinearPriceCurve) :
      InitOf (.initLinearPrice a c) a ⟨0, 1, 0, 1, 0, 1, 0, 1⟩ (.linear c)

theorem exec_init {env : Env} {signers : List Pubkey} {i : Instr} {a : InitAccounts} {f : Fees}
    {c : Curve} {w w' : World} (hi : InitOf i a f c) (h : exec env signers i w = .ok w') :
    a.swap ∈ signers ∧ processInitialize env signers f c a w = .ok w' := by
  cases hi <;> (unfold exec at h; rw [req_bind] at h; exact h)

/-! ### C27 -/

/-- C27.  What a successful initialise has checked, minted and recorded. -/
theorem C27_initialize (env : Env) (signers : List Pubkey) (i : Instr) (a : InitAccounts) (f : Fees)
    (c : Curve) (w w' : World) (hi : InitOf i a f c) (h : exec env signers i w = .ok w') :
    ∃ (tA tB tFee tDest : TokenAccount) (m : Mint),
      tokenAt w a.tokenA = some tA ∧ tokenAt w a.tokenB = some tB ∧
      tokenAt w a.fee = some tFee ∧ tokenAt w a.destination = some tDest ∧
      mintAt w a.poolMint = some m ∧
      (∀ k ∈ [a.tokenA, a.tokenB, a.fee, a.destination, a.poolMint],
        (w k).owner = env.tokenProgramId) ∧
      a.authority = (env.findPda a.swap).1 ∧
      tA.owner = a.authority ∧ tB.owner = a.authority ∧ tA.mint ≠ tB.mint ∧
      tA.delegate = none ∧ tB.delegate = none ∧
      tA.close_authority = none ∧ tB.close_authority = none ∧
      tFee.owner ≠ a.authority ∧ tDest.owner ≠ a.authority ∧
      tFee.mint = a.poolMint ∧ tDest.mint = a.poolMint ∧
      m.mint_authority = some a.authority ∧ m.supply = 0 ∧ m.freeze_authority = none ∧
      f.validate = .ok () ∧ c.validate = .ok () ∧ c.validateSupply tA.amount tB.amount = .ok () ∧
      (¬ ∃ s, PoolAt env w a.swap s) ∧
      PoolAt env w' a.swap
        ⟨true, (env.findPda a.swap).2, env.tokenProgramId, a.tokenA, a.tokenB, a.poolMint, tA.mint,
          tB.mint, a.fee, f, c⟩ ∧
      (∀ k, bal w' k = bal w k + when (k = a.destination) 1000000000) ∧
      (∀ k, supply w' k = supply w k + when (k = a.poolMint) 1000000000) ∧
      (∀ k, k ≠ a.swap → k ≠ a.destination → k ≠ a.poolMint → w' k = w k) := by
  obtain ⟨_, hp⟩ := exec_init hi h
  obtain ⟨tA, tB, fa, de, pm, bytes, old, w1, r⟩ := processInitialize_ok hp
  obtain ⟨htp, _, _, _, _, hm⟩ := tokenMintTo_ok r.mint
  obtain ⟨d, _, hd1, hd2⟩ := hm.dstTok
  have hde : d = de := by rw [r.destTok.2] at hd1; cases hd1; rfl
  have hpool := r.after
  rw [htp] at hpool
  refine ⟨tA, tB, fa, de, pm, tokenAt_some.2 r.tokA.2, tokenAt_some.2 r.tokB.2,
    tokenAt_some.2 r.feeTok.2, tokenAt_some.2 r.destTok.2, mintAt_some.2 r.mintAcc.2, ?_, r.auth,
    r.ownA.symm, r.ownB.symm, r.mints, r.delA, r.delB, r.closeA, r.closeB, r.ownFee.symm,
    r.ownDest.symm, r.feeMint.symm, hde ▸ hd2, r.mintAuth.symm, r.supply0, r.freeze, r.feesOk,
    r.curveOk, r.supply, ?_, hpool, fun k => ?_, fun k => ?_, fun k h1 h2 h3 => ?_⟩
  · intro k hk
    rw [← htp]
    simp only [List.mem_cons, List.not_mem_nil, or_false] at hk
    rcases hk with rfl | rfl | rfl | rfl | rfl
    · exact r.tokA.1
    · exact r.tokB.1
    · exact r.feeTok.1
    · exact r.destTok.1
    · exact r.mintAcc.1
  · rintro ⟨s, _, l, h1, h2⟩
    have := r.fresh
    unfold isInitialized at this
    rw [h1] at this
    simp only [] at this
    unfold SwapVersion.isInitialized at this
    rw [h2] at this
    have hs : s.is_initialized = true := by
      unfold SwapVersion.unpack at h2
      split at h2
      · cases h2
      · split at h2
        · unfold SwapV1.unpack at h2
          split at h2
          · cases h2
          · rw [Except_bind_ok] at h2
            obtain ⟨s', _, h3⟩ := h2
            split at h3
            · rename_i hi'; cases h3; exact hi'
            · cases h3
        · cases h2
    simp only [hs] at this
    cases this
  · rw [r.write, (write_bal r.oldIs k).1, r.minted.bal]
  · rw [r.write, (write_bal r.oldIs k).2.1, r.minted.supply]
  · rw [r.write]
    unfold World.setData
    rw [if_neg h1]
    exact r.minted.same k (by simp only [List.mem_cons, List.not_mem_nil, or_false]; tauto)

example : InitOf Sample.initLinear Sample.init1 ⟨0, 1, 0, 1, 0, 1, 0, 1⟩ (.linear Sample.lin) :=
  .linear _ _
example : Sample.after (Sample.run Sample.env [Sample.initLinear] Sample.start)
    (Sample.bals [3, 4, 7, 6]) = .ok [0, 100, 1000000000, 0] := by decide +kernel
example : Sample.after (Sample.run Sample.env [Sample.initPrice] Sample.start)
    (Sample.bals [13, 14, 17, 16]) = .ok [5000, 700, 1000000000, 0] := by decide +kernel

/-! ### C29 -/

/-- C29.  A successful swap: exactly the curve's amounts move, between exactly these accounts. -/
theorem C29_swap (env : Env) (signers : List Pubkey) (a : SwapAccounts) (x y : UInt64)
    (w w' : World) (h : exec env signers (.swap a x y) w = .ok w') :
    ∃ (ts : SwapV1) (src dst : TokenAccount) (m : Mint) (dir : TradeDirection) (r : SwapResult)
      (fee : Nat),
      PoolAt env w a.swap ts ∧
      (dir = .AtoB ∧ a.swapSource = ts.token_a ∧ a.swapDestination = ts.token_b ∨
        dir = .BtoA ∧ a.swapSource = ts.token_b ∧ a.swapDestination = ts.token_a) ∧
      a.swapSource ≠ a.swapDestination ∧ a.source ≠ a.swapSource ∧
      a.destination ≠ a.swapDestination ∧
      tokenAt w a.swapSource = some src ∧ tokenAt w a.swapDestination = some dst ∧
      mintAt w ts.pool_mint = some m ∧
      ts.swap_curve.swap env.spl x.toNat src.amount.toNat dst.amount.toNat dir ts.fees = .ok r ∧
      r.source_amount_swapped ≤ x.toNat ∧ y.toNat ≤ r.destination_amount_swapped ∧
      mintOf w a.source = mintOf w a.swapSource ∧
      mintOf w a.destination = mintOf w a.swapDestination ∧
      (∃ newA newB, ts.swap_curve.withdrawSingle env.spl r.owner_fee newA newB m.supply.toNat dir
        ts.fees = .ok fee ∧
        (dir = .AtoB → newA = src.amount.toNat + r.source_amount_swapped ∧
          newB + r.destination_amount_swapped = dst.amount.toNat) ∧
        (dir = .BtoA → newB = src.amount.toNat + r.source_amount_swapped ∧
          newA + r.destination_amount_swapped = dst.amount.toNat)) ∧
      (r.owner_fee = 0 → fee = 0) ∧
      Effect w w'
        (fun k => when (k = a.swapSource) r.source_amount_swapped -
          when (k = a.source) r.source_amount_swapped +
          when (k = a.destination) r.destination_amount_swapped -
          when (k = a.swapDestination) r.destination_amount_swapped +
          when (k = ts.pool_fee_account) fee)
        (fun k => when (k = ts.pool_mint) fee)
        [a.source, a.swapSource, a.swapDestination, a.destination, ts.pool_mint,
          ts.pool_fee_account] := by
  obtain ⟨_, hp⟩ := exec_swap h
  obtain ⟨ts, src, dst, pm, r, pt, amtIn, amtOut, w1, w2, run⟩ := processSwap_ok hp
  have hb := C07_swap_bounds _ _ _ _ _ _ _ _ run.result
  obtain ⟨_, _, _, _, _, m1⟩ := tokenTransfer_ok run.pay
  obtain ⟨_, _, _, _, _, m3⟩ := tokenTransfer_ok run.payOut
  have hf : Frame w w2 := m1.frame.trans (feeStep_effect run.mint).frame
  have hfee := run.feeCalc
  have hpm : mintAt w ts.pool_mint = some pm := by
    rw [← run.mintIs]; exact mintAt_some.2 run.mintAcc.2
  have hmo : mintOf w a.destination = mintOf w a.swapDestination := by
    rw [← hf.mintOf a.destination, ← hf.mintOf a.swapDestination]; exact m3.mints.symm
  refine ⟨ts, src, dst, pm, swapDirection ts a, r, pt, poolAt_of run.owner run.state, ?_,
    run.srcNeDst, run.srcNeUser.symm, run.dstNeUser.symm, tokenAt_some.2 run.srcTok.2,
    tokenAt_some.2 run.dstTok.2, hpm, run.result, hb.1,
    run.slippage, m1.mints, hmo, ⟨_, _, hfee, ?_, ?_⟩, ?_, run.effect⟩
  · unfold swapDirection
    by_cases hA : a.swapSource = ts.token_a
    · rw [if_pos hA]
      refine Or.inl ⟨rfl, hA, ?_⟩
      rcases run.dstIs with h1 | h1
      · exact absurd (hA.trans h1.symm) run.srcNeDst
      · exact h1
    · rw [if_neg hA]
      rcases run.srcIs with h1 | h1
      · exact absurd h1 hA
      · refine Or.inr ⟨rfl, h1, ?_⟩
        rcases run.dstIs with h2 | h2
        · exact h2
        · exact absurd (h1.trans h2.symm) run.srcNeDst
  · intro hd
    rw [hd]
    exact ⟨hb.2.2.1, hb.2.2.2.1⟩
  · intro hd
    rw [hd]
    exact ⟨hb.2.2.1, hb.2.2.2.1⟩
  · intro h0
    rw [h0] at hfee
    unfold Curve.withdrawSingle at hfee
    rw [if_pos rfl] at hfee
    exact (Res.ok.inj hfee).symm

example : Sample.after (Sample.run Sample.env [Sample.initLinear, Sample.buy, Sample.sell]
    Sample.start) (Sample.bals [3, 4, 7, 6, 30, 31]) =
    .ok [18, 98, 1000000000, 0, 19982, 20002] := by decide +kernel
example : Sample.after (Sample.run Sample.env [Sample.initPrice, Sample.trade] Sample.start)
    (Sample.bals [13, 14, 17, 16, 30, 31]) =
    .ok [5995, 561, 1000000000, 1914937, 19005, 20139] := by decide +kernel

/-! ### C30 -/

/-- C30.  A successful two-sided deposit. -/
theorem C30_deposit_all (env : Env) (signers : List Pubkey) (a : DepositAllAccounts)
    (p maxA maxB : UInt64) (w w' : World)
    (h : exec env signers (.depositAll a p maxA maxB) w = .ok w') :
    ∃ (ts : SwapV1) (tA tB : TokenAccount) (m : Mint) (pool amtA amtB : Nat),
      PoolAt env w a.swap ts ∧ tokenAt w ts.token_a = some tA ∧ tokenAt w ts.token_b = some tB ∧
      mintAt w ts.pool_mint = some m ∧
      0 < amtA ∧ amtA ≤ maxA.toNat ∧ 0 < amtB ∧ amtB ≤ maxB.toNat ∧
      (m.supply ≠ 0 → pool = p.toNat ∧
        ts.swap_curve.poolTokensToTradingTokens env.spl p.toNat m.supply.toNat tA.amount.toNat
          tB.amount.toNat .Ceiling = .ok ⟨amtA, amtB⟩) ∧
      (m.supply = 0 → pool = 1000000000 ∧
        ts.swap_curve.poolTokensToTradingTokens env.spl 1000000000 1000000000 tA.amount.toNat
          tB.amount.toNat .Ceiling = .ok ⟨amtA, amtB⟩) ∧
      mintOf w a.sourceA = mintOf w ts.token_a ∧ mintOf w a.sourceB = mintOf w ts.token_b ∧
      mintOf w a.destination = some ts.pool_mint ∧
      a.sourceA ≠ ts.token_a ∧ a.sourceB ≠ ts.token_b ∧
      Effect w w'
        (fun k => when (k = ts.token_a) amtA - when (k = a.sourceA) amtA +
          when (k = ts.token_b) amtB - when (k = a.sourceB) amtB + when (k = a.destination) pool)
        (fun k => when (k = ts.pool_mint) pool)
        [a.sourceA, ts.token_a, a.sourceB, ts.token_b, ts.pool_mint, a.destination] := by
  obtain ⟨_, hp⟩ := exec_depositAll h
  obtain ⟨ts, tA, tB, pm, r, amtA, amtB, amtP, w1, w2, run⟩ := processDepositAll_ok hp
  obtain ⟨_, _, _, _, _, m1⟩ := tokenTransfer_ok run.payA
  obtain ⟨_, _, _, _, _, m2⟩ := tokenTransfer_ok run.payB
  obtain ⟨_, _, _, _, _, m3⟩ := tokenMintTo_ok run.mint
  have hck := run.checked
  have hrd : r = ⟨amtA.toNat, amtB.toNat⟩ := by
    rw [run.amtAIs, run.amtBIs]
  have hres := run.result
  have hsA := run.maxA
  have hsB := run.maxB
  rw [UInt64.le_iff_toNat_le] at hsA hsB
  have hposA : 0 < amtA.toNat := by
    rcases Nat.eq_zero_or_pos amtA.toNat with h0 | h0
    · exact absurd (UInt64.toNat_inj.1 (h0.trans UInt64.toNat_zero.symm)) run.posA
    · exact h0
  have hposB : 0 < amtB.toNat := by
    rcases Nat.eq_zero_or_pos amtB.toNat with h0 | h0
    · exact absurd (UInt64.toNat_inj.1 (h0.trans UInt64.toNat_zero.symm)) run.posB
    · exact h0
  refine ⟨ts, tA, tB, pm, amtP.toNat, amtA.toNat, amtB.toNat, poolAt_of hck.owner run.state,
    by rw [← hck.isA]; exact tokenAt_some.2 run.tokA.2,
    by rw [← hck.isB]; exact tokenAt_some.2 run.tokB.2,
    by rw [← hck.isMint]; exact mintAt_some.2 run.mintAcc.2,
    hposA, hsA, hposB, hsB, ?_, ?_, by rw [← hck.isA]; exact m1.mints, ?_, ?_, ?_, ?_, run.effect⟩
  · intro hs
    have hs' : pm.supply > 0 := by
      rw [gt_iff_lt, UInt64.lt_iff_toNat_lt]
      rcases Nat.eq_zero_or_pos pm.supply.toNat with h0 | h0
      · exact absurd (UInt64.toNat_inj.1 (h0.trans UInt64.toNat_zero.symm)) hs
      · exact h0
    rw [if_pos hs', if_pos hs', hrd] at hres
    have := run.amtPIs
    rw [if_pos hs'] at this
    exact ⟨this, hres⟩
  · intro hs
    have hs' : ¬ pm.supply > 0 := by rw [hs]; decide
    rw [if_neg hs', if_neg hs', hrd] at hres
    have := run.amtPIs
    rw [if_neg hs'] at this
    exact ⟨this, hres⟩
  · rw [← m1.frame.mintOf a.sourceB, ← m1.frame.mintOf ts.token_b, ← hck.isB]
    exact m2.mints
  · obtain ⟨d, _, hd1, hd2⟩ := m3.dstTok
    rw [← (m1.frame.trans m2.frame).mintOf a.destination, ← hck.isMint]
    unfold Spec.mintOf
    rw [tokenAt_some.2 hd1, Option.map_some, hd2]
  · intro hh; exact hck.neA (by rw [hh, hck.isA])
  · intro hh; exact hck.neB (by rw [hh, hck.isB])

/-- C30.  A successful single-sided deposit. -/
theorem C30_deposit_single (env : Env) (signers : List Pubkey) (a : DepositSingleAccounts)
    (x minPool : UInt64) (w w' : World)
    (h : exec env signers (.depositSingle a x minPool) w = .ok w') :
    ∃ (ts : SwapV1) (tA tB : TokenAccount) (m : Mint) (dir : TradeDirection) (vault : Pubkey)
      (pool : Nat),
      PoolAt env w a.swap ts ∧ tokenAt w ts.token_a = some tA ∧ tokenAt w ts.token_b = some tB ∧
      mintAt w ts.pool_mint = some m ∧
      (dir = .AtoB ∧ vault = ts.token_a ∨ dir = .BtoA ∧ vault = ts.token_b) ∧
      minPool.toNat ≤ pool ∧ 0 < pool ∧
      (m.supply ≠ 0 → ts.swap_curve.depositSingle env.spl x.toNat tA.amount.toNat tB.amount.toNat
        m.supply.toNat dir ts.fees = .ok pool) ∧
      (m.supply = 0 → pool = 1000000000) ∧
      mintOf w a.source = mintOf w vault ∧ mintOf w a.destination = some ts.pool_mint ∧
      a.source ≠ vault ∧
      Effect w w'
        (fun k => when (k = vault) x.toNat - when (k = a.source) x.toNat +
          when (k = a.destination) pool)
        (fun k => when (k = ts.pool_mint) pool)
        [a.source, vault, ts.pool_mint, a.destination] := by
  obtain ⟨_, hp⟩ := exec_depositSingle h
  obtain ⟨ts, src, tA, tB, dir, pm, amtP, w1, run⟩ := processDepositSingle_ok hp
  obtain ⟨_, _, _, _, _, m1⟩ := tokenTransfer_ok run.pay
  obtain ⟨_, _, _, _, _, m3⟩ := tokenMintTo_ok run.mint
  have hck := run.checked
  have hside : sideOf dir a.tokenA a.tokenB = sideOf dir ts.token_a ts.token_b := by
    rw [hck.isA, hck.isB]
  have hmin := run.minP
  rw [UInt64.le_iff_toNat_le] at hmin
  refine ⟨ts, tA, tB, pm, dir, sideOf dir ts.token_a ts.token_b, amtP.toNat,
    poolAt_of hck.owner run.state,
    by rw [← hck.isA]; exact tokenAt_some.2 run.tokA.2,
    by rw [← hck.isB]; exact tokenAt_some.2 run.tokB.2,
    by rw [← hck.isMint]; exact mintAt_some.2 run.mintAcc.2,
    by cases dir <;> simp [sideOf], hmin, ?_, ?_, ?_, by rw [← hside]; exact m1.mints, ?_, ?_,
    run.effect⟩
  · rcases Nat.eq_zero_or_pos amtP.toNat with h0 | h0
    · exact absurd (UInt64.toNat_inj.1 (h0.trans UInt64.toNat_zero.symm)) run.posP
    · exact h0
  · intro hs
    rcases run.result with ⟨h0, _⟩ | ⟨_, h1⟩
    · exact absurd (UInt64.toNat_inj.1 (h0.trans UInt64.toNat_zero.symm)) hs
    · exact h1
  · intro hs
    rcases run.result with ⟨_, h1⟩ | ⟨h0, _⟩
    · exact h1
    · rw [hs] at h0; exact absurd h0 (by decide)
  · obtain ⟨d, _, hd1, hd2⟩ := m3.dstTok
    rw [← m1.frame.mintOf a.destination, ← hck.isMint]
    unfold Spec.mintOf
    rw [tokenAt_some.2 hd1, Option.map_some, hd2]
  · intro hh
    rw [← hside] at hh
    cases dir with
    | AtoB => exact hck.neA (by rw [if_pos rfl, hh]; rfl)
    | BtoA => exact hck.neB (by rw [if_pos rfl, hh]; rfl)

example : Sample.after (Sample.run Sample.env [Sample.initPrice, Sample.depAll] Sample.start)
    (Sample.bals [13, 14, 17, 16, 30, 31]) =
    .ok [5495, 771, 1100000000, 0, 19505, 19929] := by decide +kernel
example : Sample.after (Sample.run Sample.env [Sample.initPrice, Sample.depOne] Sample.start)
    (Sample.bals [13, 14, 17, 16, 30, 31]) =
    .ok [5700, 700, 1070606060, 0, 19300, 20000] := by decide +kernel

/-! ### C31 -/

/-- C31.  A successful two-sided withdrawal. -/
theorem C31_withdraw_all (env : Env) (signers : List Pubkey) (a : WithdrawAllAccounts)
    (p minA minB : UInt64) (w w' : World)
    (h : exec env signers (.withdrawAll a p minA minB) w = .ok w') :
    ∃ (ts : SwapV1) (tA tB : TokenAccount) (m : Mint) (fee burnt : Nat) (r : TradingTokenResult),
      PoolAt env w a.swap ts ∧ tokenAt w ts.token_a = some tA ∧ tokenAt w ts.token_b = some tB ∧
      mintAt w ts.pool_mint = some m ∧
      burnt + fee = p.toNat ∧
      (a.source = ts.pool_fee_account → fee = 0) ∧
      (a.source ≠ ts.pool_fee_account → ts.fees.ownerWithdrawFee p.toNat = .ok fee) ∧
      ts.swap_curve.poolTokensToTradingTokens env.spl burnt m.supply.toNat tA.amount.toNat
        tB.amount.toNat .Floor = .ok r ∧
      minA.toNat ≤ min tA.amount.toNat r.token_a_amount ∧
      minB.toNat ≤ min tB.amount.toNat r.token_b_amount ∧
      (r.token_a_amount = 0 → tA.amount = 0) ∧ (r.token_b_amount = 0 → tB.amount = 0) ∧
      a.destA ≠ ts.token_a ∧ a.destB ≠ ts.token_b ∧ mintOf w a.source = some ts.pool_mint ∧
      Effect w w'
        (fun k => when (k = ts.pool_fee_account) fee - when (k = a.source) fee -
          when (k = a.source) burnt +
          when (k = a.destA) ((min tA.amount.toNat r.token_a_amount : Nat) : Int) -
          when (k = ts.token_a) ((min tA.amount.toNat r.token_a_amount : Nat) : Int) +
          when (k = a.destB) ((min tB.amount.toNat r.token_b_amount : Nat) : Int) -
          when (k = ts.token_b) ((min tB.amount.toNat r.token_b_amount : Nat) : Int))
        (fun k => - when (k = ts.pool_mint) burnt)
        [a.source, ts.pool_fee_account, ts.pool_mint, ts.token_a, a.destA, ts.token_b, a.destB] := by
  obtain ⟨_, hp⟩ := exec_withdrawAll h
  obtain ⟨ts, tA, tB, pm, fee, burnt, r, amtA, amtB, w1, w2, w3, run⟩ := processWithdrawAll_ok hp
  have hck := run.checked
  have hfa : a.fee = ts.pool_fee_account := by
    rcases hck.isFee with h1 | h1
    · cases h1
    · exact Option.some.inj h1
  have heff := run.effect
  rw [hfa, run.amtAIs, run.amtBIs] at heff
  have hmA := run.minA
  have hmB := run.minB
  rw [UInt64.le_iff_toNat_le] at hmA hmB
  rw [run.amtAIs] at hmA
  rw [run.amtBIs] at hmB
  refine ⟨ts, tA, tB, pm, fee.toNat, burnt.toNat, r, poolAt_of hck.owner run.state,
    by rw [← hck.isA]; exact tokenAt_some.2 run.tokA.2,
    by rw [← hck.isB]; exact tokenAt_some.2 run.tokB.2,
    by rw [← hck.isMint]; exact mintAt_some.2 run.mintAcc.2,
    run.burntIs, ?_, ?_, run.result, hmA, hmB, ?_, ?_, ?_, ?_, ?_, heff⟩
  · intro hs
    rcases run.feeIs with ⟨_, h1⟩ | ⟨h1, _⟩
    · exact h1
    · exact absurd (hfa.trans hs.symm) h1
  · intro hs
    rcases run.feeIs with ⟨h1, _⟩ | ⟨_, h1⟩
    · exact absurd (h1.symm.trans hfa) hs
    · exact h1
  · intro h0
    by_contra hc
    apply run.posA
    refine ⟨UInt64.toNat_inj.1 ?_, hc⟩
    rw [run.amtAIs, h0, Nat.min_zero]
    rfl
  · intro h0
    by_contra hc
    apply run.posB
    refine ⟨UInt64.toNat_inj.1 ?_, hc⟩
    rw [run.amtBIs, h0, Nat.min_zero]
    rfl
  · intro hh; exact hck.neA (by rw [hh, hck.isA])
  · intro hh; exact hck.neB (by rw [hh, hck.isB])
  · obtain ⟨_, _, _, _, _, m2⟩ := tokenBurn_ok run.burn
    obtain ⟨s, _, hs1, _, hs2, _⟩ := m2.srcTok
    rw [← (ifPos_effect run.payFee).frame.mintOf a.source, ← hck.isMint]
    unfold Spec.mintOf
    rw [tokenAt_some.2 hs1, Option.map_some, hs2]

/-- C31.  A successful single-sided withdrawal. -/
theorem C31_withdraw_single (env : Env) (signers : List Pubkey) (a : WithdrawSingleAccounts)
    (x maxPool : UInt64) (w w' : World)
    (h : exec env signers (.withdrawSingle a x maxPool) w = .ok w') :
    ∃ (ts : SwapV1) (tA tB : TokenAccount) (m : Mint) (dir : TradeDirection) (vault : Pubkey)
      (fee burnt : Nat),
      PoolAt env w a.swap ts ∧ tokenAt w ts.token_a = some tA ∧ tokenAt w ts.token_b = some tB ∧
      mintAt w ts.pool_mint = some m ∧
      (dir = .AtoB ∧ vault = ts.token_a ∨ dir = .BtoA ∧ vault = ts.token_b) ∧
      ts.swap_curve.withdrawSingle env.spl x.toNat tA.amount.toNat tB.amount.toNat m.supply.toNat
        dir ts.fees = .ok burnt ∧
      (a.source = ts.pool_fee_account → fee = 0) ∧
      (a.source ≠ ts.pool_fee_account → ts.fees.ownerWithdrawFee burnt = .ok fee) ∧
      burnt + fee ≤ maxPool.toNat ∧ 0 < burnt + fee ∧
      mintOf w a.destination = mintOf w vault ∧ mintOf w a.source = some ts.pool_mint ∧
      a.destination ≠ vault ∧
      Effect w w'
        (fun k => when (k = ts.pool_fee_account) fee - when (k = a.source) fee -
          when (k = a.source) burnt + when (k = a.destination) x.toNat - when (k = vault) x.toNat)
        (fun k => - when (k = ts.pool_mint) burnt)
        [a.source, ts.pool_fee_account, ts.pool_mint, vault, a.destination] := by
  obtain ⟨_, hp⟩ := exec_withdrawSingle h
  obtain ⟨ts, dst, tA, tB, dir, pm, fee, burnt, w1, w2, run⟩ := processWithdrawSingle_ok hp
  have hck := run.checked
  have hfa : a.fee = ts.pool_fee_account := by
    rcases hck.isFee with h1 | h1
    · cases h1
    · exact Option.some.inj h1
  have hside : sideOf dir a.tokenA a.tokenB = sideOf dir ts.token_a ts.token_b := by
    rw [hck.isA, hck.isB]
  have heff := run.effect
  rw [hfa] at heff
  obtain ⟨_, _, _, _, _, m2⟩ := tokenBurn_ok run.burn
  obtain ⟨_, _, _, _, _, m3⟩ := tokenTransfer_ok run.pay
  have hf1 := (ifPos_effect run.payFee).frame
  refine ⟨ts, tA, tB, pm, dir, sideOf dir ts.token_a ts.token_b, fee.toNat, burnt.toNat,
    poolAt_of hck.owner run.state,
    by rw [← hck.isA]; exact tokenAt_some.2 run.tokA.2,
    by rw [← hck.isB]; exact tokenAt_some.2 run.tokB.2,
    by rw [← hck.isMint]; exact mintAt_some.2 run.mintAcc.2,
    by cases dir <;> simp [sideOf], run.result, ?_, ?_, run.maxP, Nat.pos_of_ne_zero run.posP,
    ?_, ?_, ?_, heff⟩
  · intro hs
    rcases run.feeIs with ⟨_, h1⟩ | ⟨h1, _⟩
    · exact h1
    · exact absurd (hfa.trans hs.symm) h1
  · intro hs
    rcases run.feeIs with ⟨h1, _⟩ | ⟨_, h1⟩
    · exact absurd (h1.symm.trans hfa) hs
    · exact h1
  · rw [← hside, ← (hf1.trans m2.frame).mintOf a.destination, ← (hf1.trans m2.frame).mintOf]
    exact m3.mints.symm
  · obtain ⟨s, _, hs1, _, hs2, _⟩ := m2.srcTok
    rw [← hf1.mintOf a.source, ← hck.isMint]
    unfold Spec.mintOf
    rw [tokenAt_some.2 hs1, Option.map_some, hs2]
  · intro hh
    rw [← hside] at hh
    cases dir with
    | AtoB => exact hck.neA (by rw [if_pos rfl, hh]; rfl)
    | BtoA => exact hck.neB (by rw [if_pos rfl, hh]; rfl)

example : Sample.after (Sample.run Sample.env [Sample.initPrice, Sample.wdAll] Sample.start)
    (Sample.bals [13, 14, 17, 16, 30, 31]) =
    .ok [4510, 630, 900000000, 1000000, 20490, 20070] := by decide +kernel
example : Sample.after (Sample.run Sample.env [Sample.initPrice, Sample.wdOne] Sample.start)
    (Sample.bals [13, 14, 17, 16, 30, 31]) =
    .ok [4300, 700, 928687879, 706060, 20700, 20000] := by decide +kernel

/-! ### C32 -/

theorem init_conserved {env : Env} {signers : List Pubkey} {f : Fees} {c : Curve}
    {a : InitAccounts} {w w' : World} (h : processInitialize env signers f c a w = .ok w')
    {F : Finset Pubkey} (hF : a.destination ∈ F) : Conserved F a.poolMint w w' := by
  obtain ⟨tA, tB, fa, de, pm, bytes, old, w1, r⟩ := processInitialize_ok h
  obtain ⟨_, _, _, _, _, hm⟩ := tokenMintTo_ok r.mint
  have := (hm.conserved hF).trans (write_conserved (l' := bytes) r.oldIs F a.poolMint)
  rw [← r.write] at this
  exact this

/-- C32.  No instruction creates or destroys tokens of any mint but the pool's own; tokens of the
pool mint appear and vanish exactly as its supply says. -/
theorem C32_conservation (env : Env) (signers : List Pubkey) (i : Instr) (w w' : World)
    (h : exec env signers i w = .ok w') (F : Finset Pubkey) (hF : ∀ k ∈ i.named, k ∈ F) (m : Pubkey) :
    (m ≠ i.poolMint → total w' F m = total w F m ∧ supply w' m = supply w m) ∧
    (m = i.poolMint → total w' F m - total w F m = supply w' m - supply w m) := by
  have key : Conserved F i.poolMint w w' := by
    cases i with
    | initConstantPrice a f p =>
      obtain ⟨_, hp⟩ := exec_init (.price a f p) h
      exact init_conserved hp (hF _ (by simp [Instr.named]))
    | initLinearPrice a c =>
      obtain ⟨_, hp⟩ := exec_init (.linear a c) h
      exact init_conserved hp (hF _ (by simp [Instr.named]))
    | swap a x y =>
      obtain ⟨_, hp⟩ := exec_swap h
      obtain ⟨ts, src, dst, pm, r, pt, amtIn, amtOut, w1, w2, run⟩ := processSwap_ok hp
      obtain ⟨_, _, _, _, _, m1⟩ := tokenTransfer_ok run.pay
      obtain ⟨_, _, _, _, _, m3⟩ := tokenTransfer_ok run.payOut
      exact ((m1.conserved _ (hF _ (by simp [Instr.named])) (hF _ (by simp [Instr.named]))).trans
        (feeStep_conserved run.mint (hF _ (by simp [Instr.named])))).trans
        (m3.conserved _ (hF _ (by simp [Instr.named])) (hF _ (by simp [Instr.named])))
    | depositAll a x y z =>
      obtain ⟨_, hp⟩ := exec_depositAll h
      obtain ⟨ts, tA, tB, pm, r, amtA, amtB, amtP, w1, w2, run⟩ := processDepositAll_ok hp
      obtain ⟨_, _, _, _, _, m1⟩ := tokenTransfer_ok run.payA
      obtain ⟨_, _, _, _, _, m2⟩ := tokenTransfer_ok run.payB
      obtain ⟨_, _, _, _, _, m3⟩ := tokenMintTo_ok run.mint
      exact ((m1.conserved _ (hF _ (by simp [Instr.named])) (hF _ (by simp [Instr.named]))).trans
        (m2.conserved _ (hF _ (by simp [Instr.named])) (hF _ (by simp [Instr.named])))).trans
        (m3.conserved (hF _ (by simp [Instr.named])))
    | withdrawAll a x y z =>
      obtain ⟨_, hp⟩ := exec_withdrawAll h
      obtain ⟨ts, tA, tB, pm, fee, burnt, r, amtA, amtB, w1, w2, w3, run⟩ :=
        processWithdrawAll_ok hp
      obtain ⟨_, _, _, _, _, m2⟩ := tokenBurn_ok run.burn
      exact (((ifPos_conserved run.payFee _ (hF _ (by simp [Instr.named]))
        (hF _ (by simp [Instr.named]))).trans (m2.conserved (hF _ (by simp [Instr.named])))).trans
        (ifPos_conserved run.payA _ (hF _ (by simp [Instr.named]))
        (hF _ (by simp [Instr.named])))).trans
        (ifPos_conserved run.payB _ (hF _ (by simp [Instr.named])) (hF _ (by simp [Instr.named])))
    | depositSingle a x y =>
      obtain ⟨_, hp⟩ := exec_depositSingle h
      obtain ⟨ts, src, tA, tB, dir, pm, amtP, w1, run⟩ := processDepositSingle_ok hp
      obtain ⟨_, _, _, _, _, m1⟩ := tokenTransfer_ok run.pay
      obtain ⟨_, _, _, _, _, m3⟩ := tokenMintTo_ok run.mint
      exact (m1.conserved _ (hF _ (by simp [Instr.named]))
        (hF _ (by cases dir <;> simp [Instr.named, sideOf]))).trans
        (m3.conserved (hF _ (by simp [Instr.named])))
    | withdrawSingle a x y =>
      obtain ⟨_, hp⟩ := exec_withdrawSingle h
      obtain ⟨ts, dst, tA, tB, dir, pm, fee, burnt, w1, w2, run⟩ := processWithdrawSingle_ok hp
      obtain ⟨_, _, _, _, _, m2⟩ := tokenBurn_ok run.burn
      obtain ⟨_, _, _, _, _, m3⟩ := tokenTransfer_ok run.pay
      exact ((ifPos_conserved run.payFee _ (hF _ (by simp [Instr.named]))
        (hF _ (by simp [Instr.named]))).trans (m2.conserved (hF _ (by simp [Instr.named])))).trans
        (m3.conserved _ (hF _ (by cases dir <;> simp [Instr.named, sideOf]))
          (hF _ (by simp [Instr.named])))
  constructor
  · intro hm
    have := key.1 m
    rw [when_neg hm] at this
    exact ⟨by omega, key.2 m hm⟩
  · intro hm
    have := key.1 m
    rw [when_pos hm] at this
    omega

/-- C32.  For every instruction but initialise the pool mint named is the one recorded in the
pool's state, so "the pool's own mint" is not up to the caller. -/
theorem C32_pool_mint (env : Env) (signers : List Pubkey) (i : Instr) (w w' : World)
    (h : exec env signers i w = .ok w') :
    (∃ a f c, InitOf i a f c) ∨ ∃ ts, PoolAt env w i.pool ts ∧ i.poolMint = ts.pool_mint := by
  cases i with
  | initConstantPrice a f p => exact Or.inl ⟨_, _, _, .price a f p⟩
  | initLinearPrice a c => exact Or.inl ⟨_, _, _, .linear a c⟩
  | swap a x y =>
    obtain ⟨_, hp⟩ := exec_swap h
    obtain ⟨ts, src, dst, pm, r, pt, amtIn, amtOut, w1, w2, run⟩ := processSwap_ok hp
    exact Or.inr ⟨ts, poolAt_of run.owner run.state, run.mintIs⟩
  | depositAll a x y z =>
    obtain ⟨_, hp⟩ := exec_depositAll h
    obtain ⟨ts, tA, tB, pm, r, amtA, amtB, amtP, w1, w2, run⟩ := processDepositAll_ok hp
    exact Or.inr ⟨ts, poolAt_of run.checked.owner run.state, run.checked.isMint⟩
  | withdrawAll a x y z =>
    obtain ⟨_, hp⟩ := exec_withdrawAll h
    obtain ⟨ts, tA, tB, pm, fee, burnt, r, amtA, amtB, w1, w2, w3, run⟩ := processWithdrawAll_ok hp
    exact Or.inr ⟨ts, poolAt_of run.checked.owner run.state, run.checked.isMint⟩
  | depositSingle a x y =>
    obtain ⟨_, hp⟩ := exec_depositSingle h
    obtain ⟨ts, src, tA, tB, dir, pm, amtP, w1, run⟩ := processDepositSingle_ok hp
    exact Or.inr ⟨ts, poolAt_of run.checked.owner run.state, run.checked.isMint⟩
  | withdrawSingle a x y =>
    obtain ⟨_, hp⟩ := exec_withdrawSingle h
    obtain ⟨ts, dst, tA, tB, dir, pm, fee, burnt, w1, w2, run⟩ := processWithdrawSingle_ok hp
    exact Or.inr ⟨ts, poolAt_of run.checked.owner run.state, run.checked.isMint⟩

example : Sample.trade.named.length = 10 ∧ Sample.trade.poolMint = Sample.key 15 := by
  decide +kernel

/-! ### C33 -/

theorem debit_split {w w1 w' : World} {k : Pubkey} (h : bal w' k < bal w k) :
    bal w1 k < bal w k ∨ bal w' k < bal w1 k := by omega

/-- C33.  If an instruction lowers the balance of a token account, its owner or delegate signed the
transaction, or the account is a vault of the pool named in the instruction, spendable by that
pool's derived authority. -/
theorem C33_no_theft (env : Env) (signers : List Pubkey) (i : Instr) (w w' : World)
    (h : exec env signers i w = .ok w') (k : Pubkey) (hk : bal w' k < bal w k) :
    (∃ s ∈ signers, Spender w k s) ∨
    ∃ ts pda, PoolAt env w i.pool ts ∧ env.createPda i.pool ts.bump_seed = some pda ∧
      (k = ts.token_a ∨ k = ts.token_b) ∧ Spender w k pda := by
  have init : ∀ {f : Fees} {c : Curve} {a : InitAccounts},
      processInitialize env signers f c a w = .ok w' → False := by
    intro f c a hp
    obtain ⟨tA, tB, fa, de, pm, bytes, old, w1, r⟩ := processInitialize_ok hp
    rw [r.write, (write_bal r.oldIs k).1, r.minted.bal] at hk
    have := when_nonneg (c := k = a.destination) (x := 1000000000) (by decide)
    omega
  cases i with
  | initConstantPrice a f p => exact (init (exec_init (.price a f p) h).2).elim
  | initLinearPrice a c => exact (init (exec_init (.linear a c) h).2).elim
  | swap a x y =>
    obtain ⟨hs, hp⟩ := exec_swap h
    obtain ⟨ts, src, dst, pm, r, pt, amtIn, amtOut, w1, w2, run⟩ := processSwap_ok hp
    obtain ⟨_, _, _, _, _, m1⟩ := tokenTransfer_ok run.pay
    obtain ⟨_, _, _, _, _, m3⟩ := tokenTransfer_ok run.payOut
    have hf := m1.frame.trans (feeStep_effect run.mint).frame
    rcases debit_split (w1 := w2) hk with h1 | h1
    · rcases debit_split (w1 := w1) h1 with h2 | h2
      · exact Or.inl ⟨_, hs, (m1.debit h2).2⟩
      · exact (feeStep_debit run.mint h2).elim
    · obtain ⟨e1, e2⟩ := m3.debit h1
      exact Or.inr ⟨ts, _, poolAt_of run.owner run.state, run.pda, by rw [e1]; exact run.dstIs,
        Spender.back hf e2⟩
  | depositAll a x y z =>
    obtain ⟨hs, hp⟩ := exec_depositAll h
    obtain ⟨ts, tA, tB, pm, r, amtA, amtB, amtP, w1, w2, run⟩ := processDepositAll_ok hp
    obtain ⟨_, _, _, _, _, m1⟩ := tokenTransfer_ok run.payA
    obtain ⟨_, _, _, _, _, m2⟩ := tokenTransfer_ok run.payB
    obtain ⟨_, _, _, _, _, m3⟩ := tokenMintTo_ok run.mint
    rcases debit_split (w1 := w2) hk with h1 | h1
    · rcases debit_split (w1 := w1) h1 with h2 | h2
      · exact Or.inl ⟨_, hs, (m1.debit h2).2⟩
      · exact Or.inl ⟨_, hs, Spender.back m1.frame (m2.debit h2).2⟩
    · exact (m3.debit h1).elim
  | withdrawAll a x y z =>
    obtain ⟨hs, hp⟩ := exec_withdrawAll h
    obtain ⟨ts, tA, tB, pm, fee, burnt, r, amtA, amtB, w1, w2, w3, run⟩ := processWithdrawAll_ok hp
    obtain ⟨_, _, _, _, _, m2⟩ := tokenBurn_ok run.burn
    have f1 := (ifPos_effect run.payFee).frame
    have f2 := f1.trans m2.frame
    have f3 := f2.trans (ifPos_effect run.payA).frame
    rcases debit_split (w1 := w3) hk with h1 | h1
    · rcases debit_split (w1 := w2) h1 with h2 | h2
      · rcases debit_split (w1 := w1) h2 with h3 | h3
        · exact Or.inl ⟨_, hs, (ifPos_debit run.payFee h3).2⟩
        · exact Or.inl ⟨_, hs, Spender.back f1 (m2.debit h3).2⟩
      · obtain ⟨e1, e2⟩ := ifPos_debit run.payA h2
        exact Or.inr ⟨ts, _, poolAt_of run.checked.owner run.state, run.checked.pda,
          Or.inl (e1.trans run.checked.isA), Spender.back f2 e2⟩
    · obtain ⟨e1, e2⟩ := ifPos_debit run.payB h1
      exact Or.inr ⟨ts, _, poolAt_of run.checked.owner run.state, run.checked.pda,
        Or.inr (e1.trans run.checked.isB), Spender.back f3 e2⟩
  | depositSingle a x y =>
    obtain ⟨hs, hp⟩ := exec_depositSingle h
    obtain ⟨ts, src, tA, tB, dir, pm, amtP, w1, run⟩ := processDepositSingle_ok hp
    obtain ⟨_, _, _, _, _, m1⟩ := tokenTransfer_ok run.pay
    obtain ⟨_, _, _, _, _, m3⟩ := tokenMintTo_ok run.mint
    rcases debit_split (w1 := w1) hk with h1 | h1
    · exact Or.inl ⟨_, hs, (m1.debit h1).2⟩
    · exact (m3.debit h1).elim
  | withdrawSingle a x y =>
    obtain ⟨hs, hp⟩ := exec_withdrawSingle h
    obtain ⟨ts, dst, tA, tB, dir, pm, fee, burnt, w1, w2, run⟩ := processWithdrawSingle_ok hp
    obtain ⟨_, _, _, _, _, m2⟩ := tokenBurn_ok run.burn
    obtain ⟨_, _, _, _, _, m3⟩ := tokenTransfer_ok run.pay
    have f1 := (ifPos_effect run.payFee).frame
    have f2 := f1.trans m2.frame
    rcases debit_split (w1 := w2) hk with h1 | h1
    · rcases debit_split (w1 := w1) h1 with h2 | h2
      · exact Or.inl ⟨_, hs, (ifPos_debit run.payFee h2).2⟩
      · exact Or.inl ⟨_, hs, Spender.back f1 (m2.debit h2).2⟩
    · obtain ⟨e1, e2⟩ := m3.debit h1
      refine Or.inr ⟨ts, _, poolAt_of run.checked.owner run.state, run.checked.pda, ?_,
        Spender.back f2 e2⟩
      cases dir with
      | AtoB => exact Or.inl (e1.trans run.checked.isA)
      | BtoA => exact Or.inr (e1.trans run.checked.isB)

example : Sample.after (Sample.run Sample.env [Sample.initPrice] Sample.start) (fun w =>
      [bal w (Sample.key 14), bal w (Sample.key 30)]) = .ok [700, 20000] ∧
    Sample.after (Sample.run Sample.env [Sample.initPrice, Sample.trade] Sample.start) (fun w =>
      [bal w (Sample.key 14), bal w (Sample.key 30)]) = .ok [561, 19005] := by decide +kernel
example : Sample.after (do
      let w ← Sample.run Sample.env [Sample.initPrice] Sample.start
      exec Sample.env [Sample.key 51] Sample.trade w) (Sample.bals []) =
    .error .MissingRequiredSignature := by decide +kernel

/-! ### C36 -/

theorem linear_withdrawSingle {e : SplEnv} {c : LinearPriceCurve} {s x y m n : Nat}
    {dir : TradeDirection} {f : Fees}
    (h : (Curve.linear c).withdrawSingle e s x y m dir f = .ok n) : s = 0 ∧ n = 0 := by
  unfold Curve.withdrawSingle at h
  split at h
  · rename_i hs; exact ⟨hs, (Res.ok.inj h).symm⟩
  · rw [Res.bind_eq_ok] at h
    obtain ⟨_, _, h⟩ := h
    rw [Res.bind_eq_ok] at h
    obtain ⟨_, _, h⟩ := h
    rw [Res.bind_eq_ok] at h
    obtain ⟨_, _, h⟩ := h
    cases h

theorem linear_depositSingle {e : SplEnv} {c : LinearPriceCurve} {s x y m n : Nat}
    {dir : TradeDirection} {f : Fees}
    (h : (Curve.linear c).depositSingle e s x y m dir f = .ok n) : s = 0 ∧ n = 0 := by
  unfold Curve.depositSingle at h
  split at h
  · rename_i hs; exact ⟨hs, (Res.ok.inj h).symm⟩
  · rw [Res.bind_eq_ok] at h
    obtain ⟨_, _, h⟩ := h
    rw [Res.bind_eq_ok] at h
    obtain ⟨_, _, h⟩ := h
    rw [Res.bind_eq_ok] at h
    obtain ⟨_, _, h⟩ := h
    cases h

/-- C36.  Both withdraw instructions fail on every linear pool, in every ledger. -/
theorem C36_no_withdrawals (env : Env) (signers : List Pubkey) (w : World) (pool : Pubkey)
    (ts : SwapV1) (c : LinearPriceCurve) (hp : PoolAt env w pool ts) (hc : ts.swap_curve = .linear c) :
    (∀ (a : WithdrawAllAccounts) (p x y : UInt64), a.swap = pool →
      ∀ w', exec env signers (.withdrawAll a p x y) w ≠ .ok w') ∧
    (∀ (a : WithdrawSingleAccounts) (x p : UInt64), a.swap = pool →
      ∀ w', exec env signers (.withdrawSingle a x p) w ≠ .ok w') := by
  constructor
  · intro a p x y ha w' h
    obtain ⟨_, h⟩ := exec_withdrawAll h
    obtain ⟨ts', tA, tB, pm, fee, burnt, r, amtA, amtB, w1, w2, w3, run⟩ := processWithdrawAll_ok h
    have e1 := run.state
    rw [ha, unpackSwap_of hp] at e1
    cases e1
    have := run.result
    rw [hc] at this
    cases this
  · intro a x p ha w' h
    obtain ⟨_, h⟩ := exec_withdrawSingle h
    obtain ⟨ts', dst, tA, tB, dir, pm, fee, burnt, w1, w2, run⟩ := processWithdrawSingle_ok h
    have e1 := run.state
    rw [ha, unpackSwap_of hp] at e1
    cases e1
    have h1 := run.result
    rw [hc] at h1
    obtain ⟨_, h0⟩ := linear_withdrawSingle h1
    apply run.posP
    rcases run.feeIs with ⟨_, h2⟩ | ⟨_, h2⟩
    · omega
    · rw [h0] at h2
      unfold Fees.ownerWithdrawFee calculateFee at h2
      rw [if_pos (Or.inr rfl)] at h2
      have := (Res.ok.inj h2).symm
      omega

/-- Does the ledger reached hold a pool with a linear curve at this address? -/
def linearAt (r : Except Err World) (k : Pubkey) : Bool :=
  match r with
  | .ok w => match unpackSwap w k with
    | .ok ts => match ts.swap_curve with
      | .linear _ => true
      | _ => false
    | .error _ => false
  | .error _ => false

example : linearAt (Sample.run Sample.env [Sample.initLinear] Sample.start) (Sample.key 1) = true := by
  decide +kernel

/-! ### C37 -/

/-- C37.  The full claim: both deposit instructions fail on every linear pool. -/
def C37_statement (env : Env) (w : World) : Prop :=
  ∀ (signers : List Pubkey) (pool : Pubkey) (ts : SwapV1) (c : LinearPriceCurve),
    PoolAt env w pool ts → ts.swap_curve = .linear c →
    (∀ (a : DepositAllAccounts) (p x y : UInt64), a.swap = pool →
      ∀ w', exec env signers (.depositAll a p x y) w ≠ .ok w') ∧
    (∀ (a : DepositSingleAccounts) (x p : UInt64), a.swap = pool →
      ∀ w', exec env signers (.depositSingle a x p) w ≠ .ok w')

/-- C37, proved part: the two-sided deposit always fails; the single-sided deposit fails whenever
any pool tokens are outstanding.  Missing: single-sided deposits after all pool tokens were burnt
(they succeed, see `C37_false`). -/
theorem C37_no_deposits_partial (env : Env) (signers : List Pubkey) (w : World) (pool : Pubkey)
    (ts : SwapV1) (c : LinearPriceCurve) (hp : PoolAt env w pool ts) (hc : ts.swap_curve = .linear c) :
    (∀ (a : DepositAllAccounts) (p x y : UInt64), a.swap = pool →
      ∀ w', exec env signers (.depositAll a p x y) w ≠ .ok w') ∧
    (0 < supply w ts.pool_mint → ∀ (a : DepositSingleAccounts) (x p : UInt64), a.swap = pool →
      ∀ w', exec env signers (.depositSingle a x p) w ≠ .ok w') := by
  constructor
  · intro a p x y ha w' h
    obtain ⟨_, h⟩ := exec_depositAll h
    obtain ⟨ts', tA, tB, pm, r, amtA, amtB, amtP, w1, w2, run⟩ := processDepositAll_ok h
    have e1 := run.state
    rw [ha, unpackSwap_of hp] at e1
    cases e1
    have := run.allowed
    rw [hc] at this
    cases this
  · intro hsup a x p ha w' h
    obtain ⟨_, h⟩ := exec_depositSingle h
    obtain ⟨ts', src, tA, tB, dir, pm, amtP, w1, run⟩ := processDepositSingle_ok h
    have e1 := run.state
    rw [ha, unpackSwap_of hp] at e1
    cases e1
    have hm := run.mintAcc.2
    rw [run.checked.isMint] at hm
    rw [supply_mint hm] at hsup
    rcases run.result with ⟨h0, _⟩ | ⟨_, h1⟩
    · omega
    · rw [hc] at h1
      exact run.posP (UInt64.toNat_inj.1 ((linear_depositSingle h1).2.trans UInt64.toNat_zero.symm))

/-! ### C39 -/

/-- C39.  The public swap credits freshly minted pool tokens to the recorded fee account only:
every other account changes exactly by the two transfers. -/
theorem C39_minted_to_fee_account (env : Env) (signers : List Pubkey) (a : SwapAccounts)
    (x y : UInt64) (w w' : World) (h : exec env signers (.swap a x y) w = .ok w') :
    ∃ (ts : SwapV1) (xin yout : Nat), PoolAt env w a.swap ts ∧
      (∀ k, k ≠ ts.pool_fee_account → bal w' k = bal w k + when (k = a.swapSource) xin -
        when (k = a.source) xin + when (k = a.destination) yout - when (k = a.swapDestination) yout) ∧
      bal w' ts.pool_fee_account = bal w ts.pool_fee_account +
        when (ts.pool_fee_account = a.swapSource) xin - when (ts.pool_fee_account = a.source) xin +
        when (ts.pool_fee_account = a.destination) yout -
        when (ts.pool_fee_account = a.swapDestination) yout +
        (supply w' ts.pool_mint - supply w ts.pool_mint) := by
  obtain ⟨ts, src, dst, m, dir, r, fee, h1, _, _, _, _, _, _, _, _, _, _, _, _, _, _, he⟩ :=
    C29_swap env signers a x y w w' h
  refine ⟨ts, r.source_amount_swapped, r.destination_amount_swapped, h1, fun k hk => ?_, ?_⟩
  · rw [he.bal, when_neg (c := k = ts.pool_fee_account) hk]; omega
  · rw [he.bal, he.supply, when_pos (c := ts.pool_fee_account = ts.pool_fee_account) rfl,
      when_pos (c := ts.pool_mint = ts.pool_mint) rfl]
    omega

/-- C39.  When the pool does not itself trade pool tokens, no pool-token account but the recorded
fee account changes in a swap. -/
theorem C39_no_host_fee (env : Env) (signers : List Pubkey) (a : SwapAccounts)
    (x y : UInt64) (w w' : World) (h : exec env signers (.swap a x y) w = .ok w') (ts : SwapV1)
    (hp : PoolAt env w a.swap ts) (hA : mintOf w ts.token_a ≠ some ts.pool_mint)
    (hB : mintOf w ts.token_b ≠ some ts.pool_mint) (k : Pubkey) (hk : k ≠ ts.pool_fee_account)
    (hm : mintOf w k = some ts.pool_mint) : bal w' k = bal w k := by
  obtain ⟨ts', src, dst, m, dir, r, fee, h1, h2, _, _, _, _, _, _, _, _, _, h3, h4, _, _, he⟩ :=
    C29_swap env signers a x y w w' h
  have : ts' = ts := by
    have e1 := unpackSwap_of h1
    rw [unpackSwap_of hp] at e1
    cases e1; rfl
  subst this
  have hs : mintOf w a.swapSource ≠ some ts'.pool_mint ∧
      mintOf w a.swapDestination ≠ some ts'.pool_mint := by
    rcases h2 with ⟨_, e1, e2⟩ | ⟨_, e1, e2⟩
    · rw [e1, e2]; exact ⟨hA, hB⟩
    · rw [e1, e2]; exact ⟨hB, hA⟩
  rw [he.bal, when_neg (c := k = ts'.pool_fee_account) hk,
    when_neg (c := k = a.swapSource) (fun hh => hs.1 (hh ▸ hm)),
    when_neg (c := k = a.source) (fun hh => hs.1 (h3 ▸ hh ▸ hm)),
    when_neg (c := k = a.swapDestination) (fun hh => hs.2 (hh ▸ hm)),
    when_neg (c := k = a.destination) (fun hh => hs.2 (h4 ▸ hh ▸ hm))]
  omega

example : Sample.after (Sample.run Sample.env [Sample.initPrice, Sample.trade] Sample.start)
    (fun w => [bal w (Sample.key 16), bal w (Sample.key 17), supply w (Sample.key 15)]) =
    .ok [1914937, 1000000000, 1001914937] := by decide +kernel

/-! ### C40 -/

/-- C40.  With constraints compiled in, every successful initialise satisfies them. -/
theorem C40_constraints (env : Env) (signers : List Pubkey) (i : Instr) (a : InitAccounts) (f : Fees)
    (c : Curve) (sc : SwapConstraints) (w w' : World) (hi : InitOf i a f c)
    (hsc : env.constraints = some sc) (h : exec env signers i w = .ok w') :
    ∃ owner tFee, sc.ownerKey = some owner ∧ tokenAt w a.fee = some tFee ∧ tFee.owner = owner ∧
      c.curveType ∈ sc.valid_curve_types ∧
      (∀ k : FeeKind, k.den f = k.den sc.fees ∧ k.num sc.fees ≤ k.num f) ∧
      FeeKind.host.num f = FeeKind.host.num sc.fees := by
  obtain ⟨_, hp⟩ := exec_init hi h
  obtain ⟨tA, tB, fa, de, pm, bytes, old, w1, r⟩ := processInitialize_ok hp
  have hc := r.constraints
  rw [hsc] at hc
  unfold checkConstraints at hc
  rw [Except_bind_ok] at hc
  obtain ⟨owner, ho, hc⟩ := hc
  rw [optErr_ok] at ho
  rw [req_bind, Except_bind_ok] at hc
  obtain ⟨hfo, _, hcv, hfv⟩ := hc
  unfold SwapConstraints.validateCurve at hcv
  unfold SwapConstraints.validateFees at hfv
  rw [req_ok] at hcv hfv
  obtain ⟨f1, f2, f3, f4, f5, f6, f7, f8⟩ := hfv
  rw [ge_iff_le, UInt64.le_iff_toNat_le] at f1 f3 f5
  refine ⟨owner, fa, ho, tokenAt_some.2 r.feeTok.2, hfo, hcv, fun k => ?_, congrArg UInt64.toNat f7⟩
  cases k with
  | trade => exact ⟨congrArg UInt64.toNat f2, f1⟩
  | ownerTrade => exact ⟨congrArg UInt64.toNat f4, f3⟩
  | ownerWithdraw => exact ⟨congrArg UInt64.toNat f6, f5⟩
  | host => exact ⟨congrArg UInt64.toNat f8, Nat.le_of_eq (congrArg UInt64.toNat f7).symm⟩

/-- C40.  The production constraints: fee account owned by the configured owner, a constant-price
curve, at least 5/10000 for the owner, host share exactly 20/100, no withdrawal fee. -/
theorem C40_production (env : Env) (signers : List Pubkey) (i : Instr) (a : InitAccounts) (f : Fees)
    (c : Curve) (key : Option Pubkey) (w w' : World) (hi : InitOf i a f c)
    (hsc : env.constraints = some (.production key)) (h : exec env signers i w = .ok w') :
    ∃ owner tFee p, key = some owner ∧ tokenAt w a.fee = some tFee ∧ tFee.owner = owner ∧
      c = .constantPrice p ∧
      f.trade_fee_denominator = 10000 ∧ f.owner_trade_fee_denominator = 10000 ∧
      5 ≤ f.owner_trade_fee_numerator.toNat ∧ f.owner_withdraw_fee_denominator = 0 ∧
      f.owner_withdraw_fee_numerator = 0 ∧
      f.host_fee_numerator = 20 ∧ f.host_fee_denominator = 100 := by
  obtain ⟨owner, tFee, h1, h2, h3, h4, h5, h6⟩ := C40_constraints env signers i a f c _ w w' hi hsc h
  obtain ⟨_, hp⟩ := exec_init hi h
  obtain ⟨tA, tB, fa, de, pm, bytes, old, w1, r⟩ := processInitialize_ok hp
  have hv := (C15_validate f).1 r.feesOk .ownerWithdraw
  have hd : f.owner_withdraw_fee_denominator.toNat = 0 := (h5 .ownerWithdraw).1
  have hn : f.owner_withdraw_fee_numerator.toNat = 0 := by
    rcases hv with ⟨hv, _⟩ | hv
    · exact hv
    · have : (FeeKind.ownerWithdraw).den f = 0 := hd
      omega
  have hp : ∃ p, c = .constantPrice p := by
    cases hi with
    | price a f p => exact ⟨p, rfl⟩
    | linear a c =>
      have h4' : CurveType.LinearPrice ∈ [CurveType.ConstantPrice, CurveType.ConstantProduct] := h4
      exact absurd h4' (by decide)
  obtain ⟨p, hp⟩ := hp
  exact ⟨owner, tFee, p, h1, h2, h3, hp, UInt64.toNat_inj.1 (h5 .trade).1,
    UInt64.toNat_inj.1 (h5 .ownerTrade).1, (h5 .ownerTrade).2, UInt64.toNat_inj.1 hd,
    UInt64.toNat_inj.1 hn, UInt64.toNat_inj.1 h6, UInt64.toNat_inj.1 (h5 .host).1⟩

/-- C40.  In a production build a linear pool can never be created. -/
theorem C40_no_linear (env : Env) (signers : List Pubkey) (a : InitAccounts) (c : LinearPriceCurve)
    (key : Option Pubkey) (w w' : World) (hsc : env.constraints = some (.production key)) :
    exec env signers (.initLinearPrice a c) w ≠ .ok w' := by
  intro h
  obtain ⟨_, _, _, _, _, _, h1, _⟩ := C40_production env signers _ a _ _ key w w' (.linear a c) hsc h
  cases h1

example : Sample.after (exec Sample.prodEnv [Sample.key 2] (.initConstantPrice Sample.init2
    ⟨25, 10000, 5, 10000, 0, 0, 20, 100⟩ 7) Sample.start) (Sample.bals [17]) =
    .ok [1000000000] := by decide +kernel
example : Sample.after (exec Sample.prodEnv [Sample.key 2] (.initConstantPrice Sample.init2
    ⟨25, 10000, 4, 10000, 0, 0, 20, 100⟩ 7) Sample.start) (Sample.bals [17]) =
    .error (.swap .InvalidFee) := by decide +kernel
example : Sample.after (exec Sample.prodEnv [Sample.key 1] Sample.initLinear Sample.start)
    (Sample.bals [17]) = .error (.swap .UnsupportedCurveType) := by decide +kernel

end Props
end Verif
