import Verif.Lemmas.Shares
import Verif.Props.Live

/-
Property C57: how the owner fee is shared with a host.  The public instructions never name a host
(C39); `process_swap` itself accepts one as an eleventh account.
-/

namespace Verif.Props
open Verif Spec Processor

theorem supply_bounds (w : World) (k : Pubkey) : 0 ≤ supply w k ∧ supply w k < 2 ^ 64 := by
  unfold supply
  cases mintAt w k with
  | none => decide
  | some m =>
    have := m.supply.toNat_lt
    simp only []
    omega

theorem hostStep_ok {env : Env} {signers : List Pubkey} {ts : SwapV1} {a : SwapAccounts}
    {h : Pubkey} {pt : Nat} {w w' : World}
    (hv : validateFraction ts.fees.host_fee_numerator ts.fees.host_fee_denominator = .ok ())
    (ho : ownerFeeStep env signers ts a (some h) pt w = .ok w') :
    (0 < pt → mintOf w h = some a.poolMint) ∧
    feeOf ts.fees.host_fee_numerator.toNat ts.fees.host_fee_denominator.toNat pt ≤ pt ∧
    Effect w w'
      (fun k => when (k = h) (feeOf ts.fees.host_fee_numerator.toNat
          ts.fees.host_fee_denominator.toNat pt) +
        when (k = a.poolFee) (pt - feeOf ts.fees.host_fee_numerator.toNat
          ts.fees.host_fee_denominator.toNat pt))
      (fun k => when (k = a.poolMint) pt) [h, a.poolMint, a.poolFee] := by
  unfold ownerFeeStep at ho
  by_cases hp : pt > 0
  · rw [if_pos hp, Except_bind_ok] at ho
    obtain ⟨r, hr, ho⟩ := ho
    rw [Except_bind_ok] at ho
    obtain ⟨amt, ham, ho⟩ := ho
    rw [toU64_ok] at ham
    obtain ⟨_, _, _, _, _, hm⟩ := tokenMintTo_ok ho
    have he := hm.effect
    unfold hostFeeStep at hr
    simp only [] at hr
    rw [Except_bind_ok] at hr
    obtain ⟨acc, hacc, hr⟩ := hr
    rw [req_bind, Except_bind_ok] at hr
    obtain ⟨hmint, hf, hfee, hr⟩ := hr
    rw [okOr_ok] at hfee
    rw [unpackTokenAccount_ok] at hacc
    have hmo : mintOf w h = some a.poolMint := by
      unfold mintOf
      rw [tokenAt_some.2 hacc.2, hmint]; rfl
    have hb := supply_bounds w a.poolMint
    have hb' := supply_bounds w' a.poolMint
    have key : hf ≤ pt ∧ Effect w w' (fun k => when (k = h) hf + when (k = a.poolFee) (pt - hf))
        (fun k => when (k = a.poolMint) pt) [h, a.poolMint, a.poolFee] := by
      split at hr
      · rw [Except_bind_ok] at hr
        obtain ⟨rest, hrest, hr⟩ := hr
        rw [okOr_ok] at hrest
        obtain ⟨hle, erest⟩ := csub_eq_ok.1 hrest
        rw [Except_bind_ok] at hr
        obtain ⟨am, hhm, hr⟩ := hr
        rw [toU64_ok] at hhm
        rw [Except_bind_ok] at hr
        obtain ⟨w1, hw1, hr⟩ := hr
        cases hr
        obtain ⟨_, _, _, _, _, hm1⟩ := tokenMintTo_ok hw1
        refine ⟨hle, (hm1.effect.trans he).mono (fun k => ?_) (fun k => ?_) (fun k hk => ?_)⟩
        · simp only [] at ham
          rw [hhm, ham, erest, Nat.cast_sub hle]
        · simp only [] at ham
          rw [hhm, ham, erest, Nat.cast_sub hle]
          by_cases hc : k = a.poolMint
          · rw [when_pos hc, when_pos hc, when_pos hc]; omega
          · rw [when_neg hc, when_neg hc, when_neg hc]; omega
        · simp only [List.mem_append, List.mem_cons, List.not_mem_nil, or_false] at hk ⊢
          tauto
      · rename_i hz
        cases hr
        have hz : hf = 0 := by omega
        refine ⟨by omega, he.mono (fun k => ?_) (fun k => ?_) (fun k hk => ?_)⟩
        · rw [ham, hz, show (((0 : Nat) : Int)) = 0 from rfl, when_zero]
          simp only [sub_zero, zero_add]
        · rw [ham]
        · simp only [List.mem_cons, List.not_mem_nil, or_false] at hk ⊢
          tauto
    obtain ⟨hle, key⟩ := key
    have hlt : pt < U64 := by
      have := key.supply a.poolMint
      rw [when_pos (c := a.poolMint = a.poolMint) rfl] at this
      rw [U64_val]
      omega
    have e : hf = feeOf ts.fees.host_fee_numerator.toNat ts.fees.host_fee_denominator.toNat pt := by
      have := feeOf_ok hlt hv
      unfold Fees.hostFee at hfee
      rw [this] at hfee
      exact (Res.ok.inj hfee).symm
    rw [← e]
    exact ⟨fun _ => hmo, hle, key⟩
  · rw [if_neg hp] at ho
    cases ho
    have h0 : pt = 0 := by omega
    have e : feeOf ts.fees.host_fee_numerator.toNat ts.fees.host_fee_denominator.toNat 0 = 0 := by
      unfold feeOf; rw [if_pos (Or.inr rfl)]
    rw [h0, e]
    refine ⟨fun h => absurd h (by decide), le_refl _,
      (Effect.refl w).mono (fun k => ?_) (fun k => ?_) (fun k hk => by cases hk)⟩
    · rw [show ((0 : Nat) : Int) = 0 from rfl, when_zero, Int.sub_zero, when_zero]; rfl
    · exact (when_zero _).symm

/-- C57.  A swap processed with a host account on a pool with a valid fee schedule: the pool tokens
minted as owner fee are split, the host receiving its exact share and the pool's fee account the
rest; the host account holds pool tokens; everything else is as in a swap without host. -/
theorem C57_host (env : Env) (signers : List Pubkey) (a : SwapAccounts) (host : Pubkey)
    (x y : UInt64) (w w' : World) (h : processSwap env signers x y a (some host) w = .ok w')
    (ts : SwapV1) (hp : PoolAt env w a.swap ts) (hv : ProperFees ts.fees) :
    ∃ (dir : TradeDirection) (src dst : TokenAccount) (m : Mint) (r : SwapResult)
      (fee share : Nat),
      tokenAt w a.swapSource = some src ∧ tokenAt w a.swapDestination = some dst ∧
      a.swapSource = vaultIn ts dir ∧ a.swapDestination = vaultOut ts dir ∧
      mintAt w ts.pool_mint = some m ∧
      ts.swap_curve.swap env.spl x.toNat src.amount.toNat dst.amount.toNat dir ts.fees = .ok r ∧
      y.toNat ≤ r.destination_amount_swapped ∧
      ts.swap_curve.withdrawSingle env.spl r.owner_fee (afterA r dir) (afterB r dir)
        m.supply.toNat dir ts.fees = .ok fee ∧
      share = feeOf (FeeKind.host.num ts.fees) (FeeKind.host.den ts.fees) fee ∧ share ≤ fee ∧
      (0 < fee → mintOf w host = some ts.pool_mint) ∧
      Effect w w'
        (fun k => when (k = a.swapSource) r.source_amount_swapped -
          when (k = a.source) r.source_amount_swapped +
          when (k = a.destination) r.destination_amount_swapped -
          when (k = a.swapDestination) r.destination_amount_swapped +
          when (k = host) share + when (k = ts.pool_fee_account) (fee - share))
        (fun k => when (k = ts.pool_mint) fee)
        [a.source, a.swapSource, a.swapDestination, a.destination, ts.pool_mint,
          ts.pool_fee_account, host] := by
  obtain ⟨ts', src, dst, pm, r, pt, amtIn, amtOut, w1, w2, run⟩ := processSwap_ok h
  have e0 : ts' = ts := by
    have e1 := run.state
    rw [unpackSwap_of hp] at e1
    cases e1; rfl
  subst e0
  have hvf := (Fees.validate_ok.1 ((C15_validate _).2 hv)).2.2.2
  obtain ⟨k1, k2, k3⟩ := hostStep_ok hvf run.mint
  obtain ⟨_, _, _, _, _, m1⟩ := tokenTransfer_ok run.pay
  obtain ⟨_, _, _, _, _, m3⟩ := tokenTransfer_ok run.payOut
  have hpm : mintAt w ts'.pool_mint = some pm := by
    rw [← run.mintIs]; exact mintAt_some.2 run.mintAcc.2
  have hdir : a.swapSource = vaultIn ts' (swapDirection ts' a) ∧
      a.swapDestination = vaultOut ts' (swapDirection ts' a) := by
    unfold swapDirection
    by_cases hA : a.swapSource = ts'.token_a
    · rw [if_pos hA]
      refine ⟨hA, ?_⟩
      rcases run.dstIs with h1 | h1
      · exact absurd (hA.trans h1.symm) run.srcNeDst
      · exact h1
    · rw [if_neg hA]
      rcases run.srcIs with h1 | h1
      · exact absurd h1 hA
      · refine ⟨h1, ?_⟩
        rcases run.dstIs with h2 | h2
        · exact h2
        · exact absurd (h1.trans h2.symm) run.srcNeDst
  have hfee := run.feeCalc
  refine ⟨swapDirection ts' a, src, dst, pm, r, pt, _, tokenAt_some.2 run.srcTok.2,
    tokenAt_some.2 run.dstTok.2, hdir.1, hdir.2, hpm, run.result, run.slippage, ?_, rfl, k2, ?_, ?_⟩
  · cases hd : swapDirection ts' a <;> (rw [hd] at hfee; exact hfee)
  · intro hpos
    rw [← m1.frame.mintOf host, k1 hpos, run.mintIs]
  · refine ((m1.effect.trans k3).trans m3.effect).mono (fun k => ?_) (fun k => ?_) (fun k hk => ?_)
    · rw [run.amtInIs, run.amtOutIs, run.feeIs]
      simp only [FeeKind.num, FeeKind.den]
      omega
    · rw [run.mintIs]; omega
    · rw [run.mintIs, run.feeIs] at hk
      simp only [List.mem_append, List.mem_cons, List.not_mem_nil, or_false] at hk ⊢
      tauto

/-- With the destination of the first pool tokens as host, a fifth of the fee goes there. -/
example : (match processSwap Sample.env [Sample.key 50] 1000 100 ⟨Sample.key 2, Sample.key 130,
    Sample.key 50, Sample.key 30, Sample.key 13, Sample.key 14, Sample.key 31, Sample.key 15,
    Sample.key 16, Sample.key 101⟩ (some (Sample.key 17)) live with
    | .ok w => [bal w (Sample.key 17) - bal live (Sample.key 17),
        bal w (Sample.key 16) - bal live (Sample.key 16)]
    | .error _ => []) = [382871, 1531488] := by decide +kernel
example : PoolAt Sample.env live (Sample.key 2) pool2 ∧ ProperFees pool2.fees :=
  ⟨live_pool2, (C15_validate _).1 (by decide +kernel)⟩

end Verif.Props
