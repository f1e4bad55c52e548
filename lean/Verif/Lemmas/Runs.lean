import Verif.Lemmas.Effects
import Verif.Spec.Exec
import Verif.Lemmas.State

/-
Whole-instruction effects derived from the inversion lemmas.
-/

namespace Verif
open Spec
namespace Processor

theorem poolAt_of {env : Env} {w : World} {k : Pubkey} {ts : SwapV1}
    (ho : (w k).owner = env.programId) (h : unpackSwap w k = .ok ts) : PoolAt env w k ts :=
  ⟨ho, unpackSwap_raw h⟩

theorem unpackSwap_of {env : Env} {w : World} {k : Pubkey} {ts : SwapV1} (h : PoolAt env w k ts) :
    unpackSwap w k = .ok ts := by
  obtain ⟨_, l, h1, h2⟩ := h
  unfold unpackSwap
  rw [h1]
  exact h2

theorem feeStep_effect {env : Env} {signers : List Pubkey} {ts : SwapV1} {a : SwapAccounts}
    {pt : Nat} {w w' : World} (h : ownerFeeStep env signers ts a none pt w = .ok w') :
    Effect w w' (fun k => when (k = a.poolFee) pt) (fun k => when (k = a.poolMint) pt)
      [a.poolMint, a.poolFee] := by
  rcases ownerFeeStep_none h with ⟨h0, rfl⟩ | ⟨amt, _, ham, h⟩
  · refine (Effect.refl w').mono (fun k => ?_) (fun k => ?_) (fun k hk => by cases hk)
    · rw [h0]; exact (when_zero _).symm
    · rw [h0]; exact (when_zero _).symm
  · obtain ⟨_, _, _, _, _, hm⟩ := tokenMintTo_ok h
    rw [← ham]
    exact hm.effect

theorem feeStep_conserved {env : Env} {signers : List Pubkey} {ts : SwapV1} {a : SwapAccounts}
    {pt : Nat} {w w' : World} (h : ownerFeeStep env signers ts a none pt w = .ok w')
    {F : Finset Pubkey} (hF : a.poolFee ∈ F) : Conserved F a.poolMint w w' := by
  rcases ownerFeeStep_none h with ⟨h0, rfl⟩ | ⟨amt, _, ham, h⟩
  · exact Conserved.refl _ _ _
  · obtain ⟨_, _, _, _, _, hm⟩ := tokenMintTo_ok h
    exact hm.conserved hF

theorem feeStep_debit {env : Env} {signers : List Pubkey} {ts : SwapV1} {a : SwapAccounts}
    {pt : Nat} {w w' : World} (h : ownerFeeStep env signers ts a none pt w = .ok w') {k : Pubkey}
    (hk : bal w' k < bal w k) : False := by
  have := (feeStep_effect h).bal k
  have := when_nonneg (c := k = a.poolFee) (Int.natCast_nonneg pt)
  omega

/-! ### Effects -/

theorem SwapRun.effect {env : Env} {signers : List Pubkey} {x y : UInt64} {a : SwapAccounts}
    {w w' : World} {ts : SwapV1} {src dst : TokenAccount} {pm : Mint} {r : SwapResult} {pt : Nat}
    {amtIn amtOut : UInt64} {w1 w2 : World}
    (h : SwapRun env signers x y a none w w' ts src dst pm r pt amtIn amtOut w1 w2) :
    Effect w w'
      (fun k => when (k = a.swapSource) r.source_amount_swapped -
        when (k = a.source) r.source_amount_swapped +
        when (k = a.destination) r.destination_amount_swapped -
        when (k = a.swapDestination) r.destination_amount_swapped +
        when (k = ts.pool_fee_account) pt)
      (fun k => when (k = ts.pool_mint) pt)
      [a.source, a.swapSource, a.swapDestination, a.destination, ts.pool_mint,
        ts.pool_fee_account] := by
  obtain ⟨_, _, _, _, _, m1⟩ := tokenTransfer_ok h.pay
  obtain ⟨_, _, _, _, _, m3⟩ := tokenTransfer_ok h.payOut
  refine ((m1.effect.trans (feeStep_effect h.mint)).trans m3.effect).mono (fun k => ?_)
    (fun k => ?_) (fun k hk => ?_)
  · rw [h.amtInIs, h.amtOutIs, h.feeIs]; omega
  · rw [h.mintIs]; omega
  · rw [h.mintIs, h.feeIs] at hk
    simp only [List.mem_append, List.mem_cons, List.not_mem_nil, or_false] at hk ⊢
    tauto

theorem DepositAllRun.effect {env : Env} {signers : List Pubkey} {p ma mb : UInt64}
    {a : DepositAllAccounts} {w w' : World} {ts : SwapV1} {tA tB : TokenAccount} {pm : Mint}
    {r : TradingTokenResult} {amtA amtB amtP : UInt64} {w1 w2 : World}
    (h : DepositAllRun env signers p ma mb a w w' ts tA tB pm r amtA amtB amtP w1 w2) :
    Effect w w'
      (fun k => when (k = ts.token_a) amtA.toNat - when (k = a.sourceA) amtA.toNat +
        when (k = ts.token_b) amtB.toNat - when (k = a.sourceB) amtB.toNat +
        when (k = a.destination) amtP.toNat)
      (fun k => when (k = ts.pool_mint) amtP.toNat)
      [a.sourceA, ts.token_a, a.sourceB, ts.token_b, ts.pool_mint, a.destination] := by
  obtain ⟨_, _, _, _, _, m1⟩ := tokenTransfer_ok h.payA
  obtain ⟨_, _, _, _, _, m2⟩ := tokenTransfer_ok h.payB
  obtain ⟨_, _, _, _, _, m3⟩ := tokenMintTo_ok h.mint
  refine ((m1.effect.trans m2.effect).trans m3.effect).mono (fun k => ?_) (fun k => ?_)
    (fun k hk => ?_)
  · rw [h.checked.isA, h.checked.isB]; omega
  · rw [h.checked.isMint]; omega
  · rw [h.checked.isA, h.checked.isB, h.checked.isMint] at hk
    simp only [List.mem_append, List.mem_cons, List.not_mem_nil, or_false] at hk ⊢
    tauto

theorem WithdrawAllRun.effect {env : Env} {signers : List Pubkey} {p ma mb : UInt64}
    {a : WithdrawAllAccounts} {w w' : World} {ts : SwapV1} {tA tB : TokenAccount} {pm : Mint}
    {fee burnt : UInt64} {r : TradingTokenResult} {amtA amtB : UInt64} {w1 w2 w3 : World}
    (h : WithdrawAllRun env signers p ma mb a w w' ts tA tB pm fee burnt r amtA amtB w1 w2 w3) :
    Effect w w'
      (fun k => when (k = a.fee) fee.toNat - when (k = a.source) fee.toNat -
        when (k = a.source) burnt.toNat +
        when (k = a.destA) amtA.toNat - when (k = ts.token_a) amtA.toNat +
        when (k = a.destB) amtB.toNat - when (k = ts.token_b) amtB.toNat)
      (fun k => - when (k = ts.pool_mint) burnt.toNat)
      [a.source, a.fee, ts.pool_mint, ts.token_a, a.destA, ts.token_b, a.destB] := by
  obtain ⟨_, _, _, _, _, m2⟩ := tokenBurn_ok h.burn
  refine ((((ifPos_effect h.payFee).trans m2.effect).trans (ifPos_effect h.payA)).trans
    (ifPos_effect h.payB)).mono (fun k => ?_) (fun k => ?_) (fun k hk => ?_)
  · rw [h.checked.isA, h.checked.isB]; omega
  · rw [h.checked.isMint]; omega
  · rw [h.checked.isA, h.checked.isB, h.checked.isMint] at hk
    simp only [List.mem_append, List.mem_cons, List.not_mem_nil, or_false] at hk ⊢
    tauto

theorem DepositSingleRun.effect {env : Env} {signers : List Pubkey} {x mp : UInt64}
    {a : DepositSingleAccounts} {w w' : World} {ts : SwapV1} {src tA tB : TokenAccount}
    {dir : TradeDirection} {pm : Mint} {amtP : UInt64} {w1 : World}
    (h : DepositSingleRun env signers x mp a w w' ts src tA tB dir pm amtP w1) :
    Effect w w'
      (fun k => when (k = sideOf dir ts.token_a ts.token_b) x.toNat -
        when (k = a.source) x.toNat + when (k = a.destination) amtP.toNat)
      (fun k => when (k = ts.pool_mint) amtP.toNat)
      [a.source, sideOf dir ts.token_a ts.token_b, ts.pool_mint, a.destination] := by
  obtain ⟨_, _, _, _, _, m1⟩ := tokenTransfer_ok h.pay
  obtain ⟨_, _, _, _, _, m3⟩ := tokenMintTo_ok h.mint
  refine (m1.effect.trans m3.effect).mono (fun k => ?_) (fun k => ?_) (fun k hk => ?_)
  · rw [h.checked.isA, h.checked.isB]
  · rw [h.checked.isMint]; omega
  · rw [h.checked.isA, h.checked.isB, h.checked.isMint] at hk
    simp only [List.mem_append, List.mem_cons, List.not_mem_nil, or_false] at hk ⊢
    tauto

theorem WithdrawSingleRun.effect {env : Env} {signers : List Pubkey} {x mp : UInt64}
    {a : WithdrawSingleAccounts} {w w' : World} {ts : SwapV1} {dst tA tB : TokenAccount}
    {dir : TradeDirection} {pm : Mint} {fee burnt : UInt64} {w1 w2 : World}
    (h : WithdrawSingleRun env signers x mp a w w' ts dst tA tB dir pm fee burnt w1 w2) :
    Effect w w'
      (fun k => when (k = a.fee) fee.toNat - when (k = a.source) fee.toNat -
        when (k = a.source) burnt.toNat + when (k = a.destination) x.toNat -
        when (k = sideOf dir ts.token_a ts.token_b) x.toNat)
      (fun k => - when (k = ts.pool_mint) burnt.toNat)
      [a.source, a.fee, ts.pool_mint, sideOf dir ts.token_a ts.token_b, a.destination] := by
  obtain ⟨_, _, _, _, _, m2⟩ := tokenBurn_ok h.burn
  obtain ⟨_, _, _, _, _, m3⟩ := tokenTransfer_ok h.pay
  refine (((ifPos_effect h.payFee).trans m2.effect).trans m3.effect).mono (fun k => ?_)
    (fun k => ?_) (fun k hk => ?_)
  · rw [h.checked.isA, h.checked.isB]; omega
  · rw [h.checked.isMint]; omega
  · rw [h.checked.isA, h.checked.isB, h.checked.isMint] at hk
    simp only [List.mem_append, List.mem_cons, List.not_mem_nil, or_false] at hk ⊢
    tauto

/-! ### The state write of `Initialize` -/

/-- Writing bytes into an account of bytes moves no tokens. -/
theorem write_bal {w : World} {k : Pubkey} {l l' : List UInt8} (h : (w k).data = .raw l)
    (j : Pubkey) : bal (w.setData k (.raw l')) j = bal w j ∧
      supply (w.setData k (.raw l')) j = supply w j ∧
      mintOf (w.setData k (.raw l')) j = mintOf w j := by
  unfold Spec.bal Spec.supply Spec.mintOf tokenAt mintAt
  rw [setData_data]
  by_cases hj : j = k
  · rw [if_pos hj, hj, h]
    exact ⟨rfl, rfl, rfl⟩
  · rw [if_neg hj]
    exact ⟨rfl, rfl, rfl⟩

theorem write_conserved {w : World} {k : Pubkey} {l l' : List UInt8} (h : (w k).data = .raw l)
    (F : Finset Pubkey) (pm : Pubkey) : Conserved F pm w (w.setData k (.raw l')) := by
  refine ⟨fun m => ?_, fun m _ => (write_bal h m).2.1⟩
  rw [(write_bal h m).2.1, Int.sub_self, when_zero, Int.add_zero]
  unfold total
  apply Finset.sum_congr rfl
  intro j _
  rw [(write_bal h j).1, (write_bal h j).2.2]

theorem unpack_of_pack {s : SwapV1} {dst l : List UInt8} (h : SwapVersion.pack s dst = .ok l)
    (hi : s.is_initialized = true) : SwapVersion.unpack l = .ok s := by
  cases dst with
  | nil => cases h
  | cons d rest =>
    unfold SwapVersion.pack SwapV1.pack at h
    simp only [] at h
    split at h
    · cases h
    · rename_i hl
      have hr : rest.length = 323 := not_not.1 hl
      cases h
      unfold SwapVersion.unpack SwapV1.unpack
      simp only []
      rw [if_pos trivial, if_neg (by rw [SwapV1.pack_length s rest hr]; decide), SwapV1.unpack_pack]
      simp only [bind, Except.bind]
      rw [if_pos hi]

theorem InitRun.after {env : Env} {signers : List Pubkey} {fees : Fees} {curve : Curve}
    {a : InitAccounts} {w w' : World} {tA tB fa de : TokenAccount} {pm : Mint}
    {bytes old : List UInt8} {w1 : World}
    (h : InitRun env signers fees curve a w w' tA tB fa de pm bytes old w1) :
    PoolAt env w' a.swap
      { is_initialized := true
        bump_seed := (env.findPda a.swap).2
        token_program_id := a.tokenProgram
        token_a := a.tokenA
        token_b := a.tokenB
        pool_mint := a.poolMint
        token_a_mint := tA.mint
        token_b_mint := tB.mint
        pool_fee_account := a.fee
        fees := fees
        swap_curve := curve } := by
  refine ⟨?_, bytes, ?_, unpack_of_pack h.bytesIs rfl⟩
  · rw [h.write, setData_owner]; exact h.owner
  · rw [h.write, setData_data, if_pos rfl]

theorem InitRun.minted {env : Env} {signers : List Pubkey} {fees : Fees} {curve : Curve}
    {a : InitAccounts} {w w' : World} {tA tB fa de : TokenAccount} {pm : Mint}
    {bytes old : List UInt8} {w1 : World}
    (h : InitRun env signers fees curve a w w' tA tB fa de pm bytes old w1) :
    Effect w w1 (fun k => when (k = a.destination) 1000000000)
      (fun k => when (k = a.poolMint) 1000000000) [a.poolMint, a.destination] := by
  obtain ⟨_, _, _, _, _, m⟩ := tokenMintTo_ok h.mint
  have := m.effect
  rw [show (UInt64.ofNat 1000000000).toNat = 1000000000 from by decide] at this
  exact this

end Processor
end Verif
