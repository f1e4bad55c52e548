import Verif.Lemmas.Ledger

/-
Inversion lemmas for the processor: what a successful instruction has checked and done.
-/

namespace Verif
open Spec
namespace Processor

theorem liftSwap_ok {α : Type} {x : Except SwapError α} {a : α} :
    liftSwap x = .ok a ↔ x = .ok a := by
  cases x with
  | error e => constructor <;> (intro h; cases h)
  | ok b => constructor <;> (intro h; cases h; rfl)

theorem okOr_ok {α : Type} {r : Res α} {e : SwapError} {a : α} :
    okOr r e = .ok a ↔ r = .ok a := by
  cases r with
  | ok b => constructor <;> (intro h; cases h; rfl)
  | none => constructor <;> (intro h; cases h)
  | panic => constructor <;> (intro h; cases h)

theorem toU64_ok {v : Nat} {x : UInt64} : toU64 v = .ok x ↔ x.toNat = v := by
  unfold toU64
  split
  · rename_i h
    rw [U64_val] at h
    constructor
    · intro h'
      cases h'
      rw [UInt64.toNat_ofNat']
      exact Nat.mod_eq_of_lt h
    · intro h'; rw [← h', UInt64.ofNat_toNat]
  · rename_i h
    rw [U64_val] at h
    have := x.toNat_lt
    constructor
    · intro h'; cases h'
    · intro h'; omega

theorem unpackTokenAccount_ok {w : World} {k tp : Pubkey} {t : TokenAccount} :
    unpackTokenAccount w k tp = .ok t ↔ (w k).owner = tp ∧ (w k).data = .token t := by
  unfold unpackTokenAccount
  split
  · rename_i ho
    constructor
    · intro h; cases h
    · rintro ⟨h, _⟩; exact absurd h ho
  · rename_i ho
    have ho' : (w k).owner = tp := not_not.1 ho
    split
    · rename_i x hx
      constructor
      · intro h; cases h; exact ⟨ho', hx⟩
      · rintro ⟨_, h⟩; rw [hx] at h; cases h; rfl
    · rename_i hx
      constructor
      · intro h; cases h
      · rintro ⟨_, h⟩; exact absurd h (hx t)

theorem unpackMint_ok {w : World} {k tp : Pubkey} {m : Mint} :
    unpackMint w k tp = .ok m ↔ (w k).owner = tp ∧ (w k).data = .mint m := by
  unfold unpackMint
  split
  · rename_i ho
    constructor
    · intro h; cases h
    · rintro ⟨h, _⟩; exact absurd h ho
  · rename_i ho
    have ho' : (w k).owner = tp := not_not.1 ho
    split
    · rename_i x hx
      constructor
      · intro h; cases h; exact ⟨ho', hx⟩
      · rintro ⟨_, h⟩; rw [hx] at h; cases h; rfl
    · rename_i hx
      constructor
      · intro h; cases h
      · rintro ⟨_, h⟩; exact absurd h (hx m)

theorem unpackSwap_raw {w : World} {k : Pubkey} {ts : SwapV1} (h : unpackSwap w k = .ok ts) :
    ∃ l, (w k).data = .raw l ∧ SwapVersion.unpack l = .ok ts := by
  unfold unpackSwap at h
  split at h
  · rename_i l hl; exact ⟨l, hl, h⟩
  · cases h

theorem unpackSwap_congr {w w' : World} {k : Pubkey} (h : (w' k).data = (w k).data) :
    unpackSwap w' k = unpackSwap w k := by
  unfold unpackSwap; rw [h]

/-! ### Token calls -/

theorem cpiSigned_ok {env : Env} {signers : List Pubkey} {swap : Pubkey} {bump : UInt8}
    {f : Pubkey → Bool} (h : cpiSigned env signers swap bump = .ok f) :
    ∃ pda, env.createPda swap bump = some pda ∧ ∀ k, f k = true ↔ k ∈ signers ∨ k = pda := by
  unfold cpiSigned at h
  split at h
  · rename_i pda hp
    cases h
    exact ⟨pda, hp, fun k => by simp only [decide_eq_true_eq]⟩
  · cases h

theorem tokenTransfer_ok {env : Env} {signers : List Pubkey} {swap tp src dst a : Pubkey}
    {bump : UInt8} {x : UInt64} {w w' : World}
    (h : tokenTransfer env signers swap tp src dst a bump x w = .ok w') :
    tp = env.tokenProgramId ∧ ∃ signed pda, env.createPda swap bump = some pda ∧
      (a ∈ signers ∨ a = pda) ∧ Moved signed env.tokenProgramId src dst a x w w' := by
  unfold tokenTransfer at h
  rw [req_bind] at h
  obtain ⟨h1, h⟩ := h
  rw [Except_bind_ok] at h
  obtain ⟨f, hf, h⟩ := h
  obtain ⟨pda, hp, hs⟩ := cpiSigned_ok hf
  have hm := Token.transfer_ok h
  exact ⟨h1, f, pda, hp, (hs a).1 hm.signed, hm⟩

theorem tokenMintTo_ok {env : Env} {signers : List Pubkey} {swap tp mint dst a : Pubkey}
    {bump : UInt8} {x : UInt64} {w w' : World}
    (h : tokenMintTo env signers swap tp mint dst a bump x w = .ok w') :
    tp = env.tokenProgramId ∧ ∃ signed pda, env.createPda swap bump = some pda ∧
      (a ∈ signers ∨ a = pda) ∧ Minted signed env.tokenProgramId mint dst a x w w' := by
  unfold tokenMintTo at h
  rw [req_bind] at h
  obtain ⟨h1, h⟩ := h
  rw [Except_bind_ok] at h
  obtain ⟨f, hf, h⟩ := h
  obtain ⟨pda, hp, hs⟩ := cpiSigned_ok hf
  have hm := Token.mintTo_ok h
  exact ⟨h1, f, pda, hp, (hs a).1 hm.signed, hm⟩

theorem tokenBurn_ok {env : Env} {signers : List Pubkey} {swap tp src mint a : Pubkey}
    {bump : UInt8} {x : UInt64} {w w' : World}
    (h : tokenBurn env signers swap tp src mint a bump x w = .ok w') :
    tp = env.tokenProgramId ∧ ∃ signed pda, env.createPda swap bump = some pda ∧
      (a ∈ signers ∨ a = pda) ∧ Burnt signed env.tokenProgramId src mint a x w w' := by
  unfold tokenBurn at h
  rw [req_bind] at h
  obtain ⟨h1, h⟩ := h
  rw [Except_bind_ok] at h
  obtain ⟨f, hf, h⟩ := h
  obtain ⟨pda, hp, hs⟩ := cpiSigned_ok hf
  have hm := Token.burn_ok h
  exact ⟨h1, f, pda, hp, (hs a).1 hm.signed, hm⟩

theorem tokenTransferIfPos_ok {env : Env} {signers : List Pubkey} {swap tp src dst a : Pubkey}
    {bump : UInt8} {x : UInt64} {w w' : World}
    (h : tokenTransferIfPos env signers swap tp src dst a bump x w = .ok w') :
    (x.toNat = 0 ∧ w' = w) ∨
      (0 < x.toNat ∧ tokenTransfer env signers swap tp src dst a bump x w = .ok w') := by
  unfold tokenTransferIfPos at h
  split at h
  · rename_i hx
    rw [gt_iff_lt, UInt64.lt_iff_toNat_lt] at hx
    exact Or.inr ⟨hx, h⟩
  · rename_i hx
    rw [gt_iff_lt, UInt64.lt_iff_toNat_lt] at hx
    cases h
    exact Or.inl ⟨by change ¬ 0 < x.toNat at hx; omega, rfl⟩

/-- The checks of `check_accounts`. -/
structure Checked (env : Env) (w : World) (ts : SwapV1) (swap authority tokenA tokenB poolMint
    tokenProgram : Pubkey) (userA userB fee : Option Pubkey) : Prop where
  owner : (w swap).owner = env.programId
  pda : env.createPda swap ts.bump_seed = some authority
  isA : tokenA = ts.token_a
  isB : tokenB = ts.token_b
  isMint : poolMint = ts.pool_mint
  isTp : tokenProgram = ts.token_program_id
  neA : userA ≠ some tokenA
  neB : userB ≠ some tokenB
  isFee : fee = none ∨ fee = some ts.pool_fee_account

theorem checkAccounts_ok {env : Env} {w : World} {ts : SwapV1} {swap authority tokenA tokenB
    poolMint tokenProgram : Pubkey} {userA userB fee : Option Pubkey} {u : Unit}
    (h : checkAccounts env w ts swap authority tokenA tokenB poolMint tokenProgram userA userB fee =
      .ok u) : Checked env w ts swap authority tokenA tokenB poolMint tokenProgram userA userB fee := by
  unfold checkAccounts at h
  rw [req_bind] at h
  obtain ⟨h1, h⟩ := h
  rw [Except_bind_ok] at h
  obtain ⟨aid, ha, h⟩ := h
  unfold authorityId at ha
  rw [optErr_ok] at ha
  simp only [req_bind, req_ok] at h
  obtain ⟨h2, h3, h4, h5, h6, h7, h8, h9⟩ := h
  exact ⟨h1, by rw [ha, h2], h3, h4, h5, h6, h7, h8, h9⟩

/-- The account on the side of a single-sided operation. -/
def sideOf (dir : TradeDirection) (x y : Pubkey) : Pubkey :=
  match dir with
  | .AtoB => x
  | .BtoA => y

/-! ### Swap -/

/-- What a successful `process_swap` has checked and done. -/
structure SwapRun (env : Env) (signers : List Pubkey) (x y : UInt64) (a : SwapAccounts)
    (host : Option Pubkey) (w w' : World) (ts : SwapV1) (src dst : TokenAccount) (pm : Mint)
    (r : SwapResult) (poolTokens : Nat) (amtIn amtOut : UInt64) (w1 w2 : World) : Prop where
  owner : (w a.swap).owner = env.programId
  state : unpackSwap w a.swap = .ok ts
  pda : env.createPda a.swap ts.bump_seed = some a.authority
  srcIs : a.swapSource = ts.token_a ∨ a.swapSource = ts.token_b
  dstIs : a.swapDestination = ts.token_a ∨ a.swapDestination = ts.token_b
  srcNeDst : a.swapSource ≠ a.swapDestination
  srcNeUser : a.swapSource ≠ a.source
  dstNeUser : a.swapDestination ≠ a.destination
  mintIs : a.poolMint = ts.pool_mint
  feeIs : a.poolFee = ts.pool_fee_account
  tpIs : a.tokenProgram = ts.token_program_id
  srcTok : (w a.swapSource).owner = ts.token_program_id ∧ (w a.swapSource).data = .token src
  dstTok : (w a.swapDestination).owner = ts.token_program_id ∧
    (w a.swapDestination).data = .token dst
  mintAcc : (w a.poolMint).owner = ts.token_program_id ∧ (w a.poolMint).data = .mint pm
  result : ts.swap_curve.swap env.spl x.toNat src.amount.toNat dst.amount.toNat
    (swapDirection ts a) ts.fees = .ok r
  slippage : y.toNat ≤ r.destination_amount_swapped
  amtInIs : amtIn.toNat = r.source_amount_swapped
  pay : tokenTransfer env signers a.swap a.tokenProgram a.source a.swapSource
    a.userAuthority ts.bump_seed amtIn w = .ok w1
  feeCalc : ts.swap_curve.withdrawSingle env.spl r.owner_fee
    (match swapDirection ts a with
      | .AtoB => r.new_swap_source_amount
      | .BtoA => r.new_swap_destination_amount)
    (match swapDirection ts a with
      | .AtoB => r.new_swap_destination_amount
      | .BtoA => r.new_swap_source_amount)
    pm.supply.toNat (swapDirection ts a) ts.fees = .ok poolTokens
  mint : ownerFeeStep env signers ts a host poolTokens w1 = .ok w2
  amtOutIs : amtOut.toNat = r.destination_amount_swapped
  payOut : tokenTransfer env signers a.swap a.tokenProgram a.swapDestination a.destination
    a.authority ts.bump_seed amtOut w2 = .ok w'

theorem processSwap_ok {env : Env} {signers : List Pubkey} {x y : UInt64} {a : SwapAccounts}
    {host : Option Pubkey} {w w' : World} (h : processSwap env signers x y a host w = .ok w') :
    ∃ ts src dst pm r poolTokens amtIn amtOut w1 w2,
      SwapRun env signers x y a host w w' ts src dst pm r poolTokens amtIn amtOut w1 w2 := by
  unfold processSwap at h
  rw [req_bind] at h
  obtain ⟨h1, h⟩ := h
  rw [Except_bind_ok] at h
  obtain ⟨ts, hts, h⟩ := h
  rw [Except_bind_ok] at h
  obtain ⟨aid, ha, h⟩ := h
  unfold authorityId at ha
  rw [optErr_ok] at ha
  rw [req_bind, req_bind, req_bind, req_bind, req_bind, req_bind, req_bind, req_bind, req_bind] at h
  obtain ⟨c1, c2, c3, c4, c5, c6, c7, c8, c9, h⟩ := h
  rw [Except_bind_ok] at h
  obtain ⟨src, hsrc, h⟩ := h
  rw [Except_bind_ok] at h
  obtain ⟨dst, hdst, h⟩ := h
  rw [Except_bind_ok] at h
  obtain ⟨pm, hpm, h⟩ := h
  rw [unpackTokenAccount_ok] at hsrc hdst
  rw [unpackMint_ok] at hpm
  simp only [] at h
  rw [Except_bind_ok] at h
  obtain ⟨r, hr, h⟩ := h
  rw [okOr_ok] at hr
  rw [req_bind] at h
  obtain ⟨hsl, h⟩ := h
  rw [Except_bind_ok] at h
  obtain ⟨amtIn, hin, h⟩ := h
  rw [toU64_ok] at hin
  rw [Except_bind_ok] at h
  obtain ⟨w1, hw1, h⟩ := h
  rw [Except_bind_ok] at h
  obtain ⟨pt, hpt, h⟩ := h
  rw [okOr_ok] at hpt
  rw [Except_bind_ok] at h
  obtain ⟨w2, hw2, h⟩ := h
  rw [Except_bind_ok] at h
  obtain ⟨amtOut, hout, h⟩ := h
  rw [toU64_ok] at hout
  exact ⟨ts, src, dst, pm, r, pt, amtIn, amtOut, w1, w2, h1, hts, by rw [ha, c1], c2, c3, c4, c5,
    c6, c7, c8, c9, hsrc, hdst, hpm, hr, hsl, hin, hw1, hpt, hw2, hout, h⟩

theorem ownerFeeStep_none {env : Env} {signers : List Pubkey} {ts : SwapV1} {a : SwapAccounts}
    {pt : Nat} {w w' : World} (h : ownerFeeStep env signers ts a none pt w = .ok w') :
    (pt = 0 ∧ w' = w) ∨ ∃ amt : UInt64, 0 < pt ∧ amt.toNat = pt ∧
      tokenMintTo env signers a.swap a.tokenProgram a.poolMint a.poolFee a.authority
        ts.bump_seed amt w = .ok w' := by
  unfold ownerFeeStep at h
  split at h
  · rename_i hp
    right
    rw [Except_bind_ok] at h
    obtain ⟨r, hr, h⟩ := h
    cases hr
    rw [Except_bind_ok] at h
    obtain ⟨amt, ham, h⟩ := h
    rw [toU64_ok] at ham
    exact ⟨amt, hp, ham, h⟩
  · rename_i hp
    cases h
    exact Or.inl ⟨by omega, rfl⟩

/-! ### Deposits and withdrawals -/

structure DepositAllRun (env : Env) (signers : List Pubkey) (p ma mb : UInt64)
    (a : DepositAllAccounts) (w w' : World) (ts : SwapV1) (tA tB : TokenAccount) (pm : Mint)
    (r : TradingTokenResult) (amtA amtB amtP : UInt64) (w1 w2 : World) : Prop where
  state : unpackSwap w a.swap = .ok ts
  allowed : ts.swap_curve.allowsDeposits = true
  checked : Checked env w ts a.swap a.authority a.tokenA a.tokenB a.poolMint a.tokenProgram
    (some a.sourceA) (some a.sourceB) none
  tokA : (w a.tokenA).owner = ts.token_program_id ∧ (w a.tokenA).data = .token tA
  tokB : (w a.tokenB).owner = ts.token_program_id ∧ (w a.tokenB).data = .token tB
  mintAcc : (w a.poolMint).owner = ts.token_program_id ∧ (w a.poolMint).data = .mint pm
  result : ts.swap_curve.poolTokensToTradingTokens env.spl
    (if pm.supply > 0 then p.toNat else ts.swap_curve.newPoolSupply)
    (if pm.supply > 0 then pm.supply.toNat else ts.swap_curve.newPoolSupply)
    tA.amount.toNat tB.amount.toNat .Ceiling = .ok r
  amtAIs : amtA.toNat = r.token_a_amount
  maxA : amtA ≤ ma
  posA : amtA ≠ 0
  amtBIs : amtB.toNat = r.token_b_amount
  maxB : amtB ≤ mb
  posB : amtB ≠ 0
  amtPIs : amtP.toNat = if pm.supply > 0 then p.toNat else ts.swap_curve.newPoolSupply
  payA : tokenTransfer env signers a.swap a.tokenProgram a.sourceA a.tokenA a.userAuthority
    ts.bump_seed amtA w = .ok w1
  payB : tokenTransfer env signers a.swap a.tokenProgram a.sourceB a.tokenB a.userAuthority
    ts.bump_seed amtB w1 = .ok w2
  mint : tokenMintTo env signers a.swap a.tokenProgram a.poolMint a.destination a.authority
    ts.bump_seed amtP w2 = .ok w'

theorem processDepositAll_ok {env : Env} {signers : List Pubkey} {p ma mb : UInt64}
    {a : DepositAllAccounts} {w w' : World}
    (h : processDepositAll env signers p ma mb a w = .ok w') :
    ∃ ts tA tB pm r amtA amtB amtP w1 w2,
      DepositAllRun env signers p ma mb a w w' ts tA tB pm r amtA amtB amtP w1 w2 := by
  unfold processDepositAll at h
  rw [Except_bind_ok] at h
  obtain ⟨ts, hts, h⟩ := h
  rw [req_bind] at h
  obtain ⟨hal, h⟩ := h
  rw [Except_bind_ok] at h
  obtain ⟨_, hck, h⟩ := h
  rw [Except_bind_ok] at h
  obtain ⟨tA, htA, h⟩ := h
  rw [Except_bind_ok] at h
  obtain ⟨tB, htB, h⟩ := h
  rw [Except_bind_ok] at h
  obtain ⟨pm, hpm, h⟩ := h
  rw [unpackTokenAccount_ok] at htA htB
  rw [unpackMint_ok] at hpm
  simp only [] at h
  rw [Except_bind_ok] at h
  obtain ⟨r, hr, h⟩ := h
  rw [okOr_ok] at hr
  rw [Except_bind_ok] at h
  obtain ⟨amtA, hA, h⟩ := h
  rw [req_bind, req_bind] at h
  obtain ⟨hA1, hA2, h⟩ := h
  rw [Except_bind_ok] at h
  obtain ⟨amtB, hB, h⟩ := h
  rw [req_bind, req_bind] at h
  obtain ⟨hB1, hB2, h⟩ := h
  rw [Except_bind_ok] at h
  obtain ⟨amtP, hP, h⟩ := h
  rw [toU64_ok] at hA hB hP
  rw [Except_bind_ok] at h
  obtain ⟨w1, hw1, h⟩ := h
  rw [Except_bind_ok] at h
  obtain ⟨w2, hw2, h⟩ := h
  exact ⟨ts, tA, tB, pm, r, amtA, amtB, amtP, w1, w2, hts, hal, checkAccounts_ok hck, htA, htB,
    hpm, hr, hA, hA1, hA2, hB, hB1, hB2, hP, hw1, hw2, h⟩

structure WithdrawAllRun (env : Env) (signers : List Pubkey) (p ma mb : UInt64)
    (a : WithdrawAllAccounts) (w w' : World) (ts : SwapV1) (tA tB : TokenAccount) (pm : Mint)
    (fee : UInt64) (burnt : UInt64) (r : TradingTokenResult) (amtA amtB : UInt64)
    (w1 w2 w3 : World) : Prop where
  state : unpackSwap w a.swap = .ok ts
  checked : Checked env w ts a.swap a.authority a.tokenA a.tokenB a.poolMint a.tokenProgram
    (some a.destA) (some a.destB) (some a.fee)
  tokA : (w a.tokenA).owner = ts.token_program_id ∧ (w a.tokenA).data = .token tA
  tokB : (w a.tokenB).owner = ts.token_program_id ∧ (w a.tokenB).data = .token tB
  mintAcc : (w a.poolMint).owner = ts.token_program_id ∧ (w a.poolMint).data = .mint pm
  feeIs : (a.fee = a.source ∧ fee.toNat = 0) ∨
    (a.fee ≠ a.source ∧ ts.fees.ownerWithdrawFee p.toNat = .ok fee.toNat)
  burntIs : burnt.toNat + fee.toNat = p.toNat
  result : ts.swap_curve.poolTokensToTradingTokens env.spl burnt.toNat pm.supply.toNat
    tA.amount.toNat tB.amount.toNat .Floor = .ok r
  amtAIs : amtA.toNat = min tA.amount.toNat r.token_a_amount
  minA : ma ≤ amtA
  posA : ¬(amtA = 0 ∧ tA.amount ≠ 0)
  amtBIs : amtB.toNat = min tB.amount.toNat r.token_b_amount
  minB : mb ≤ amtB
  posB : ¬(amtB = 0 ∧ tB.amount ≠ 0)
  payFee : tokenTransferIfPos env signers a.swap a.tokenProgram a.source a.fee a.userAuthority
    ts.bump_seed fee w = .ok w1
  burn : tokenBurn env signers a.swap a.tokenProgram a.source a.poolMint a.userAuthority
    ts.bump_seed burnt w1 = .ok w2
  payA : tokenTransferIfPos env signers a.swap a.tokenProgram a.tokenA a.destA a.authority
    ts.bump_seed amtA w2 = .ok w3
  payB : tokenTransferIfPos env signers a.swap a.tokenProgram a.tokenB a.destB a.authority
    ts.bump_seed amtB w3 = .ok w'

/-- The smaller of two amounts. -/
abbrev capped (a b : UInt64) : UInt64 := min a b

theorem min_toNat (a b : UInt64) : (min a b).toNat = min a.toNat b.toNat := by
  show (if a ≤ b then a else b).toNat = _
  split
  · rename_i h; rw [UInt64.le_iff_toNat_le] at h; omega
  · rename_i h; rw [UInt64.le_iff_toNat_le] at h; omega

theorem processWithdrawAll_fits {env : Env} {signers : List Pubkey} {p ma mb : UInt64}
    {a : WithdrawAllAccounts} {w w' : World}
    (h : processWithdrawAll env signers p ma mb a w = .ok w') :
    ∃ ts tA tB pm fee burnt r amtA amtB w1 w2 w3,
      WithdrawAllRun env signers p ma mb a w w' ts tA tB pm fee burnt r amtA amtB w1 w2 w3 ∧
      r.token_a_amount < 2 ^ 64 ∧ r.token_b_amount < 2 ^ 64 := by
  unfold processWithdrawAll at h
  rw [Except_bind_ok] at h
  obtain ⟨ts, hts, h⟩ := h
  rw [Except_bind_ok] at h
  obtain ⟨_, hck, h⟩ := h
  rw [Except_bind_ok] at h
  obtain ⟨tA, htA, h⟩ := h
  rw [Except_bind_ok] at h
  obtain ⟨tB, htB, h⟩ := h
  rw [Except_bind_ok] at h
  obtain ⟨pm, hpm, h⟩ := h
  rw [unpackTokenAccount_ok] at htA htB
  rw [unpackMint_ok] at hpm
  have key : ∃ feeN : Nat, ((a.fee = a.source ∧ feeN = 0) ∨
      (a.fee ≠ a.source ∧ ts.fees.ownerWithdrawFee p.toNat = .ok feeN)) ∧ (do
        let poolTokens ← okOr (csub p.toNat feeN) .CalculationFailure
        let r ← okOr (ts.swap_curve.poolTokensToTradingTokens env.spl poolTokens
          pm.supply.toNat tA.amount.toNat tB.amount.toNat .Floor) .ZeroTradingTokens
        let amtA0 ← toU64 r.token_a_amount
        let amtA := min tA.amount amtA0
        require (ma ≤ amtA) (.swap .ExceededSlippage)
        require (¬(amtA = 0 ∧ tA.amount ≠ 0)) (.swap .ZeroTradingTokens)
        let amtB0 ← toU64 r.token_b_amount
        let amtB := min tB.amount amtB0
        require (mb ≤ amtB) (.swap .ExceededSlippage)
        require (¬(amtB = 0 ∧ tB.amount ≠ 0)) (.swap .ZeroTradingTokens)
        let feeAmt ← toU64 feeN
        let w1 ← tokenTransferIfPos env signers a.swap a.tokenProgram a.source a.fee
          a.userAuthority ts.bump_seed feeAmt w
        let burnAmt ← toU64 poolTokens
        let w2 ← tokenBurn env signers a.swap a.tokenProgram a.source a.poolMint a.userAuthority
          ts.bump_seed burnAmt w1
        let w3 ← tokenTransferIfPos env signers a.swap a.tokenProgram a.tokenA a.destA a.authority
          ts.bump_seed amtA w2
        tokenTransferIfPos env signers a.swap a.tokenProgram a.tokenB a.destB a.authority
          ts.bump_seed amtB w3) = .ok w' := by
    split at h
    · rename_i hf
      exact ⟨0, Or.inl ⟨hf, rfl⟩, h⟩
    · rename_i hf
      rw [Except_bind_ok] at h
      obtain ⟨feeN, hfe, h⟩ := h
      rw [okOr_ok] at hfe
      exact ⟨feeN, Or.inr ⟨hf, hfe⟩, h⟩
  clear h
  obtain ⟨feeN, hfee, h⟩ := key
  rw [Except_bind_ok] at h
  obtain ⟨pt, hpt, h⟩ := h
  rw [okOr_ok] at hpt
  obtain ⟨hsub, ept⟩ := csub_eq_ok.1 hpt
  rw [Except_bind_ok] at h
  obtain ⟨r, hr, h⟩ := h
  rw [okOr_ok] at hr
  rw [Except_bind_ok] at h
  obtain ⟨amtA, hA, h⟩ := h
  simp only [] at h
  rw [req_bind, req_bind] at h
  obtain ⟨hA1, hA2, h⟩ := h
  rw [Except_bind_ok] at h
  obtain ⟨amtB, hB, h⟩ := h
  rw [req_bind, req_bind] at h
  obtain ⟨hB1, hB2, h⟩ := h
  rw [Except_bind_ok] at h
  obtain ⟨feeA, hfA, h⟩ := h
  rw [Except_bind_ok] at h
  obtain ⟨w1, hw1, h⟩ := h
  rw [Except_bind_ok] at h
  obtain ⟨bA, hbA, h⟩ := h
  rw [Except_bind_ok] at h
  obtain ⟨w2, hw2, h⟩ := h
  rw [Except_bind_ok] at h
  obtain ⟨w3, hw3, h⟩ := h
  rw [toU64_ok] at hA hB hfA hbA
  have lA := amtA.toNat_lt
  have lB := amtB.toNat_lt
  refine ⟨ts, tA, tB, pm, feeA, bA, r, min tA.amount amtA, min tB.amount amtB, w1, w2, w3, ⟨hts,
    checkAccounts_ok hck, htA, htB, hpm, by rw [hfA]; exact hfee, by omega, by rw [hbA]; exact hr,
    by rw [min_toNat, hA], hA1, hA2, by rw [min_toNat, hB], hB1, hB2, hw1, hw2, hw3, h⟩,
    by rw [← hA]; exact lA, by rw [← hB]; exact lB⟩

theorem processWithdrawAll_ok {env : Env} {signers : List Pubkey} {p ma mb : UInt64}
    {a : WithdrawAllAccounts} {w w' : World}
    (h : processWithdrawAll env signers p ma mb a w = .ok w') :
    ∃ ts tA tB pm fee burnt r amtA amtB w1 w2 w3,
      WithdrawAllRun env signers p ma mb a w w' ts tA tB pm fee burnt r amtA amtB w1 w2 w3 := by
  obtain ⟨ts, tA, tB, pm, fee, burnt, r, amtA, amtB, w1, w2, w3, run, _⟩ := processWithdrawAll_fits h
  exact ⟨ts, tA, tB, pm, fee, burnt, r, amtA, amtB, w1, w2, w3, run⟩

structure DepositSingleRun (env : Env) (signers : List Pubkey) (x mp : UInt64)
    (a : DepositSingleAccounts) (w w' : World) (ts : SwapV1) (src tA tB : TokenAccount)
    (dir : TradeDirection) (pm : Mint) (amtP : UInt64) (w1 : World) : Prop where
  state : unpackSwap w a.swap = .ok ts
  srcTok : (w a.source).owner = ts.token_program_id ∧ (w a.source).data = .token src
  tokA : (w a.tokenA).owner = ts.token_program_id ∧ (w a.tokenA).data = .token tA
  tokB : (w a.tokenB).owner = ts.token_program_id ∧ (w a.tokenB).data = .token tB
  dirIs : singleDirection src.mint tA.mint tB.mint = .ok dir
  checked : Checked env w ts a.swap a.authority a.tokenA a.tokenB a.poolMint a.tokenProgram
    (if dir = .AtoB then some a.source else none) (if dir = .BtoA then some a.source else none) none
  mintAcc : (w a.poolMint).owner = ts.token_program_id ∧ (w a.poolMint).data = .mint pm
  result : (pm.supply.toNat = 0 ∧ amtP.toNat = ts.swap_curve.newPoolSupply) ∨
    (0 < pm.supply.toNat ∧ ts.swap_curve.depositSingle env.spl x.toNat tA.amount.toNat
      tB.amount.toNat pm.supply.toNat dir ts.fees = .ok amtP.toNat)
  minP : mp ≤ amtP
  posP : amtP ≠ 0
  pay : tokenTransfer env signers a.swap a.tokenProgram a.source
    (sideOf dir a.tokenA a.tokenB) a.userAuthority
    ts.bump_seed x w = .ok w1
  mint : tokenMintTo env signers a.swap a.tokenProgram a.poolMint a.destination a.authority
    ts.bump_seed amtP w1 = .ok w'

theorem processDepositSingle_ok {env : Env} {signers : List Pubkey} {x mp : UInt64}
    {a : DepositSingleAccounts} {w w' : World}
    (h : processDepositSingle env signers x mp a w = .ok w') :
    ∃ ts src tA tB dir pm amtP w1,
      DepositSingleRun env signers x mp a w w' ts src tA tB dir pm amtP w1 := by
  unfold processDepositSingle at h
  rw [Except_bind_ok] at h
  obtain ⟨ts, hts, h⟩ := h
  rw [Except_bind_ok] at h
  obtain ⟨src, hsrc, h⟩ := h
  rw [Except_bind_ok] at h
  obtain ⟨tA, htA, h⟩ := h
  rw [Except_bind_ok] at h
  obtain ⟨tB, htB, h⟩ := h
  rw [Except_bind_ok] at h
  obtain ⟨dir, hdir, h⟩ := h
  rw [Except_bind_ok] at h
  obtain ⟨_, hck, h⟩ := h
  rw [Except_bind_ok] at h
  obtain ⟨pm, hpm, h⟩ := h
  rw [unpackTokenAccount_ok] at hsrc htA htB
  rw [unpackMint_ok] at hpm
  have key : ∃ pt : Nat, ((pm.supply.toNat = 0 ∧ pt = ts.swap_curve.newPoolSupply) ∨
      (0 < pm.supply.toNat ∧ ts.swap_curve.depositSingle env.spl x.toNat tA.amount.toNat
        tB.amount.toNat pm.supply.toNat dir ts.fees = .ok pt)) ∧ (do
      let amtP ← toU64 pt
      require (mp ≤ amtP) (.swap .ExceededSlippage)
      require (amtP ≠ 0) (.swap .ZeroTradingTokens)
      let w1 ← tokenTransfer env signers a.swap a.tokenProgram a.source
        (sideOf dir a.tokenA a.tokenB) a.userAuthority
        ts.bump_seed x w
      tokenMintTo env signers a.swap a.tokenProgram a.poolMint a.destination a.authority
        ts.bump_seed amtP w1) = .ok w' := by
    by_cases hp : pm.supply > 0
    · simp only [if_pos hp] at h
      rw [gt_iff_lt, UInt64.lt_iff_toNat_lt] at hp
      rw [Except_bind_ok] at h
      obtain ⟨pt, hpt, h⟩ := h
      rw [okOr_ok] at hpt
      exact ⟨pt, Or.inr ⟨hp, hpt⟩, h⟩
    · simp only [if_neg hp] at h
      rw [gt_iff_lt, UInt64.lt_iff_toNat_lt] at hp
      refine ⟨_, Or.inl ⟨?_, rfl⟩, h⟩
      change ¬ 0 < pm.supply.toNat at hp
      omega
  clear h
  obtain ⟨pt, hpt, h⟩ := key
  rw [Except_bind_ok] at h
  obtain ⟨amtP, hP, h⟩ := h
  rw [req_bind, req_bind] at h
  obtain ⟨h1, h2, h⟩ := h
  rw [Except_bind_ok] at h
  obtain ⟨w1, hw1, h⟩ := h
  rw [toU64_ok] at hP
  exact ⟨ts, src, tA, tB, dir, pm, amtP, w1, hts, hsrc, htA, htB, hdir, checkAccounts_ok hck, hpm,
    by rw [hP]; exact hpt, h1, h2, hw1, h⟩

structure WithdrawSingleRun (env : Env) (signers : List Pubkey) (x mp : UInt64)
    (a : WithdrawSingleAccounts) (w w' : World) (ts : SwapV1) (dst tA tB : TokenAccount)
    (dir : TradeDirection) (pm : Mint) (fee burnt : UInt64) (w1 w2 : World) : Prop where
  state : unpackSwap w a.swap = .ok ts
  dstTok : (w a.destination).owner = ts.token_program_id ∧ (w a.destination).data = .token dst
  tokA : (w a.tokenA).owner = ts.token_program_id ∧ (w a.tokenA).data = .token tA
  tokB : (w a.tokenB).owner = ts.token_program_id ∧ (w a.tokenB).data = .token tB
  dirIs : singleDirection dst.mint tA.mint tB.mint = .ok dir
  checked : Checked env w ts a.swap a.authority a.tokenA a.tokenB a.poolMint a.tokenProgram
    (if dir = .AtoB then some a.destination else none)
    (if dir = .BtoA then some a.destination else none) (some a.fee)
  mintAcc : (w a.poolMint).owner = ts.token_program_id ∧ (w a.poolMint).data = .mint pm
  result : ts.swap_curve.withdrawSingle env.spl x.toNat tA.amount.toNat tB.amount.toNat
    pm.supply.toNat dir ts.fees = .ok burnt.toNat
  feeIs : (a.fee = a.source ∧ fee.toNat = 0) ∨
    (a.fee ≠ a.source ∧ ts.fees.ownerWithdrawFee burnt.toNat = .ok fee.toNat)
  maxP : burnt.toNat + fee.toNat ≤ mp.toNat
  posP : burnt.toNat + fee.toNat ≠ 0
  payFee : tokenTransferIfPos env signers a.swap a.tokenProgram a.source a.fee a.userAuthority
    ts.bump_seed fee w = .ok w1
  burn : tokenBurn env signers a.swap a.tokenProgram a.source a.poolMint a.userAuthority
    ts.bump_seed burnt w1 = .ok w2
  pay : tokenTransfer env signers a.swap a.tokenProgram
    (sideOf dir a.tokenA a.tokenB) a.destination a.authority
    ts.bump_seed x w2 = .ok w'

theorem processWithdrawSingle_ok {env : Env} {signers : List Pubkey} {x mp : UInt64}
    {a : WithdrawSingleAccounts} {w w' : World}
    (h : processWithdrawSingle env signers x mp a w = .ok w') :
    ∃ ts dst tA tB dir pm fee burnt w1 w2,
      WithdrawSingleRun env signers x mp a w w' ts dst tA tB dir pm fee burnt w1 w2 := by
  unfold processWithdrawSingle at h
  rw [Except_bind_ok] at h
  obtain ⟨ts, hts, h⟩ := h
  rw [Except_bind_ok] at h
  obtain ⟨dst, hdst, h⟩ := h
  rw [Except_bind_ok] at h
  obtain ⟨tA, htA, h⟩ := h
  rw [Except_bind_ok] at h
  obtain ⟨tB, htB, h⟩ := h
  rw [Except_bind_ok] at h
  obtain ⟨dir, hdir, h⟩ := h
  rw [Except_bind_ok] at h
  obtain ⟨_, hck, h⟩ := h
  rw [Except_bind_ok] at h
  obtain ⟨pm, hpm, h⟩ := h
  rw [unpackTokenAccount_ok] at hdst htA htB
  rw [unpackMint_ok] at hpm
  rw [Except_bind_ok] at h
  obtain ⟨bN, hbN, h⟩ := h
  rw [okOr_ok] at hbN
  have key : ∃ feeN : Nat, ((a.fee = a.source ∧ feeN = 0) ∨
      (a.fee ≠ a.source ∧ ts.fees.ownerWithdrawFee bN = .ok feeN)) ∧ (do
      let poolTokens ← okOr (cadd U128 bN feeN) .CalculationFailure
      let poolTokens64 ← toU64 poolTokens
      require (poolTokens64 ≤ mp) (.swap .ExceededSlippage)
      require (poolTokens ≠ 0) (.swap .ZeroTradingTokens)
      let feeAmt ← toU64 feeN
      let w1 ← tokenTransferIfPos env signers a.swap a.tokenProgram a.source a.fee a.userAuthority
        ts.bump_seed feeAmt w
      let burnAmt ← toU64 bN
      let w2 ← tokenBurn env signers a.swap a.tokenProgram a.source a.poolMint a.userAuthority
        ts.bump_seed burnAmt w1
      tokenTransfer env signers a.swap a.tokenProgram
        (sideOf dir a.tokenA a.tokenB) a.destination a.authority
        ts.bump_seed x w2) = .ok w' := by
    by_cases hf : a.fee = a.source
    · simp only [if_pos hf] at h
      exact ⟨0, Or.inl ⟨hf, rfl⟩, h⟩
    · simp only [if_neg hf] at h
      rw [Except_bind_ok] at h
      obtain ⟨feeN, hfe, h⟩ := h
      rw [okOr_ok] at hfe
      exact ⟨feeN, Or.inr ⟨hf, hfe⟩, h⟩
  clear h
  obtain ⟨feeN, hfee, h⟩ := key
  rw [Except_bind_ok] at h
  obtain ⟨pt, hpt, h⟩ := h
  rw [okOr_ok] at hpt
  have ept := (cadd_eq_ok.1 hpt).2
  rw [Except_bind_ok] at h
  obtain ⟨p64, hp64, h⟩ := h
  rw [req_bind, req_bind] at h
  obtain ⟨h1, h2, h⟩ := h
  rw [UInt64.le_iff_toNat_le] at h1
  rw [Except_bind_ok] at h
  obtain ⟨feeA, hfA, h⟩ := h
  rw [Except_bind_ok] at h
  obtain ⟨w1, hw1, h⟩ := h
  rw [Except_bind_ok] at h
  obtain ⟨bA, hbA, h⟩ := h
  rw [Except_bind_ok] at h
  obtain ⟨w2, hw2, h⟩ := h
  rw [toU64_ok] at hp64 hfA hbA
  exact ⟨ts, dst, tA, tB, dir, pm, feeA, bA, w1, w2, hts, hdst, htA, htB, hdir,
    checkAccounts_ok hck, hpm, by rw [hbA]; exact hbN, by rw [hfA, hbA]; exact hfee, by omega,
    by omega, hw1, hw2, h⟩

/-! ### Initialise -/

structure InitRun (env : Env) (signers : List Pubkey) (fees : Fees) (curve : Curve)
    (a : InitAccounts) (w w' : World) (tA tB fa de : TokenAccount) (pm : Mint)
    (bytes old : List UInt8) (w1 : World) : Prop where
  fresh : isInitialized w a.swap = false
  auth : a.authority = (env.findPda a.swap).1
  tokA : (w a.tokenA).owner = a.tokenProgram ∧ (w a.tokenA).data = .token tA
  tokB : (w a.tokenB).owner = a.tokenProgram ∧ (w a.tokenB).data = .token tB
  feeTok : (w a.fee).owner = a.tokenProgram ∧ (w a.fee).data = .token fa
  destTok : (w a.destination).owner = a.tokenProgram ∧ (w a.destination).data = .token de
  mintAcc : (w a.poolMint).owner = a.tokenProgram ∧ (w a.poolMint).data = .mint pm
  ownA : a.authority = tA.owner
  ownB : a.authority = tB.owner
  ownDest : a.authority ≠ de.owner
  ownFee : a.authority ≠ fa.owner
  mintAuth : some a.authority = pm.mint_authority
  mints : tA.mint ≠ tB.mint
  supply : curve.validateSupply tA.amount tB.amount = .ok ()
  delA : tA.delegate = none
  delB : tB.delegate = none
  closeA : tA.close_authority = none
  closeB : tB.close_authority = none
  supply0 : pm.supply = 0
  freeze : pm.freeze_authority = none
  feeMint : a.poolMint = fa.mint
  constraints : checkConstraints fees curve fa.owner env.constraints = .ok ()
  feesOk : fees.validate = .ok ()
  curveOk : curve.validate = .ok ()
  mint : tokenMintTo env signers a.swap a.tokenProgram a.poolMint a.destination a.authority
    (env.findPda a.swap).2 (UInt64.ofNat 1000000000) w = .ok w1
  oldIs : (w1 a.swap).data = .raw old
  bytesIs : SwapVersion.pack
    { is_initialized := true
      bump_seed := (env.findPda a.swap).2
      token_program_id := a.tokenProgram
      token_a := a.tokenA
      token_b := a.tokenB
      pool_mint := a.poolMint
      token_a_mint := tA.mint
      token_b_mint := tB.mint
      pool_fee_account := a.fee
      fees := fees
      swap_curve := curve } old = .ok bytes
  owner : (w1 a.swap).owner = env.programId
  write : w' = w1.setData a.swap (.raw bytes)

theorem processInitialize_ok {env : Env} {signers : List Pubkey} {fees : Fees} {curve : Curve}
    {a : InitAccounts} {w w' : World}
    (h : processInitialize env signers fees curve a w = .ok w') :
    ∃ tA tB fa de pm bytes old w1,
      InitRun env signers fees curve a w w' tA tB fa de pm bytes old w1 := by
  unfold processInitialize at h
  rw [req_bind] at h
  obtain ⟨h1, h⟩ := h
  simp only [] at h
  rw [req_bind] at h
  obtain ⟨h2, h⟩ := h
  rw [Except_bind_ok] at h
  obtain ⟨tA, htA, h⟩ := h
  rw [Except_bind_ok] at h
  obtain ⟨tB, htB, h⟩ := h
  rw [Except_bind_ok] at h
  obtain ⟨fa, hfa, h⟩ := h
  rw [Except_bind_ok] at h
  obtain ⟨de, hde, h⟩ := h
  rw [Except_bind_ok] at h
  obtain ⟨pm, hpm, h⟩ := h
  rw [unpackTokenAccount_ok] at htA htB hfa hde
  rw [unpackMint_ok] at hpm
  rw [req_bind, req_bind, req_bind, req_bind, req_bind, req_bind] at h
  obtain ⟨c1, c2, c3, c4, c5, c6, h⟩ := h
  rw [Except_bind_ok] at h
  obtain ⟨_, hsup, h⟩ := h
  rw [liftSwap_ok] at hsup
  rw [req_bind, req_bind, req_bind, req_bind, req_bind, req_bind, req_bind] at h
  obtain ⟨d1, d2, d3, d4, d5, d6, d7, h⟩ := h
  rw [Except_bind_ok] at h
  obtain ⟨_, hcon, h⟩ := h
  rw [Except_bind_ok] at h
  obtain ⟨_, hfees, h⟩ := h
  rw [Except_bind_ok] at h
  obtain ⟨_, hcur, h⟩ := h
  rw [liftSwap_ok] at hfees hcur
  rw [Except_bind_ok] at h
  obtain ⟨ini, hini, h⟩ := h
  have eini : ini = UInt64.ofNat 1000000000 := by
    have : curve.newPoolSupply = 1000000000 := rfl
    rw [this] at hini
    unfold toU64 at hini
    split at hini
    · cases hini; rfl
    · cases hini
  rw [Except_bind_ok] at h
  obtain ⟨w1, hw1, h⟩ := h
  rw [eini] at hw1
  unfold writeState at h
  split at h
  · rename_i l hl
    rw [Except_bind_ok] at h
    obtain ⟨bytes, hb, h⟩ := h
    rw [req_bind] at h
    obtain ⟨ho, h⟩ := h
    cases h
    exact ⟨tA, tB, fa, de, pm, bytes, l, w1, h1, h2, htA, htB, hfa, hde, hpm, c1, c2, c3, c4, c5,
      c6, hsup, d1, d2, d3, d4, d5, d6, d7, hcon, hfees, hcur, hw1, hl, hb, ho, rfl⟩
  · cases h

end Processor
end Verif
