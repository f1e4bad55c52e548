import Verif.Spec.Live
import Verif.Lemmas.Effects
import Verif.Lemmas.ChainLinear

/-
Sufficient conditions for token operations and instructions to succeed.
-/

namespace Verif
open Spec Processor

theorem bal_some {w : World} {k : Pubkey} {t : TokenAccount} (h : tokenAt w k = some t) :
    bal w k = t.amount.toNat := bal_token (tokenAt_some.1 h)

/-! ### Conditions survive other operations -/

theorem Spec.CanPay.frame {env : Env} {w w' : World} {k m u : Pubkey} {x y : Nat}
    (h : CanPay env w k m u y) (hf : Frame w w') (hx : (x : Int) ≤ bal w' k) :
    CanPay env w' k m u x := by
  obtain ⟨ho, t, ht, hm, hu, hd, hz, _⟩ := h
  obtain ⟨t', h1, h2, h3, h4, _, h6⟩ := hf.token (tokenAt_some.1 ht)
  refine ⟨(hf k).1.trans ho, t', tokenAt_some.2 h1, h2.trans hm, h3.trans hu, ?_, h4.trans hz, ?_⟩
  · rcases h6 with h6 | h6
    · rwa [h6]
    · rw [h6]; exact nofun
  · rw [bal_token h1] at hx; exact_mod_cast hx

theorem Spec.CanReceive.frame {env : Env} {w w' : World} {k m : Pubkey} {x y : Nat}
    (h : CanReceive env w k m y) (hf : Frame w w') (hx : bal w' k + x < 2 ^ 64) :
    CanReceive env w' k m x := by
  obtain ⟨ho, t, ht, hm, hz, _⟩ := h
  obtain ⟨t', h1, h2, _, h4, _⟩ := hf.token (tokenAt_some.1 ht)
  refine ⟨(hf k).1.trans ho, t', tokenAt_some.2 h1, h2.trans hm, h4.trans hz, ?_⟩
  rw [bal_token h1] at hx; exact_mod_cast hx

theorem Spec.CanReceive.room {env : Env} {w : World} {k m : Pubkey} {x : Nat}
    (h : CanReceive env w k m x) : bal w k + x < 2 ^ 64 := by
  obtain ⟨_, t, ht, _, _, hx⟩ := h
  rw [bal_some ht]; exact_mod_cast hx

theorem Spec.CanPay.funds {env : Env} {w : World} {k m u : Pubkey} {x : Nat}
    (h : CanPay env w k m u x) : (x : Int) ≤ bal w k := by
  obtain ⟨_, t, ht, _, _, _, _, hx⟩ := h
  rw [bal_some ht]; exact_mod_cast hx

theorem Spec.CanPay.mintOf {env : Env} {w : World} {k m u : Pubkey} {x : Nat}
    (h : CanPay env w k m u x) : mintOf w k = some m := by
  obtain ⟨_, t, ht, hm, _⟩ := h
  unfold Spec.mintOf; rw [ht, ← hm]; rfl

theorem Spec.CanReceive.mintOf {env : Env} {w : World} {k m : Pubkey} {x : Nat}
    (h : CanReceive env w k m x) : mintOf w k = some m := by
  obtain ⟨_, t, ht, hm, _⟩ := h
  unfold Spec.mintOf; rw [ht, ← hm]; rfl

theorem Spec.SoleOwner.mint {env : Env} {w : World} {k m x : Pubkey}
    (h : SoleOwner env w k m x) : Spec.mintOf w k = some m := by
  obtain ⟨_, t, ht, hm, _⟩ := h
  unfold Spec.mintOf; rw [tokenAt_some.2 ht, ← hm]; rfl

/-- A pool can pay out of its vault whatever is in it. -/
theorem Spec.SoleOwner.canPay {env : Env} {w : World} {k m x : Pubkey} {n : Nat}
    (h : SoleOwner env w k m x) (hz : Thawed w k) (hn : (n : Int) ≤ bal w k) :
    CanPay env w k m x n := by
  obtain ⟨ho, t, ht, hm, hu, hd, _⟩ := h
  obtain ⟨t', ht', hz⟩ := hz
  rw [tokenAt_some.2 ht] at ht'
  cases ht'
  rw [bal_token ht] at hn
  exact ⟨ho, t, tokenAt_some.2 ht, hm, hu, by rw [hd]; exact nofun, hz, by exact_mod_cast hn⟩

/-! ### Token operations -/

theorem checkedSub64_of {a b : UInt64} (h : b.toNat ≤ a.toNat) :
    ∃ c, checkedSub64 a b = some c := by
  unfold checkedSub64; rw [if_pos h]; exact ⟨_, rfl⟩

theorem checkedAdd64_of {a b : UInt64} (h : a.toNat + b.toNat < 2 ^ 64) :
    ∃ c, checkedAdd64 a b = some c := by
  unfold checkedAdd64; rw [if_pos (by rw [U64_val]; exact h)]; exact ⟨_, rfl⟩

theorem authorize_of {signed : Pubkey → Bool} {t : TokenAccount} {a : Pubkey} {x : UInt64}
    (ho : t.owner = a) (hd : t.delegate ≠ some a) (hs : signed a = true) :
    Token.authorize signed t a x = .ok t := by
  unfold Token.authorize
  rw [if_neg hd, Except_bind_ok]
  refine ⟨(), ?_, rfl⟩
  unfold Token.validateOwner
  rw [req_bind, req_ok]
  exact ⟨ho, hs⟩

theorem transfer_of {env : Env} {signed : Pubkey → Bool} {src dst m a : Pubkey} {x : UInt64}
    {w : World} (hp : CanPay env w src m a x.toNat) (hr : CanReceive env w dst m x.toNat)
    (hs : signed a = true) (hne : src ≠ dst) :
    ∃ w', Token.transfer env.tokenProgramId signed src dst a x w = .ok w' := by
  obtain ⟨so, s, hs1, sm, su, sd, sz, sx⟩ := hp
  obtain ⟨do_, d, hd1, dm, dz, dx⟩ := hr
  obtain ⟨sa, hsa⟩ := checkedSub64_of sx
  obtain ⟨da, hda⟩ := checkedAdd64_of dx
  refine ⟨(w.setData src (.token { s with amount := sa })).setData dst
    (.token { d with amount := da }), ?_⟩
  unfold Token.transfer
  rw [Except_bind_ok]
  refine ⟨s, Token.getToken_ok.2 ⟨so, tokenAt_some.1 hs1⟩, ?_⟩
  rw [Except_bind_ok]
  refine ⟨d, Token.getToken_ok.2 ⟨do_, tokenAt_some.1 hd1⟩, ?_⟩
  rw [req_bind, req_bind, req_bind]
  refine ⟨⟨sz, dz⟩, UInt64.le_iff_toNat_le.2 sx, sm.trans dm.symm, ?_⟩
  rw [Except_bind_ok]
  refine ⟨s, authorize_of su sd hs, ?_⟩
  rw [if_neg hne, Except_bind_ok]
  refine ⟨sa, optErr_ok.2 hsa, ?_⟩
  rw [Except_bind_ok]
  exact ⟨da, optErr_ok.2 hda, rfl⟩

theorem mintTo_of {env : Env} {signed : Pubkey → Bool} {mint dst a : Pubkey} {x : UInt64}
    {w : World} {pm : Mint} (hr : CanReceive env w dst mint x.toNat)
    (hmo : (w mint).owner = env.tokenProgramId) (hm : mintAt w mint = some pm)
    (ha : pm.mint_authority = some a) (hx : pm.supply.toNat + x.toNat < 2 ^ 64)
    (hs : signed a = true) :
    ∃ w', Token.mintTo env.tokenProgramId signed mint dst a x w = .ok w' := by
  obtain ⟨do_, d, hd1, dm, dz, dx⟩ := hr
  obtain ⟨da, hda⟩ := checkedAdd64_of dx
  obtain ⟨ms, hms⟩ := checkedAdd64_of hx
  refine ⟨(w.setData dst (.token { d with amount := da })).setData mint
    (.mint { pm with supply := ms }), ?_⟩
  unfold Token.mintTo
  rw [Except_bind_ok]
  refine ⟨d, Token.getToken_ok.2 ⟨do_, tokenAt_some.1 hd1⟩, ?_⟩
  rw [req_bind, req_bind]
  refine ⟨dz, dm, ?_⟩
  rw [Except_bind_ok]
  refine ⟨pm, Token.getMint_ok.2 ⟨hmo, mintAt_some.1 hm⟩, ?_⟩
  rw [Except_bind_ok]
  refine ⟨a, optErr_ok.2 ha, ?_⟩
  rw [Except_bind_ok]
  refine ⟨(), ?_, ?_⟩
  · unfold Token.validateOwner
    rw [req_bind, req_ok]
    exact ⟨rfl, hs⟩
  rw [Except_bind_ok]
  refine ⟨da, optErr_ok.2 hda, ?_⟩
  rw [Except_bind_ok]
  exact ⟨ms, optErr_ok.2 hms, rfl⟩

theorem burn_of {env : Env} {signed : Pubkey → Bool} {mint src a : Pubkey} {x : UInt64}
    {w : World} {pm : Mint} (hp : CanPay env w src mint a x.toNat)
    (hmo : (w mint).owner = env.tokenProgramId) (hm : mintAt w mint = some pm)
    (hx : x.toNat ≤ pm.supply.toNat) (hs : signed a = true) :
    ∃ w', Token.burn env.tokenProgramId signed src mint a x w = .ok w' := by
  obtain ⟨so, s, hs1, sm, su, sd, sz, sx⟩ := hp
  obtain ⟨sa, hsa⟩ := checkedSub64_of sx
  obtain ⟨ms, hms⟩ := checkedSub64_of hx
  refine ⟨(w.setData src (.token { s with amount := sa })).setData mint
    (.mint { pm with supply := ms }), ?_⟩
  unfold Token.burn
  rw [Except_bind_ok]
  refine ⟨s, Token.getToken_ok.2 ⟨so, tokenAt_some.1 hs1⟩, ?_⟩
  rw [Except_bind_ok]
  refine ⟨pm, Token.getMint_ok.2 ⟨hmo, mintAt_some.1 hm⟩, ?_⟩
  rw [req_bind, req_bind, req_bind]
  refine ⟨sz, UInt64.le_iff_toNat_le.2 sx, sm, ?_⟩
  rw [Except_bind_ok]
  refine ⟨s, authorize_of su sd hs, ?_⟩
  rw [Except_bind_ok]
  refine ⟨sa, optErr_ok.2 hsa, ?_⟩
  rw [Except_bind_ok]
  exact ⟨ms, optErr_ok.2 hms, rfl⟩

/-! ### Calls of the token program -/

section calls
variable {env : Env} {signers : List Pubkey} {swap pda : Pubkey} {bump : UInt8}

theorem cpiSigned_of (hp : env.createPda swap bump = some pda) :
    ∃ f, cpiSigned env signers swap bump = .ok f ∧ ∀ k, k ∈ signers ∨ k = pda → f k = true := by
  unfold cpiSigned
  rw [hp]
  exact ⟨_, rfl, fun k hk => decide_eq_true hk⟩

theorem tokenTransfer_of (hpda : env.createPda swap bump = some pda) {src dst m a : Pubkey}
    {x : UInt64} {w : World} (ha : a ∈ signers ∨ a = pda) (hp : CanPay env w src m a x.toNat)
    (hr : CanReceive env w dst m x.toNat) (hne : src ≠ dst) :
    ∃ w', tokenTransfer env signers swap env.tokenProgramId src dst a bump x w = .ok w' ∧
      Frame w w' ∧ (∀ k, supply w' k = supply w k) ∧
      ∀ k, bal w' k = bal w k + when (k = dst) x.toNat - when (k = src) x.toNat := by
  obtain ⟨f, hf, hfs⟩ := cpiSigned_of (signers := signers) hpda
  obtain ⟨w', h⟩ := transfer_of (signed := f) hp hr (hfs a ha) hne
  have hm := Token.transfer_ok h
  refine ⟨w', ?_, hm.frame, hm.supply, hm.bal⟩
  unfold tokenTransfer
  rw [req_bind, Except_bind_ok]
  exact ⟨rfl, f, hf, h⟩

theorem tokenMintTo_of (hpda : env.createPda swap bump = some pda) {mint dst : Pubkey}
    {x : UInt64} {w : World} (hm : SoleMinter env w mint pda)
    (hr : CanReceive env w dst mint x.toNat) (hx : supply w mint + x.toNat < 2 ^ 64) :
    ∃ w', tokenMintTo env signers swap env.tokenProgramId mint dst pda bump x w = .ok w' ∧
      Frame w w' ∧ (∀ k, supply w' k = supply w k + when (k = mint) x.toNat) ∧
      ∀ k, bal w' k = bal w k + when (k = dst) x.toNat := by
  obtain ⟨f, hf, hfs⟩ := cpiSigned_of (signers := signers) hpda
  obtain ⟨hmo, pm, hpm, hau, _⟩ := hm
  rw [supply_mint hpm] at hx
  obtain ⟨w', h⟩ := mintTo_of (signed := f) hr hmo (mintAt_some.2 hpm) hau (by exact_mod_cast hx)
    (hfs pda (Or.inr rfl))
  have hm := Token.mintTo_ok h
  refine ⟨w', ?_, hm.frame, hm.supply, hm.bal⟩
  unfold tokenMintTo
  rw [req_bind, Except_bind_ok]
  exact ⟨rfl, f, hf, h⟩

theorem tokenBurn_of (hpda : env.createPda swap bump = some pda) {mint src a x' : Pubkey}
    {x : UInt64} {w : World} (hm : SoleMinter env w mint x') (ha : a ∈ signers ∨ a = pda)
    (hp : CanPay env w src mint a x.toNat) (hx : (x.toNat : Int) ≤ supply w mint) :
    ∃ w', tokenBurn env signers swap env.tokenProgramId src mint a bump x w = .ok w' ∧
      Frame w w' ∧ (∀ k, supply w' k = supply w k - when (k = mint) x.toNat) ∧
      ∀ k, bal w' k = bal w k - when (k = src) x.toNat := by
  obtain ⟨f, hf, hfs⟩ := cpiSigned_of (signers := signers) hpda
  obtain ⟨hmo, pm, hpm, _⟩ := hm
  rw [supply_mint hpm] at hx
  obtain ⟨w', h⟩ := burn_of (signed := f) hp hmo (mintAt_some.2 hpm) (by exact_mod_cast hx)
    (hfs a ha)
  have hm := Token.burn_ok h
  refine ⟨w', ?_, hm.frame, hm.supply, hm.bal⟩
  unfold tokenBurn
  rw [req_bind, Except_bind_ok]
  exact ⟨rfl, f, hf, h⟩

theorem ifPos_of (hpda : env.createPda swap bump = some pda) {src dst m a : Pubkey}
    {x : UInt64} {w : World} (ha : a ∈ signers ∨ a = pda) (hp : CanPay env w src m a x.toNat)
    (hr : 0 < x.toNat → CanReceive env w dst m x.toNat) (hne : src ≠ dst) :
    ∃ w', tokenTransferIfPos env signers swap env.tokenProgramId src dst a bump x w = .ok w' ∧
      Frame w w' ∧ (∀ k, supply w' k = supply w k) ∧
      ∀ k, bal w' k = bal w k + when (k = dst) x.toNat - when (k = src) x.toNat := by
  unfold tokenTransferIfPos
  by_cases hx : 0 < x.toNat
  · rw [if_pos (show x > 0 from UInt64.lt_iff_toNat_lt.2 (show (0 : UInt64).toNat < x.toNat from hx))]
    exact tokenTransfer_of hpda ha hp (hr hx) hne
  · rw [if_neg (fun h : x > 0 => hx (show (0 : UInt64).toNat < x.toNat from UInt64.lt_iff_toNat_lt.1 h))]
    have e : x.toNat = 0 := by omega
    refine ⟨w, rfl, Frame.refl w, fun _ => rfl, fun k => ?_⟩
    rw [e]
    rw [show ((0 : Nat) : Int) = 0 from rfl, when_zero, when_zero]
    omega

theorem toU64_of {n : Nat} (h : n < 2 ^ 64) : ∃ x : UInt64, x.toNat = n ∧ toU64 n = .ok x := by
  refine ⟨UInt64.ofNat n, ?_, ?_⟩
  · rw [UInt64.toNat_ofNat']; exact Nat.mod_eq_of_lt h
  · rw [toU64_ok, UInt64.toNat_ofNat']; exact Nat.mod_eq_of_lt h

end calls

/-! ### Instructions: the checks and effects of a run suffice for it -/

theorem checkAccounts_of {env : Env} {w : World} {ts : SwapV1} {swap authority tokenA tokenB
    poolMint tokenProgram : Pubkey} {userA userB fee : Option Pubkey}
    (h : Checked env w ts swap authority tokenA tokenB poolMint tokenProgram userA userB fee) :
    checkAccounts env w ts swap authority tokenA tokenB poolMint tokenProgram userA userB fee =
      .ok () := by
  unfold checkAccounts
  rw [req_bind, Except_bind_ok]
  refine ⟨h.owner, authority, optErr_ok.2 h.pda, ?_⟩
  simp only [req_bind, req_ok]
  exact ⟨trivial, h.isA, h.isB, h.isMint, h.isTp, h.neA, h.neB, h.isFee⟩

theorem Processor.SwapRun.run {env : Env} {signers : List Pubkey} {x y : UInt64} {a : SwapAccounts}
    {host : Option Pubkey} {w w' : World} {ts : SwapV1} {src dst : TokenAccount} {pm : Mint}
    {r : SwapResult} {pt : Nat} {i o : UInt64} {w1 w2 : World}
    (h : SwapRun env signers x y a host w w' ts src dst pm r pt i o w1 w2) :
    processSwap env signers x y a host w = .ok w' := by
  unfold processSwap
  rw [req_bind]
  refine ⟨h.owner, Except_bind_ok.2 ⟨ts, h.state, Except_bind_ok.2 ⟨a.authority,
    optErr_ok.2 h.pda, ?_⟩⟩⟩
  rw [req_bind, req_bind, req_bind, req_bind, req_bind, req_bind, req_bind, req_bind, req_bind]
  refine ⟨rfl, h.srcIs, h.dstIs, h.srcNeDst, h.srcNeUser, h.dstNeUser, h.mintIs, h.feeIs, h.tpIs,
    Except_bind_ok.2 ⟨src, unpackTokenAccount_ok.2 h.srcTok, Except_bind_ok.2 ⟨dst,
    unpackTokenAccount_ok.2 h.dstTok, Except_bind_ok.2 ⟨pm, unpackMint_ok.2 h.mintAcc, ?_⟩⟩⟩⟩
  simp only []
  refine Except_bind_ok.2 ⟨r, okOr_ok.2 h.result, ?_⟩
  rw [req_bind]
  exact ⟨h.slippage, Except_bind_ok.2 ⟨i, toU64_ok.2 h.amtInIs, Except_bind_ok.2 ⟨w1, h.pay,
    Except_bind_ok.2 ⟨pt, okOr_ok.2 h.feeCalc, Except_bind_ok.2 ⟨w2, h.mint,
    Except_bind_ok.2 ⟨o, toU64_ok.2 h.amtOutIs, h.payOut⟩⟩⟩⟩⟩⟩

theorem Processor.DepositAllRun.run {env : Env} {signers : List Pubkey} {p ma mb : UInt64}
    {a : DepositAllAccounts} {w w' : World} {ts : SwapV1} {tA tB : TokenAccount} {pm : Mint}
    {r : TradingTokenResult} {xa xb xp : UInt64} {w1 w2 : World}
    (h : DepositAllRun env signers p ma mb a w w' ts tA tB pm r xa xb xp w1 w2) :
    processDepositAll env signers p ma mb a w = .ok w' := by
  unfold processDepositAll
  refine Except_bind_ok.2 ⟨ts, h.state, ?_⟩
  rw [req_bind]
  refine ⟨h.allowed, Except_bind_ok.2 ⟨(), checkAccounts_of h.checked, Except_bind_ok.2 ⟨tA,
    unpackTokenAccount_ok.2 h.tokA, Except_bind_ok.2 ⟨tB, unpackTokenAccount_ok.2 h.tokB,
    Except_bind_ok.2 ⟨pm, unpackMint_ok.2 h.mintAcc, ?_⟩⟩⟩⟩⟩
  simp only []
  refine Except_bind_ok.2 ⟨r, okOr_ok.2 h.result, Except_bind_ok.2 ⟨xa, toU64_ok.2 h.amtAIs, ?_⟩⟩
  rw [req_bind, req_bind]
  refine ⟨h.maxA, h.posA, Except_bind_ok.2 ⟨xb, toU64_ok.2 h.amtBIs, ?_⟩⟩
  rw [req_bind, req_bind]
  exact ⟨h.maxB, h.posB, Except_bind_ok.2 ⟨xp, toU64_ok.2 h.amtPIs, Except_bind_ok.2 ⟨w1, h.payA,
    Except_bind_ok.2 ⟨w2, h.payB, h.mint⟩⟩⟩⟩

theorem Processor.WithdrawAllRun.run {env : Env} {signers : List Pubkey} {p ma mb : UInt64}
    {a : WithdrawAllAccounts} {w w' : World} {ts : SwapV1} {tA tB : TokenAccount} {pm : Mint}
    {fee burnt : UInt64} {r : TradingTokenResult} {xa xb : UInt64} {w1 w2 w3 : World}
    (h : WithdrawAllRun env signers p ma mb a w w' ts tA tB pm fee burnt r xa xb w1 w2 w3)
    (hA : r.token_a_amount < 2 ^ 64) (hB : r.token_b_amount < 2 ^ 64) :
    processWithdrawAll env signers p ma mb a w = .ok w' := by
  obtain ⟨ya, eya, hya⟩ := toU64_of hA
  obtain ⟨yb, eyb, hyb⟩ := toU64_of hB
  have ea : min tA.amount ya = xa := UInt64.toNat_inj.1 (by rw [min_toNat, eya, h.amtAIs])
  have eb : min tB.amount yb = xb := UInt64.toNat_inj.1 (by rw [min_toNat, eyb, h.amtBIs])
  unfold processWithdrawAll
  refine Except_bind_ok.2 ⟨ts, h.state, Except_bind_ok.2 ⟨(), checkAccounts_of h.checked,
    Except_bind_ok.2 ⟨tA, unpackTokenAccount_ok.2 h.tokA, Except_bind_ok.2 ⟨tB,
    unpackTokenAccount_ok.2 h.tokB, Except_bind_ok.2 ⟨pm, unpackMint_ok.2 h.mintAcc, ?_⟩⟩⟩⟩⟩
  have hs : csub p.toNat fee.toNat = .ok burnt.toNat := by
    have := h.burntIs
    rw [csub_eq_ok]
    omega
  have hfeeU : toU64 fee.toNat = .ok fee := toU64_ok.2 rfl
  have rest : (do
        let poolTokens ← okOr (csub p.toNat fee.toNat) .CalculationFailure
        let r ← okOr (ts.swap_curve.poolTokensToTradingTokens env.spl poolTokens
          pm.supply.toNat tA.amount.toNat tB.amount.toNat .Floor) .ZeroTradingTokens
        let amtA0 ← toU64 r.token_a_amount
        let amtA := min tA.amount amtA0
        require (ma ≤ amtA) (.swap .ExceededSlippage)
        require (¬(amtA = 0 ∧ tA.amount ≠ 0)) (.swap .ZeroTradingTokens)
        let amtB0 ← toU64 r.token_b_amount
        let amtB := min tB.amount amtB0
        require (mb ≤ amtB) (.swap .ExceededSlippage)
        require (¬(amtB = 0 ∧ tB.amount ≠ 0)) (.swap .ZeroTradingTokens)
        let feeAmt ← toU64 fee.toNat
        let w1 ← tokenTransferIfPos env signers a.swap a.tokenProgram a.source a.fee
          a.userAuthority ts.bump_seed feeAmt w
        let burnAmt ← toU64 poolTokens
        let w2 ← tokenBurn env signers a.swap a.tokenProgram a.source a.poolMint a.userAuthority
          ts.bump_seed burnAmt w1
        let w3 ← tokenTransferIfPos env signers a.swap a.tokenProgram a.tokenA a.destA a.authority
          ts.bump_seed amtA w2
        tokenTransferIfPos env signers a.swap a.tokenProgram a.tokenB a.destB a.authority
          ts.bump_seed amtB w3) = .ok w' := by
    refine Except_bind_ok.2 ⟨burnt.toNat, okOr_ok.2 hs, Except_bind_ok.2 ⟨r, okOr_ok.2 h.result,
      Except_bind_ok.2 ⟨ya, hya, ?_⟩⟩⟩
    simp only []
    rw [req_bind, req_bind, ea]
    refine ⟨h.minA, h.posA, Except_bind_ok.2 ⟨yb, hyb, ?_⟩⟩
    rw [req_bind, req_bind, eb]
    exact ⟨h.minB, h.posB, Except_bind_ok.2 ⟨fee, hfeeU, Except_bind_ok.2 ⟨w1, h.payFee,
      Except_bind_ok.2 ⟨burnt, toU64_ok.2 rfl, Except_bind_ok.2 ⟨w2, h.burn,
      Except_bind_ok.2 ⟨w3, h.payA, h.payB⟩⟩⟩⟩⟩⟩
  rcases h.feeIs with ⟨h1, h2⟩ | ⟨h1, h2⟩
  · rw [h2] at rest
    rw [if_pos h1]
    exact rest
  · rw [if_neg h1]
    exact Except_bind_ok.2 ⟨_, okOr_ok.2 h2, rest⟩

theorem Processor.DepositSingleRun.run {env : Env} {signers : List Pubkey} {x mp : UInt64}
    {a : DepositSingleAccounts} {w w' : World} {ts : SwapV1} {src tA tB : TokenAccount}
    {dir : TradeDirection} {pm : Mint} {xp : UInt64} {w1 : World}
    (h : DepositSingleRun env signers x mp a w w' ts src tA tB dir pm xp w1) :
    processDepositSingle env signers x mp a w = .ok w' := by
  unfold processDepositSingle
  refine Except_bind_ok.2 ⟨ts, h.state, Except_bind_ok.2 ⟨src, unpackTokenAccount_ok.2 h.srcTok,
    Except_bind_ok.2 ⟨tA, unpackTokenAccount_ok.2 h.tokA, Except_bind_ok.2 ⟨tB,
    unpackTokenAccount_ok.2 h.tokB, Except_bind_ok.2 ⟨dir, h.dirIs, Except_bind_ok.2 ⟨(),
    checkAccounts_of h.checked, Except_bind_ok.2 ⟨pm, unpackMint_ok.2 h.mintAcc, ?_⟩⟩⟩⟩⟩⟩⟩
  have rest : (do
      let amtP ← toU64 xp.toNat
      require (mp ≤ amtP) (.swap .ExceededSlippage)
      require (amtP ≠ 0) (.swap .ZeroTradingTokens)
      let w1 ← tokenTransfer env signers a.swap a.tokenProgram a.source
        (sideOf dir a.tokenA a.tokenB) a.userAuthority
        ts.bump_seed x w
      tokenMintTo env signers a.swap a.tokenProgram a.poolMint a.destination a.authority
        ts.bump_seed amtP w1) = .ok w' := by
    refine Except_bind_ok.2 ⟨xp, toU64_ok.2 rfl, ?_⟩
    rw [req_bind, req_bind]
    exact ⟨h.minP, h.posP, Except_bind_ok.2 ⟨w1, h.pay, h.mint⟩⟩
  rcases h.result with ⟨h1, h2⟩ | ⟨h1, h2⟩
  · have hn : ¬ pm.supply > 0 := by
      rw [gt_iff_lt, UInt64.lt_iff_toNat_lt]
      change ¬ 0 < pm.supply.toNat
      omega
    simp only [if_neg hn]
    rw [h2] at rest
    exact rest
  · have hn : pm.supply > 0 := by
      rw [gt_iff_lt, UInt64.lt_iff_toNat_lt]
      exact h1
    simp only [if_pos hn]
    exact Except_bind_ok.2 ⟨_, okOr_ok.2 h2, rest⟩

theorem Processor.WithdrawSingleRun.run {env : Env} {signers : List Pubkey} {x mp : UInt64}
    {a : WithdrawSingleAccounts} {w w' : World} {ts : SwapV1} {dst tA tB : TokenAccount}
    {dir : TradeDirection} {pm : Mint} {fee burnt : UInt64} {w1 w2 : World}
    (h : WithdrawSingleRun env signers x mp a w w' ts dst tA tB dir pm fee burnt w1 w2) :
    processWithdrawSingle env signers x mp a w = .ok w' := by
  unfold processWithdrawSingle
  refine Except_bind_ok.2 ⟨ts, h.state, Except_bind_ok.2 ⟨dst, unpackTokenAccount_ok.2 h.dstTok,
    Except_bind_ok.2 ⟨tA, unpackTokenAccount_ok.2 h.tokA, Except_bind_ok.2 ⟨tB,
    unpackTokenAccount_ok.2 h.tokB, Except_bind_ok.2 ⟨dir, h.dirIs, Except_bind_ok.2 ⟨(),
    checkAccounts_of h.checked, Except_bind_ok.2 ⟨pm, unpackMint_ok.2 h.mintAcc,
    Except_bind_ok.2 ⟨_, okOr_ok.2 h.result, ?_⟩⟩⟩⟩⟩⟩⟩⟩
  have hmp := mp.toNat_lt
  have hmax := h.maxP
  obtain ⟨p64, ep, hp⟩ := toU64_of (n := burnt.toNat + fee.toNat) (by omega)
  have hadd : cadd U128 burnt.toNat fee.toNat = .ok (burnt.toNat + fee.toNat) := by
    rw [cadd_eq_ok, U128_val]
    constructor
    · omega
    · rfl
  have rest : (do
      let poolTokens ← okOr (cadd U128 burnt.toNat fee.toNat) .CalculationFailure
      let poolTokens64 ← toU64 poolTokens
      require (poolTokens64 ≤ mp) (.swap .ExceededSlippage)
      require (poolTokens ≠ 0) (.swap .ZeroTradingTokens)
      let feeAmt ← toU64 fee.toNat
      let w1 ← tokenTransferIfPos env signers a.swap a.tokenProgram a.source a.fee a.userAuthority
        ts.bump_seed feeAmt w
      let burnAmt ← toU64 burnt.toNat
      let w2 ← tokenBurn env signers a.swap a.tokenProgram a.source a.poolMint a.userAuthority
        ts.bump_seed burnAmt w1
      tokenTransfer env signers a.swap a.tokenProgram
        (sideOf dir a.tokenA a.tokenB) a.destination a.authority
        ts.bump_seed x w2) = .ok w' := by
    refine Except_bind_ok.2 ⟨_, okOr_ok.2 hadd, Except_bind_ok.2 ⟨p64, hp, ?_⟩⟩
    rw [req_bind, req_bind]
    exact ⟨UInt64.le_iff_toNat_le.2 (by rw [ep]; exact h.maxP), h.posP,
      Except_bind_ok.2 ⟨fee, toU64_ok.2 rfl, Except_bind_ok.2 ⟨w1, h.payFee,
      Except_bind_ok.2 ⟨burnt, toU64_ok.2 rfl, Except_bind_ok.2 ⟨w2, h.burn, h.pay⟩⟩⟩⟩⟩
  rcases h.feeIs with ⟨h1, h2⟩ | ⟨h1, h2⟩
  · rw [h2] at rest
    simp only [if_pos h1]
    exact rest
  · simp only [if_neg h1]
    exact Except_bind_ok.2 ⟨_, okOr_ok.2 h2, rest⟩

theorem Processor.InitRun.run {env : Env} {signers : List Pubkey} {fees : Fees} {curve : Curve}
    {a : InitAccounts} {w w' : World} {tA tB fa de : TokenAccount} {pm : Mint}
    {bytes old : List UInt8} {w1 : World}
    (h : InitRun env signers fees curve a w w' tA tB fa de pm bytes old w1) :
    processInitialize env signers fees curve a w = .ok w' := by
  unfold processInitialize
  rw [req_bind]
  refine ⟨h.fresh, ?_⟩
  simp only []
  rw [req_bind]
  refine ⟨h.auth, Except_bind_ok.2 ⟨tA, unpackTokenAccount_ok.2 h.tokA, Except_bind_ok.2 ⟨tB,
    unpackTokenAccount_ok.2 h.tokB, Except_bind_ok.2 ⟨fa, unpackTokenAccount_ok.2 h.feeTok,
    Except_bind_ok.2 ⟨de, unpackTokenAccount_ok.2 h.destTok, Except_bind_ok.2 ⟨pm,
    unpackMint_ok.2 h.mintAcc, ?_⟩⟩⟩⟩⟩⟩
  rw [req_bind, req_bind, req_bind, req_bind, req_bind, req_bind]
  refine ⟨h.ownA, h.ownB, h.ownDest, h.ownFee, h.mintAuth, h.mints, Except_bind_ok.2 ⟨(),
    liftSwap_ok.2 h.supply, ?_⟩⟩
  rw [req_bind, req_bind, req_bind, req_bind, req_bind, req_bind, req_bind]
  refine ⟨h.delA, h.delB, h.closeA, h.closeB, h.supply0, h.freeze, h.feeMint,
    Except_bind_ok.2 ⟨(), h.constraints, Except_bind_ok.2 ⟨(), liftSwap_ok.2 h.feesOk,
    Except_bind_ok.2 ⟨(), liftSwap_ok.2 h.curveOk, Except_bind_ok.2 ⟨UInt64.ofNat 1000000000,
    toU64_ok.2 rfl, Except_bind_ok.2 ⟨w1, h.mint, ?_⟩⟩⟩⟩⟩⟩
  unfold writeState
  rw [h.oldIs]
  refine Except_bind_ok.2 ⟨bytes, h.bytesIs, ?_⟩
  rw [req_bind]
  exact ⟨h.owner, by rw [h.write]⟩

end Verif
