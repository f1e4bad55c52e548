import Verif.Lemmas.Amount
import Verif.Props.Serve
import Verif.Props.Report

/-
C82: with the right accounts only the amounts can be at fault.
-/

namespace Verif
namespace Props
open Spec Processor

section
variable {env : Env} {K : Pubkey → Prop} (he : EnvOk env K) {w : World} (hr : Reachable env K w)
  {signers : List Pubkey} (hs : ∀ u ∈ signers, ¬ IsPda env K u)
include he hr hs

theorem amount_swap {a : SwapAccounts} {x y : UInt64} (h : InOrder env w signers (.swap a x y))
    {L : List Err} (hL : ∀ e ∈ linearErrs, e ∈ L)
    (hF : .swap .FeeCalculationFailure ∈ L ∨
      ∀ s, PoolAt env w a.swap s → ∃ c, s.swap_curve = .linear c) :
    Fails (· ∈ L) (exec env signers (.swap a x y) w) := by
  obtain ⟨s, dir, hp, hpda, hu, htp, e3, e4, e1, e2, zi, zo, own, dst, hdst, hfee⟩ := h
  obtain ⟨hc, hcf, hpd⟩ := pool_facts he hr hp hpda
  have cin := custody_in hc dir
  have cout := custody_out hc dir
  have hux : a.userAuthority ≠ a.authority := fun e => hs _ hu (e ▸ hpd)
  have hio : vaultIn s dir ≠ vaultOut s dir := ne_of_mint cin.mint cout.mint (mints_ne hc dir)
  have nsi : a.source ≠ vaultIn s dir := fun e => cin.not_owns hux (e ▸ own)
  obtain ⟨i1, tin, i2, _⟩ := id cin
  obtain ⟨o1, tout, o2, _⟩ := id cout
  obtain ⟨m1, pm, m2, _⟩ := id hc.minter
  have hI : Err.token .InsufficientFunds ∈ L := hL _ (by decide)
  have hO : Err.token .Overflow ∈ L := hL _ (by decide)
  have hP : Err.Panic ∈ L := hL _ (by decide)
  have hdir : swapDirection s a = dir := by
    unfold swapDirection
    rw [e1]
    cases dir
    · exact if_pos rfl
    · exact if_neg hio
  unfold exec
  refine .pass hu ?_
  change Fails _ (processSwap env signers x y a none w)
  unfold processSwap
  refine .pass hp.1 (.step (unpackSwap_of hp) (.step (a := a.authority) (optErr_ok.2 hpda)
    (.pass rfl (.pass ?_ (.pass ?_ (.pass ?_ (.pass ?_ (.pass ?_ (.pass e3 (.pass e4
      (.pass (htp.trans hcf.tp.symm) (.step (a := tin) ?_ (.step (a := tout) ?_ (.step (a := pm) ?_
        ?_))))))))))))))
  · rw [e1]; cases dir
    · exact Or.inl rfl
    · exact Or.inr rfl
  · rw [e2]; cases dir
    · exact Or.inr rfl
    · exact Or.inl rfl
  · rw [e1, e2]; exact hio
  · rw [e1]; exact nsi.symm
  · rw [e2]; exact hdst.symm
  · rw [e1]; exact unpackTokenAccount_ok.2 ⟨i1.trans hcf.tp.symm, i2⟩
  · rw [e2]; exact unpackTokenAccount_ok.2 ⟨o1.trans hcf.tp.symm, o2⟩
  · rw [e3]; exact unpackMint_ok.2 ⟨m1.trans hcf.tp.symm, m2⟩
  simp only [hdir]
  refine .bind (fails_calc hP (hL _ (by decide))) fun r hq => .req (hL _ (by decide)) fun _ => ?_
  have hq := okOr_ok.1 hq
  have hb := C07_swap_bounds _ _ _ _ _ _ _ _ hq
  have hx := x.toNat_lt
  have ht := tout.amount.toNat_lt
  obtain ⟨xi, _, hxi⟩ := toU64_of (n := r.source_amount_swapped) (by omega)
  obtain ⟨xo, _, hxo⟩ := toU64_of (n := r.destination_amount_swapped) (by omega)
  refine .step hxi (.bind ?_ fun w1 hw1 => .bind ?_ fun fee hfc => .bind ?_ fun w2 hw2 => .step hxo ?_)
  · rw [e1]
    exact fails_pay hI hO hpda htp (Or.inl hu) own (cin.owns zi).takes
  · rcases hF with hF | hF
    · exact fails_calc hP hF
    · obtain ⟨c, hlin⟩ := hF s hp
      have hfees : s.fees = ⟨0, 1, 0, 1, 0, 1, 0, 1⟩ := by
        rcases hcf.kind with ⟨p, h1⟩ | ⟨l, _, h2⟩
        · rw [hlin] at h1; cases h1
        · exact h2
      rw [hlin, hfees] at hq
      rw [linear_no_fee hq]
      unfold Curve.withdrawSingle
      rw [if_pos rfl]
      exact .ok
  · obtain ⟨_, _, _, _, _, mv1⟩ := tokenTransfer_ok hw1
    unfold ownerFeeStep
    split
    · rename_i hpos
      have hfc := okOr_ok.1 hfc
      have hfee : fee < 2 ^ 64 ∧ Takes env w s.pool_fee_account s.pool_mint := by
        rcases hcf.kind with ⟨p, hpr⟩ | ⟨c, hlin, hfees⟩
        · refine ⟨?_, hfee.resolve_left ?_⟩
          · rw [hpr] at hq hfc
            refine swap_fee_fits pm.supply.toNat_lt hq ?_
            cases dir
            · exact hfc
            · exact hfc
          · rintro ⟨c, g⟩
            rw [hpr] at g
            cases g
        · exfalso
          rw [hlin, hfees] at hq hfc
          rw [linear_no_fee hq] at hfc
          unfold Curve.withdrawSingle at hfc
          rw [if_pos rfl] at hfc
          have := Res.ok.inj hfc
          omega
      obtain ⟨xf, _, hxf⟩ := toU64_of hfee.1
      refine .step (a := (fee, w1)) rfl (.step hxf ?_)
      rw [e3, e4]
      exact fails_issue hO hpda htp (Or.inr rfl) (hc.minter.frame mv1.frame)
        (hfee.2.frame mv1.frame)
    · exact .ok
  · obtain ⟨_, _, _, _, _, mv1⟩ := tokenTransfer_ok hw1
    have f2 : Frame w1 w2 := by
      rcases ownerFeeStep_none hw2 with ⟨_, h2⟩ | ⟨amt, _, _, h3⟩
      · subst h2; exact Frame.refl _
      · obtain ⟨_, _, _, _, _, mt⟩ := tokenMintTo_ok h3
        exact mt.frame
    have f12 := mv1.frame.trans f2
    rw [e2]
    exact fails_pay hI hO hpda htp (Or.inr rfl) ((cout.owns zo).frame f12) (dst.frame f12)

theorem amount_depositAll {a : DepositAllAccounts} {p ma mb : UInt64}
    (h : InOrder env w signers (.depositAll a p ma mb)) :
    Fails (· ∈ depositAllErrs) (exec env signers (.depositAll a p ma mb) w) := by
  obtain ⟨s, hp, hpda, hu, htp, e3, e1, e2, zA, zB, ownA, ownB, dst⟩ := h
  obtain ⟨hc, hcf, hpd⟩ := pool_facts he hr hp hpda
  have hux : a.userAuthority ≠ a.authority := fun e => hs _ hu (e ▸ hpd)
  have nA : a.sourceA ≠ s.token_a := fun e => hc.vaultA.not_owns hux (e ▸ ownA)
  have nB : a.sourceB ≠ s.token_b := fun e => hc.vaultB.not_owns hux (e ▸ ownB)
  obtain ⟨i1, tA, i2, _⟩ := id hc.vaultA
  obtain ⟨o1, tB, o2, _⟩ := id hc.vaultB
  obtain ⟨m1, pm, m2, _⟩ := id hc.minter
  have hI : Err.token .InsufficientFunds ∈ depositAllErrs := by decide
  have hO : Err.token .Overflow ∈ depositAllErrs := by decide
  have hP : Err.Panic ∈ depositAllErrs := by decide
  unfold exec
  refine .pass hu ?_
  change Fails _ (processDepositAll env signers p ma mb a w)
  unfold processDepositAll
  refine .step (unpackSwap_of hp) (.req (by decide) fun _ => .step (a := ()) (checkAccounts_of
    ⟨hp.1, hpda, e1, e2, e3, htp.trans hcf.tp.symm, ?_, ?_, Or.inl rfl⟩)
    (.step (a := tA) ?_ (.step (a := tB) ?_ (.step (a := pm) ?_ ?_))))
  · rw [e1]; exact fun g => nA (Option.some.inj g)
  · rw [e2]; exact fun g => nB (Option.some.inj g)
  · rw [e1]; exact unpackTokenAccount_ok.2 ⟨i1.trans hcf.tp.symm, i2⟩
  · rw [e2]; exact unpackTokenAccount_ok.2 ⟨o1.trans hcf.tp.symm, o2⟩
  · rw [e3]; exact unpackMint_ok.2 ⟨m1.trans hcf.tp.symm, m2⟩
  refine .bind (fails_calc hP (by decide)) fun r hq => .bind (fails_conv (by decide)) fun xa _ =>
    .req (by decide) fun _ => .req (by decide) fun _ => .bind (fails_conv (by decide)) fun xb _ =>
    .req (by decide) fun _ => .req (by decide) fun _ => .bind (fails_conv (by decide)) fun xp _ =>
    .bind ?_ fun w1 hw1 => .bind ?_ fun w2 hw2 => ?_
  · rw [e1]; exact fails_pay hI hO hpda htp (Or.inl hu) ownA (hc.vaultA.owns zA).takes
  · obtain ⟨_, _, _, _, _, mv1⟩ := tokenTransfer_ok hw1
    rw [e2]
    exact fails_pay hI hO hpda htp (Or.inl hu) (ownB.frame mv1.frame)
      ((hc.vaultB.owns zB).takes.frame mv1.frame)
  · obtain ⟨_, _, _, _, _, mv1⟩ := tokenTransfer_ok hw1
    obtain ⟨_, _, _, _, _, mv2⟩ := tokenTransfer_ok hw2
    have f12 := mv1.frame.trans mv2.frame
    rw [e3]
    exact fails_issue hO hpda htp (Or.inr rfl) (hc.minter.frame f12) (dst.frame f12)

omit he hr hs in
/-- Frame of a transfer that is skipped for nothing. -/
theorem ifPos_frame {swap tp src dst u : Pubkey} {b : UInt8} {n : UInt64} {w1 w2 : World}
    (h : tokenTransferIfPos env signers swap tp src dst u b n w1 = .ok w2) : Frame w1 w2 := by
  unfold tokenTransferIfPos at h
  split at h
  · obtain ⟨_, _, _, _, _, mv⟩ := tokenTransfer_ok h
    exact mv.frame
  · cases h; exact Frame.refl _

omit hs in
theorem amount_withdrawAll {a : WithdrawAllAccounts} {p ma mb : UInt64}
    (h : InOrder env w signers (.withdrawAll a p ma mb)) :
    Fails (· ∈ withdrawAllErrs) (exec env signers (.withdrawAll a p ma mb) w) := by
  obtain ⟨s, hp, hpda, hu, htp, e3, e4, e1, e2, zA, zB, own, dA, nA, dB, nB, tf⟩ := h
  obtain ⟨hc, hcf, hpd⟩ := pool_facts he hr hp hpda
  obtain ⟨i1, tA, i2, _⟩ := id hc.vaultA
  obtain ⟨o1, tB, o2, _⟩ := id hc.vaultB
  obtain ⟨m1, pm, m2, _⟩ := id hc.minter
  have hI : Err.token .InsufficientFunds ∈ withdrawAllErrs := by decide
  have hO : Err.token .Overflow ∈ withdrawAllErrs := by decide
  have hP : Err.Panic ∈ withdrawAllErrs := by decide
  have key : ∃ fee : Nat, fee ≤ p.toNat ∧ (if a.fee = a.source then (.ok 0 : Except Err Nat)
      else okOr (s.fees.ownerWithdrawFee p.toNat) .FeeCalculationFailure) = .ok fee := by
    split
    · exact ⟨0, Nat.zero_le _, rfl⟩
    · obtain ⟨fee, h1, _, h2, _⟩ := C15_fee s.fees hcf.fees .ownerWithdraw p.toNat p.toNat_lt
      exact ⟨fee, h2, okOr_ok.2 h1⟩
  obtain ⟨fee, hfle, hfee⟩ := key
  unfold exec
  refine .pass hu ?_
  change Fails _ (processWithdrawAll env signers p ma mb a w)
  have e : processWithdrawAll env signers p ma mb a w = (do
      let ts ← unpackSwap w a.swap
      checkAccounts env w ts a.swap a.authority a.tokenA a.tokenB a.poolMint a.tokenProgram
        (some a.destA) (some a.destB) (some a.fee)
      let tokenA ← unpackTokenAccount w a.tokenA ts.token_program_id
      let tokenB ← unpackTokenAccount w a.tokenB ts.token_program_id
      let poolMint ← unpackMint w a.poolMint ts.token_program_id
      let withdrawFee ← (if a.fee = a.source then (.ok 0 : Except Err Nat)
        else okOr (ts.fees.ownerWithdrawFee p.toNat) .FeeCalculationFailure)
      let poolTokens ← okOr (csub p.toNat withdrawFee) .CalculationFailure
      let r ← okOr (ts.swap_curve.poolTokensToTradingTokens env.spl poolTokens
        poolMint.supply.toNat tokenA.amount.toNat tokenB.amount.toNat .Floor) .ZeroTradingTokens
      let amtA0 ← toU64 r.token_a_amount
      let amtA := min tokenA.amount amtA0
      require (ma ≤ amtA) (.swap .ExceededSlippage)
      require (¬(amtA = 0 ∧ tokenA.amount ≠ 0)) (.swap .ZeroTradingTokens)
      let amtB0 ← toU64 r.token_b_amount
      let amtB := min tokenB.amount amtB0
      require (mb ≤ amtB) (.swap .ExceededSlippage)
      require (¬(amtB = 0 ∧ tokenB.amount ≠ 0)) (.swap .ZeroTradingTokens)
      let feeAmt ← toU64 withdrawFee
      let w1 ← tokenTransferIfPos env signers a.swap a.tokenProgram a.source a.fee a.userAuthority
        ts.bump_seed feeAmt w
      let burnAmt ← toU64 poolTokens
      let w2 ← tokenBurn env signers a.swap a.tokenProgram a.source a.poolMint a.userAuthority
        ts.bump_seed burnAmt w1
      let w3 ← tokenTransferIfPos env signers a.swap a.tokenProgram a.tokenA a.destA a.authority
        ts.bump_seed amtA w2
      tokenTransferIfPos env signers a.swap a.tokenProgram a.tokenB a.destB a.authority
        ts.bump_seed amtB w3) := by
    unfold processWithdrawAll
    split
    · rfl
    · rfl
  rw [e]
  refine .step (unpackSwap_of hp) (.step (a := ()) (checkAccounts_of
    ⟨hp.1, hpda, e1, e2, e3, htp.trans hcf.tp.symm, ?_, ?_, Or.inr (congrArg some e4)⟩)
    (.step (a := tA) ?_ (.step (a := tB) ?_ (.step (a := pm) ?_ (.step hfee
      (.step (a := p.toNat - fee) ?_ ?_))))))
  · rw [e1]; exact fun g => nA (Option.some.inj g)
  · rw [e2]; exact fun g => nB (Option.some.inj g)
  · rw [e1]; exact unpackTokenAccount_ok.2 ⟨i1.trans hcf.tp.symm, i2⟩
  · rw [e2]; exact unpackTokenAccount_ok.2 ⟨o1.trans hcf.tp.symm, o2⟩
  · rw [e3]; exact unpackMint_ok.2 ⟨m1.trans hcf.tp.symm, m2⟩
  · rw [okOr_ok]
    unfold csub
    rw [if_pos hfle]
  refine .bind (fails_calc hP (by decide)) fun r hq => .bind (fails_conv (by decide)) fun xa _ =>
    .req (by decide) fun _ => .req (by decide) fun _ => .bind (fails_conv (by decide)) fun xb _ =>
    .req (by decide) fun _ => .req (by decide) fun _ => .bind (fails_conv (by decide)) fun xf _ =>
    .bind ?_ fun w1 hw1 => .bind (fails_conv (by decide)) fun xp _ => .bind ?_ fun w2 hw2 =>
    .bind ?_ fun w3 hw3 => ?_
  · rw [e4]; exact fails_payPos hI hO hpda htp (Or.inl hu) own tf
  · have f1 := ifPos_frame hw1
    rw [e3]
    exact fails_destroy hI hO hpda htp (Or.inl hu) (own.frame f1) (hc.minter.frame f1)
  · have f1 := ifPos_frame hw1
    obtain ⟨_, _, _, _, _, bt⟩ := tokenBurn_ok hw2
    have f2 := f1.trans bt.frame
    rw [e1]
    exact fails_payPos hI hO hpda htp (Or.inr rfl) ((hc.vaultA.owns zA).frame f2) (dA.frame f2)
  · have f1 := ifPos_frame hw1
    obtain ⟨_, _, _, _, _, bt⟩ := tokenBurn_ok hw2
    have f3 := (f1.trans bt.frame).trans (ifPos_frame hw3)
    rw [e2]
    exact fails_payPos hI hO hpda htp (Or.inr rfl) ((hc.vaultB.owns zB).frame f3) (dB.frame f3)

theorem amount_depositSingle {a : DepositSingleAccounts} {x mp : UInt64}
    (h : InOrder env w signers (.depositSingle a x mp)) :
    Fails (· ∈ depositSingleErrs) (exec env signers (.depositSingle a x mp) w) := by
  obtain ⟨s, dir, hp, hpda, hu, htp, e3, e1, e2, z, own, dst⟩ := h
  obtain ⟨hc, hcf, hpd⟩ := pool_facts he hr hp hpda
  have cin := custody_in hc dir
  have hux : a.userAuthority ≠ a.authority := fun e => hs _ hu (e ▸ hpd)
  have nsi : a.source ≠ vaultIn s dir := fun e => cin.not_owns hux (e ▸ own)
  obtain ⟨i1, tA, i2, i3, _⟩ := id hc.vaultA
  obtain ⟨o1, tB, o2, o3, _⟩ := id hc.vaultB
  obtain ⟨m1, pm, m2, _⟩ := id hc.minter
  obtain ⟨s1, src, s2, s3, _⟩ := id own
  have hI : Err.token .InsufficientFunds ∈ depositSingleErrs := by decide
  have hO : Err.token .Overflow ∈ depositSingleErrs := by decide
  have hP : Err.Panic ∈ depositSingleErrs := by decide
  unfold exec
  refine .pass hu ?_
  change Fails _ (processDepositSingle env signers x mp a w)
  unfold processDepositSingle
  refine .step (unpackSwap_of hp) (.step (a := src) ?_ (.step (a := tA) ?_ (.step (a := tB) ?_
    (.step (a := dir) ?_ (.step (a := ()) (checkAccounts_of
      ⟨hp.1, hpda, e1, e2, e3, htp.trans hcf.tp.symm, ?_, ?_, Or.inl rfl⟩)
      (.step (a := pm) ?_ ?_))))))
  · exact unpackTokenAccount_ok.2 ⟨s1.trans hcf.tp.symm, tokenAt_some.1 s2⟩
  · rw [e1]; exact unpackTokenAccount_ok.2 ⟨i1.trans hcf.tp.symm, i2⟩
  · rw [e2]; exact unpackTokenAccount_ok.2 ⟨o1.trans hcf.tp.symm, o2⟩
  · refine singleDirection_of (by rw [i3, o3]; exact hc.mints) ?_
    rw [s3, i3, o3]
    cases dir <;> rfl
  · rw [e1]
    cases dir
    · exact fun g => nsi (Option.some.inj g)
    · exact nofun
  · rw [e2]
    cases dir
    · exact nofun
    · exact fun g => nsi (Option.some.inj g)
  · rw [e3]; exact unpackMint_ok.2 ⟨m1.trans hcf.tp.symm, m2⟩
  refine Fails.branch (fails_calc hP (by decide)) .ok fun _ => .bind (fails_conv (by decide)) fun xp _ =>
    .req (by decide) fun _ => .req (by decide) fun _ => .bind ?_ fun w1 hw1 => ?_
  · change Fails _ (tokenTransfer env signers a.swap a.tokenProgram a.source
      (sideOf dir a.tokenA a.tokenB) _ _ _ _)
    rw [e1, e2, sideOf_in]
    exact fails_pay hI hO hpda htp (Or.inl hu) own (cin.owns z).takes
  · obtain ⟨_, _, _, _, _, mv1⟩ := tokenTransfer_ok hw1
    rw [e3]
    exact fails_issue hO hpda htp (Or.inr rfl) (hc.minter.frame mv1.frame) (dst.frame mv1.frame)

omit hs in
theorem amount_withdrawSingle {a : WithdrawSingleAccounts} {x mp : UInt64}
    (h : InOrder env w signers (.withdrawSingle a x mp)) :
    Fails (· ∈ withdrawSingleErrs) (exec env signers (.withdrawSingle a x mp) w) := by
  obtain ⟨s, dir, hp, hpda, hu, htp, e3, e4, e1, e2, z, own, dst, nd, tf⟩ := h
  obtain ⟨hc, hcf, hpd⟩ := pool_facts he hr hp hpda
  have cin := custody_in hc dir
  obtain ⟨i1, tA, i2, i3, _⟩ := id hc.vaultA
  obtain ⟨o1, tB, o2, o3, _⟩ := id hc.vaultB
  obtain ⟨m1, pm, m2, _⟩ := id hc.minter
  obtain ⟨s1, t, s2, s3, _⟩ := id dst
  have hI : Err.token .InsufficientFunds ∈ withdrawSingleErrs := by decide
  have hO : Err.token .Overflow ∈ withdrawSingleErrs := by decide
  have hP : Err.Panic ∈ withdrawSingleErrs := by decide
  unfold exec
  refine .pass hu ?_
  change Fails _ (processWithdrawSingle env signers x mp a w)
  unfold processWithdrawSingle
  refine .step (unpackSwap_of hp) (.step (a := t) ?_ (.step (a := tA) ?_ (.step (a := tB) ?_
    (.step (a := dir) ?_ (.step (a := ()) (checkAccounts_of
      ⟨hp.1, hpda, e1, e2, e3, htp.trans hcf.tp.symm, ?_, ?_, Or.inr (congrArg some e4)⟩)
      (.step (a := pm) ?_ (.bind (fails_calc hP (by decide)) fun burn _ => ?_)))))))
  · exact unpackTokenAccount_ok.2 ⟨s1.trans hcf.tp.symm, tokenAt_some.1 s2⟩
  · rw [e1]; exact unpackTokenAccount_ok.2 ⟨i1.trans hcf.tp.symm, i2⟩
  · rw [e2]; exact unpackTokenAccount_ok.2 ⟨o1.trans hcf.tp.symm, o2⟩
  · refine singleDirection_of (by rw [i3, o3]; exact hc.mints) ?_
    rw [s3, i3, o3]
    cases dir <;> rfl
  · rw [e1]
    cases dir
    · exact fun g => nd (Option.some.inj g)
    · exact nofun
  · rw [e2]
    cases dir
    · exact nofun
    · exact fun g => nd (Option.some.inj g)
  · rw [e3]; exact unpackMint_ok.2 ⟨m1.trans hcf.tp.symm, m2⟩
  refine Fails.branch .ok (fails_calc hP (by decide)) fun fee =>
    .bind (fails_calc hP (by decide)) fun _ _ => .bind (fails_conv (by decide)) fun _ _ =>
    .req (by decide) fun _ => .req (by decide) fun _ => .bind (fails_conv (by decide)) fun xf _ =>
    .bind ?_ fun w1 hw1 => .bind (fails_conv (by decide)) fun xp _ => .bind ?_ fun w2 hw2 => ?_
  · rw [e4]; exact fails_payPos hI hO hpda htp (Or.inl hu) own tf
  · have f1 := ifPos_frame hw1
    rw [e3]
    exact fails_destroy hI hO hpda htp (Or.inl hu) (own.frame f1) (hc.minter.frame f1)
  · have f1 := ifPos_frame hw1
    obtain ⟨_, _, _, _, _, bt⟩ := tokenBurn_ok hw2
    have f2 := f1.trans bt.frame
    change Fails _ (tokenTransfer env signers a.swap a.tokenProgram (sideOf dir a.tokenA a.tokenB) _ _ _ _ _)
    rw [e1, e2, sideOf_in]
    exact fails_pay hI hO hpda htp (Or.inr rfl) ((cin.owns z).frame f2) (dst.frame f2)

/-- C82.  When the accounts of an instruction are in order and it fails nevertheless, the failure is one
of those that concern the amounts. -/
theorem C82_amounts (i : Instr) (h : InOrder env w signers i) (e : Err)
    (hx : exec env signers i w = .error e) : e ∈ amountErrs i := by
  cases i with
  | initConstantPrice _ _ _ => exact h.elim
  | initLinearPrice _ _ => exact h.elim
  | swap a x y => exact amount_swap he hr hs h (L := swapErrs) (by decide) (Or.inl (by decide)) e hx
  | depositAll a p ma mb => exact amount_depositAll he hr hs h e hx
  | withdrawAll a p ma mb => exact amount_withdrawAll he hr h e hx
  | depositSingle a x y => exact amount_depositSingle he hr hs h e hx
  | withdrawSingle a x y => exact amount_withdrawSingle he hr h e hx

/-- C82, on linear pools: a trade with its accounts in order fails because it comes to nothing, misses its
limit, or lacks tokens or room. -/
theorem C82_linear (a : SwapAccounts) (x y : UInt64) (h : InOrder env w signers (.swap a x y))
    (s : SwapV1) (hp : PoolAt env w a.swap s) (c : LinearPriceCurve) (hc : s.swap_curve = .linear c)
    (e : Err) (hx : exec env signers (.swap a x y) w = .error e) : e ∈ linearErrs := by
  refine amount_swap he hr hs h (fun _ h => h) (Or.inr fun s' hp' => ⟨c, ?_⟩) e hx
  have : s' = s := Except.ok.inj ((unpackSwap_of hp').symm.trans (unpackSwap_of hp))
  rw [this, hc]

end

/-- C82, as the fuzz test relies on it: besides the failures it tolerates (`tolerated`) there are only the
receiver having no room left and the program aborting. -/
theorem C82_tolerated (env : Env) (K : Pubkey → Prop) (he : EnvOk env K) (w : World)
    (hr : Reachable env K w) (signers : List Pubkey) (hs : ∀ u ∈ signers, ¬ IsPda env K u) (i : Instr)
    (h : InOrder env w signers i) (e : Err) (hx : exec env signers i w = .error e) :
    e ∈ tolerated ∨ e = .token .Overflow ∨ e = .Panic := by
  have hm := C82_amounts he hr hs i h e hx
  have sub : ∀ L ∈ [swapErrs, depositAllErrs, withdrawAllErrs, depositSingleErrs, withdrawSingleErrs],
      ∀ e ∈ L, e ∈ tolerated ∨ e = .token .Overflow ∨ e = .Panic := by decide
  cases i with
  | initConstantPrice _ _ _ => exact h.elim
  | initLinearPrice _ _ => exact h.elim
  | swap a x y => exact sub swapErrs (by decide) e hm
  | depositAll a p ma mb => exact sub depositAllErrs (by decide) e hm
  | withdrawAll a p ma mb => exact sub withdrawAllErrs (by decide) e hm
  | depositSingle a x y => exact sub depositSingleErrs (by decide) e hm
  | withdrawSingle a x y => exact sub withdrawSingleErrs (by decide) e hm

/-! ### Examples -/

theorem user50 : ∀ u ∈ [Sample.key 50], ¬ IsPda Sample.env samplePools u := fun u hu =>
  sample_signers u (by rw [List.mem_singleton.1 hu]; decide)

/-- The sample's user sells to the linear pool, -/
def sale (x y : UInt64) : Instr :=
  .swap ⟨Sample.key 1, Sample.key 129, Sample.key 50, Sample.key 30, Sample.key 3, Sample.key 4,
    Sample.key 31, Sample.key 5, Sample.key 6, Sample.key 101⟩ x y

/-- as here for any amounts; -/
theorem sale_inOrder (x y : UInt64) : InOrder Sample.env live [Sample.key 50] (sale x y) :=
  ⟨pool1, .AtoB, live_pool1, by decide, by decide, rfl, rfl, rfl, rfl, rfl,
    ⟨plain 20 129 18, live_tok (by decide +kernel), rfl⟩,
    ⟨plain 21 129 98, live_tok (by decide +kernel), rfl⟩,
    ⟨by decide +kernel, plain 20 50 18987, live_tok (by decide +kernel), rfl, rfl, rfl⟩,
    ⟨by decide +kernel, plain 21 50 20141, live_tok (by decide +kernel), rfl, rfl⟩, by decide,
    Or.inl ⟨Sample.lin, rfl⟩⟩

/-- of nothing, and for too much. -/
example : errorOf (exec Sample.env [Sample.key 50] (sale 0 0) live) = some (.swap .ZeroTradingTokens) ∧
    errorOf (exec Sample.env [Sample.key 50] (sale 30 3) live) = some (.swap .ExceededSlippage) := by
  refine ⟨?_, ?_⟩ <;> decide +kernel

example (x y : UInt64) (e : Err) (h : exec Sample.env [Sample.key 50] (sale x y) live = .error e) :
    e ∈ linearErrs :=
  C82_linear sample_ok live_reachable user50 _ x y (sale_inOrder x y) pool1 live_pool1 _ rfl e h

/-- A withdrawal of any amount; `poor` is one of more than there is. -/
def leave (p ma mb : UInt64) : Instr :=
  .withdrawAll ⟨Sample.key 2, Sample.key 130, Sample.key 50, Sample.key 15, Sample.key 17,
    Sample.key 13, Sample.key 14, Sample.key 30, Sample.key 31, Sample.key 16, Sample.key 101⟩ p ma mb

theorem leave_inOrder (p ma mb : UInt64) : InOrder Sample.env live [Sample.key 50] (leave p ma mb) :=
  ⟨pool2, live_pool2, by decide, by decide, rfl, rfl, rfl, rfl, rfl,
    ⟨plain 20 130 5995, live_tok (by decide +kernel), rfl⟩,
    ⟨plain 21 130 561, live_tok (by decide +kernel), rfl⟩,
    ⟨by decide +kernel, plain 15 50 1000000000, live_tok (by decide +kernel), rfl, rfl, rfl⟩,
    ⟨by decide +kernel, plain 20 50 18987, live_tok (by decide +kernel), rfl, rfl⟩, by decide,
    ⟨by decide +kernel, plain 21 50 20141, live_tok (by decide +kernel), rfl, rfl⟩, by decide,
    ⟨by decide +kernel, plain 15 60 1914937, live_tok (by decide +kernel), rfl, rfl⟩⟩

example (p ma mb : UInt64) (e : Err)
    (h : exec Sample.env [Sample.key 50] (leave p ma mb) live = .error e) : e ∈ withdrawAllErrs :=
  C82_amounts sample_ok live_reachable user50 _ (leave_inOrder p ma mb) e h

example : errorOf (exec Sample.env [Sample.key 50] poor live) = some (.token .InsufficientFunds) := by
  decide +kernel

/-- The sample ledger after user 50's account for token B has been filled up. -/
def rich : World := live.setData (Sample.key 31) (.token (plain 21 50 18446744073709551615))

theorem rich_same {k : Pubkey} (hk : k ≠ Sample.key 31) : rich k = live k := by
  unfold rich World.setData
  rw [if_neg hk]

theorem rich_reachable : Reachable Sample.env samplePools rich := by
  obtain ⟨w0, h0, hst⟩ := live_reachable
  have h31 : live (Sample.key 31) = ⟨Sample.key 101, .token (plain 21 50 20141)⟩ :=
    live_table (Sample.key 31, _) (by decide +kernel)
  have own : ∀ k, (rich k).owner = (live k).owner := fun k => setData_owner _ _ _ _
  refine ⟨w0, h0, hst.tail (.other ⟨?_, ?_, ?_, ?_⟩)⟩
  · intro k hk
    refine Or.inl (rich_same ?_)
    rintro rfl
    rw [h31] at hk
    exact absurd hk (by decide)
  · intro k h1 h2
    rw [own] at h2
    exact absurd h2 h1
  · intro k t h1 h2 h3 h4 h5
    have hk : k ≠ Sample.key 31 := by
      rintro rfl
      rw [h31] at h2
      cases h2
      exact user h3
    rw [rich_same hk]
    exact ⟨h1, t, h2, rfl, rfl, h4, h5, UInt64.le_refl _⟩
  · intro k m x h1 h2 h3 h4
    have hk : k ≠ Sample.key 31 := by
      rintro rfl
      rw [h31] at h2
      cases h2
    rw [rich_same hk]
    exact ⟨h1, m, h2, h3, UInt64.le_refl _, id⟩

/-- C82: what the fuzz test tolerates is not all that happens: a trade whose receiver is full fails with the
token program's overflow. -/
theorem C82_untolerated : ¬ ∀ (env : Env) (K : Pubkey → Prop), EnvOk env K → ∀ w, Reachable env K w →
    ∀ (signers : List Pubkey), (∀ u ∈ signers, ¬ IsPda env K u) → ∀ i, InOrder env w signers i →
      ∀ e, exec env signers i w = .error e → e ∈ tolerated := by
  intro h
  refine absurd (h Sample.env samplePools sample_ok rich rich_reachable [Sample.key 50] user50 (sale 30 2)
    ?_ (.token .Overflow) (of_errorOf (by decide +kernel))) (by decide)
  have e : ∀ k, k ≠ Sample.key 31 → tokenAt rich k = tokenAt live k :=
    fun k hk => tokenAt_congr (rich_same hk)
  have hp : PoolAt Sample.env rich (Sample.key 1) pool1 := by
    have h1 := live_pool1
    unfold PoolAt at h1 ⊢
    rw [rich_same (by decide)]
    exact h1
  exact ⟨pool1, .AtoB, hp, by decide, by decide, rfl, rfl, rfl, rfl, rfl,
    ⟨plain 20 129 18, (e _ (by decide)).trans (live_tok (by decide +kernel)), rfl⟩,
    ⟨plain 21 129 98, (e _ (by decide)).trans (live_tok (by decide +kernel)), rfl⟩,
    ⟨by decide +kernel, plain 20 50 18987, (e _ (by decide)).trans (live_tok (by decide +kernel)), rfl, rfl,
      rfl⟩,
    ⟨by decide +kernel, plain 21 50 18446744073709551615, by decide +kernel, rfl, rfl⟩, by decide,
    Or.inl ⟨Sample.lin, rfl⟩⟩

end Props
end Verif
