import Verif.Lemmas.Abort
import Verif.Lemmas.ChainLinear
import Verif.Spec.Abort
import Verif.Spec.Live

/-
Instructions that abort, followed to the computation that does.
-/

namespace Verif
open Spec

theorem rootArg_eq (c : LinearPriceCurve) (A : Nat) : Props.radicand c A = rootArg c A := rfl

theorem stuck_iff {c : LinearPriceCurve} (hv : Linear.isCurveParamValid c = .ok ()) {A : Nat}
    (hA : A < 2 ^ 65) : Linear.bValue c (A * Dfs.ONE) true = .panic ↔ Stuck c A :=
  (Props.C44_up_iff c hv A hA).2

theorem dfsNew_small {A : Nat} (hA : A < 2 ^ 65) : Dfs.new A = .ok (A * Dfs.ONE) := by
  refine Dfs.new_ok ?_
  have h1 : A * Dfs.ONE ≤ 36893488147419103232 * Dfs.ONE :=
    Nat.mul_le_mul_right _ (le_of_lt (show A < 36893488147419103232 from hA))
  exact lt_of_le_of_lt h1 (by decide +kernel)

/-- What a linear pool holds of token A, from balances named by trade direction. -/
def heldA : TradeDirection → Nat → Nat → Nat
  | .AtoB, a, _ => a
  | .BtoA, _, b => b

namespace Linear

theorem swapAToB_panic {c : LinearPriceCurve} (hv : isCurveParamValid c = .ok ()) {s A B : Nat}
    (hs : s < 2 ^ 64) (hA : A < 2 ^ 64) (h : swapAToB c s A B = .panic) : Stuck c A := by
  have hA' : A < 2 ^ 65 := by omega
  rw [← stuck_iff hv hA']
  unfold swapAToB at h
  rw [dfsNew_small hA', Res.ok_bind] at h
  rcases bind_panic h with h | ⟨b0, _, h⟩
  · exact h
  exfalso
  revert h
  split
  · nofun
  · rename_i hm
    exact absurd hm maximumARemaining_ne_panic
  · rw [dfsNew_small (by omega), Res.ok_bind]
    intro h
    rcases bind_panic h with h | ⟨e, he, h⟩
    · exact cadd_ne_panic h
    have ee : e = (A + s) * Dfs.ONE := by
      rw [(cadd_eq_ok.1 he).2, Nat.add_mul]
    obtain ⟨b, hb⟩ := Props.C44_down_total c hv (A + s) (by omega)
    have hb' : bValue c e false = .ok b := by rw [ee]; exact hb
    rw [hb', Res.ok_bind] at h
    exact absurd h (bind_ne_panic csub_ne_panic fun _ => bind_ne_panic
      (bind_ne_panic cdiv_ne_panic fun _ => cmul_ne_panic) fun _ =>
      bind_ne_panic toImprecise_ne_panic fun _ => nofun)

theorem ceiling_np {x : Nat} : Dfs.ceiling x ≠ .panic := by
  unfold Dfs.ceiling
  exact bind_ne_panic csub_ne_panic fun _ => bind_ne_panic cadd_ne_panic fun _ =>
    bind_ne_panic cdiv_ne_panic fun _ => cmul_ne_panic

theorem swapBToA_panic {c : LinearPriceCurve} (hv : isCurveParamValid c = .ok ()) {s A : Nat}
    (hs : s < 2 ^ 64) (hA : A < 2 ^ 64) (h : swapBToA c s A = .panic) : Stuck c A := by
  have hA' : A < 2 ^ 65 := by omega
  rw [← stuck_iff hv hA']
  unfold swapBToA at h
  rw [dfsNew_small hA', Res.ok_bind] at h
  rcases bind_panic h with h | ⟨b0, _, h⟩
  · exact h
  exfalso
  rw [dfsNew_small (by omega), Res.ok_bind] at h
  rcases bind_panic h with h | ⟨e, he, h⟩
  · exact ceiling_np h
  revert h
  split
  · exact bind_ne_panic toImprecise_ne_panic fun _ => nofun
  · exact bind_ne_panic amtALocked_ne_panic fun _ => bind_ne_panic nofun fun _ =>
      bind_ne_panic csub_ne_panic fun _ => bind_ne_panic
      (bind_ne_panic cdiv_ne_panic fun _ => cmul_ne_panic) fun _ =>
      bind_ne_panic toImprecise_ne_panic fun _ => nofun

/-- A linear pool aborts only where it cannot compute its position. -/
theorem swapWithoutFees_panic {c : LinearPriceCurve} (hv : isCurveParamValid c = .ok ())
    {s a b : Nat} {dir : TradeDirection} (hs : s < 2 ^ 64) (ha : a < 2 ^ 64) (hb : b < 2 ^ 64)
    (h : swapWithoutFees c s a b dir = .panic) :
    Stuck c (heldA dir a b) := by
  cases dir with
  | AtoB =>
    unfold swapWithoutFees at h
    rcases bind_panic h with h | ⟨_, _, h⟩
    · exact swapAToB_panic hv hs ha h
    · exact absurd h (bind_ne_panic mapZeroToNone_np fun _ => bind_ne_panic mapZeroToNone_np
        fun _ => nofun)
  | BtoA =>
    unfold swapWithoutFees at h
    rcases bind_panic h with h | ⟨_, _, h⟩
    · exact swapBToA_panic hv hs hb h
    · exact absurd h (bind_ne_panic mapZeroToNone_np fun _ => bind_ne_panic mapZeroToNone_np
        fun _ => nofun)

/-- … and there it always aborts. -/
theorem swapWithoutFees_stuck {c : LinearPriceCurve} (hv : isCurveParamValid c = .ok ())
    {s a b : Nat} {dir : TradeDirection} (ha : a < 2 ^ 64) (hb : b < 2 ^ 64)
    (h : Stuck c (heldA dir a b)) :
    swapWithoutFees c s a b dir = .panic := by
  cases dir with
  | AtoB =>
    have hp := (stuck_iff hv (show a < 2 ^ 65 by omega)).2 h
    unfold swapWithoutFees swapAToB
    simp only []
    rw [dfsNew_small (by omega), Res.ok_bind, hp, Res.panic_bind, Res.panic_bind]
  | BtoA =>
    have hp := (stuck_iff hv (show b < 2 ^ 65 by omega)).2 h
    unfold swapWithoutFees swapBToA
    simp only []
    rw [dfsNew_small (by omega), Res.ok_bind, hp, Res.panic_bind, Res.panic_bind]

end Linear

theorem eb_panic {α β : Type} {x : Except Err α} {f : α → Except Err β} (hx : x ≠ .error .Panic)
    (h : (x >>= f) = .error .Panic) : ∃ a, x = .ok a ∧ f a = .error .Panic := by
  cases x with
  | ok a => exact ⟨a, rfl, h⟩
  | error e => cases h; exact absurd rfl hx

theorem rq_panic {α : Type} {c : Prop} [Decidable c] {e : Err} {f : Unit → Except Err α}
    (h : (require c e >>= f) = .error .Panic) (he : e ≠ .Panic) : c ∧ f () = .error .Panic := by
  obtain ⟨_, hr, h⟩ := eb_panic (nb_require he) h
  exact ⟨req_ok.1 hr, h⟩

namespace Processor

theorem okOr_panic {α β : Type} {r : Res α} {e : SwapError} {f : α → Except Err β}
    (h : (okOr r e >>= f) = .error .Panic) :
    r = .panic ∨ ∃ a, r = .ok a ∧ f a = .error .Panic := by
  cases r with
  | ok a => exact Or.inr ⟨a, rfl, h⟩
  | none => cases h
  | panic => exact Or.inl rfl

variable {env : Env} {signers : List Pubkey}

/-- Initialisation aborts only on an account without space. -/
theorem processInitialize_panic {f : Fees} {c : Curve} {a : InitAccounts} {w : World}
    (h : processInitialize env signers f c a w = .error .Panic) : (w a.swap).data = .raw [] := by
  unfold processInitialize at h
  simp only [] at h
  have h := (rq_panic h nofun).2
  have h := (rq_panic h nofun).2
  obtain ⟨_, _, h⟩ := eb_panic nb_unpackTokenAccount h
  obtain ⟨_, _, h⟩ := eb_panic nb_unpackTokenAccount h
  obtain ⟨_, _, h⟩ := eb_panic nb_unpackTokenAccount h
  obtain ⟨_, _, h⟩ := eb_panic nb_unpackTokenAccount h
  obtain ⟨_, _, h⟩ := eb_panic nb_unpackMint h
  have h := (rq_panic h nofun).2
  have h := (rq_panic h nofun).2
  have h := (rq_panic h nofun).2
  have h := (rq_panic h nofun).2
  have h := (rq_panic h nofun).2
  have h := (rq_panic h nofun).2
  obtain ⟨_, _, h⟩ := eb_panic nb_liftSwap h
  have h := (rq_panic h nofun).2
  have h := (rq_panic h nofun).2
  have h := (rq_panic h nofun).2
  have h := (rq_panic h nofun).2
  have h := (rq_panic h nofun).2
  have h := (rq_panic h nofun).2
  have h := (rq_panic h nofun).2
  obtain ⟨_, _, h⟩ := eb_panic nb_checkConstraints h
  obtain ⟨_, _, h⟩ := eb_panic nb_liftSwap h
  obtain ⟨_, _, h⟩ := eb_panic nb_liftSwap h
  obtain ⟨_, _, h⟩ := eb_panic nb_toU64 h
  obtain ⟨w1, h1, h⟩ := eb_panic nb_tokenMintTo h
  obtain ⟨_, _, _, _, _, hm⟩ := tokenMintTo_ok h1
  unfold writeState at h
  split at h
  · rename_i l hl
    cases l with
    | nil =>
      have hd := (hm.frame a.swap).2
      rw [hl] at hd
      cases hq : (w a.swap).data with
      | raw b => rw [hq] at hd; cases hd; rfl
      | token t => rw [hq] at hd; exact hd.elim
      | mint t => rw [hq] at hd; exact hd.elim
    | cons v rest =>
      exfalso
      refine absurd h (nb_bind ?_ fun _ _ => nb_req nofun fun _ => nofun)
      unfold SwapVersion.pack
      refine nb_bind ?_ fun _ _ => nofun
      unfold SwapV1.pack
      split <;> nofun
  · cases h

theorem unpackSwap_pool {w : World} {k : Pubkey} {s : SwapV1} (ho : (w k).owner = env.programId)
    (h : unpackSwap w k = .ok s) : PoolAt env w k s := by
  obtain ⟨l, hl, hu⟩ := unpackSwap_raw h
  exact ⟨ho, l, hl, hu⟩

/-- What is known when a swap aborts. -/
theorem processSwap_panic {x y : UInt64} {a : SwapAccounts} {w : World}
    (h : processSwap env signers x y a none w = .error .Panic) :
    ∃ ts src dst pm, PoolAt env w a.swap ts ∧
      (w a.swapSource).data = .token src ∧ (w a.swapDestination).data = .token dst ∧
      (w a.poolMint).data = .mint pm ∧
      ((swapDirection ts a = .AtoB ∧ a.swapSource = ts.token_a ∧ a.swapDestination = ts.token_b) ∨
       (swapDirection ts a = .BtoA ∧ a.swapSource = ts.token_b ∧ a.swapDestination = ts.token_a)) ∧
      (ts.swap_curve.swap env.spl x.toNat src.amount.toNat dst.amount.toNat (swapDirection ts a)
          ts.fees = .panic ∨
        ∃ r, ts.swap_curve.swap env.spl x.toNat src.amount.toNat dst.amount.toNat
            (swapDirection ts a) ts.fees = .ok r ∧
          ts.swap_curve.withdrawSingle env.spl r.owner_fee (afterA r (swapDirection ts a))
            (afterB r (swapDirection ts a)) pm.supply.toNat (swapDirection ts a) ts.fees =
              .panic) := by
  unfold processSwap at h
  simp only [] at h
  obtain ⟨ho, h⟩ := rq_panic h nofun
  obtain ⟨ts, hts, h⟩ := eb_panic nb_unpackSwap h
  obtain ⟨_, _, h⟩ := eb_panic nb_authorityId h
  have h := (rq_panic h nofun).2
  obtain ⟨h1, h⟩ := rq_panic h nofun
  obtain ⟨h2, h⟩ := rq_panic h nofun
  obtain ⟨h3, h⟩ := rq_panic h nofun
  have h := (rq_panic h nofun).2
  have h := (rq_panic h nofun).2
  have h := (rq_panic h nofun).2
  have h := (rq_panic h nofun).2
  have h := (rq_panic h nofun).2
  obtain ⟨src, hsrc, h⟩ := eb_panic nb_unpackTokenAccount h
  obtain ⟨dst, hdst, h⟩ := eb_panic nb_unpackTokenAccount h
  obtain ⟨pm, hpm, h⟩ := eb_panic nb_unpackMint h
  refine ⟨ts, src, dst, pm, unpackSwap_pool ho hts, (unpackTokenAccount_ok.1 hsrc).2,
    (unpackTokenAccount_ok.1 hdst).2, (unpackMint_ok.1 hpm).2, ?_, ?_⟩
  · unfold swapDirection
    split
    · rename_i hd
      refine Or.inl ⟨rfl, hd, ?_⟩
      rcases h2 with h2 | h2
      · exact absurd (hd.trans h2.symm) h3
      · exact h2
    · rename_i hd
      refine Or.inr ⟨rfl, ?_, ?_⟩
      · rcases h1 with h1 | h1
        · exact absurd h1 hd
        · exact h1
      · rcases h2 with h2 | h2
        · exact h2
        · rcases h1 with h1 | h1
          · exact absurd h1 hd
          · exact absurd (h1.trans h2.symm) h3
  rcases okOr_panic h with h | ⟨r, hr, h⟩
  · exact Or.inl h
  refine Or.inr ⟨r, hr, ?_⟩
  have h := (rq_panic h nofun).2
  obtain ⟨_, _, h⟩ := eb_panic nb_toU64 h
  obtain ⟨_, _, h⟩ := eb_panic nb_tokenTransfer h
  rcases okOr_panic h with h | ⟨_, _, h⟩
  · revert h
    cases swapDirection ts a <;> exact id
  · obtain ⟨_, _, h⟩ := eb_panic nb_ownerFeeStep h
    obtain ⟨_, _, h⟩ := eb_panic nb_toU64 h
    exact absurd h nb_tokenTransfer

theorem processDepositAll_panic {x y z : UInt64} {a : DepositAllAccounts} {w : World}
    (h : processDepositAll env signers x y z a w = .error .Panic) :
    ∃ ts P S A B, PoolAt env w a.swap ts ∧ ts.swap_curve.allowsDeposits = true ∧
      ts.swap_curve.poolTokensToTradingTokens env.spl P S A B .Ceiling = .panic := by
  unfold processDepositAll at h
  simp only [] at h
  obtain ⟨ts, hts, h⟩ := eb_panic nb_unpackSwap h
  obtain ⟨hd, h⟩ := rq_panic h nofun
  obtain ⟨_, hc, h⟩ := eb_panic nb_checkAccounts h
  obtain ⟨tA, _, h⟩ := eb_panic nb_unpackTokenAccount h
  obtain ⟨tB, _, h⟩ := eb_panic nb_unpackTokenAccount h
  obtain ⟨pm, _, h⟩ := eb_panic nb_unpackMint h
  rcases okOr_panic h with h | ⟨r, _, h⟩
  · exact ⟨ts, _, _, _, _, unpackSwap_pool (checkAccounts_ok hc).owner hts, hd, h⟩
  exfalso
  obtain ⟨_, _, h⟩ := eb_panic nb_toU64 h
  have h := (rq_panic h nofun).2
  have h := (rq_panic h nofun).2
  obtain ⟨_, _, h⟩ := eb_panic nb_toU64 h
  have h := (rq_panic h nofun).2
  have h := (rq_panic h nofun).2
  obtain ⟨_, _, h⟩ := eb_panic nb_toU64 h
  obtain ⟨_, _, h⟩ := eb_panic nb_tokenTransfer h
  obtain ⟨_, _, h⟩ := eb_panic nb_tokenTransfer h
  exact nb_tokenMintTo h

theorem nb_fee {c : Prop} [Decidable c] {f : Fees} {x : Nat} :
    (if c then (.ok 0 : Except Err Nat) else okOr (f.ownerWithdrawFee x) .FeeCalculationFailure) ≠
      .error .Panic := by
  split
  · nofun
  · exact nb_okOr calculateFee_np

theorem processWithdrawAll_panic {x y z : UInt64} {a : WithdrawAllAccounts} {w : World}
    (h : processWithdrawAll env signers x y z a w = .error .Panic) :
    ∃ ts P S A B, PoolAt env w a.swap ts ∧
      ts.swap_curve.poolTokensToTradingTokens env.spl P S A B .Floor = .panic := by
  unfold processWithdrawAll at h
  simp only [] at h
  obtain ⟨ts, hts, h⟩ := eb_panic nb_unpackSwap h
  obtain ⟨_, hc, h⟩ := eb_panic nb_checkAccounts h
  obtain ⟨tA, _, h⟩ := eb_panic nb_unpackTokenAccount h
  obtain ⟨tB, _, h⟩ := eb_panic nb_unpackTokenAccount h
  obtain ⟨pm, _, h⟩ := eb_panic nb_unpackMint h
  have hp := unpackSwap_pool (checkAccounts_ok hc).owner hts
  split at h
  all_goals
    obtain ⟨_, _, h⟩ := eb_panic (by first | exact nb_okOr calculateFee_np | nofun) h
    obtain ⟨_, _, h⟩ := eb_panic (nb_okOr csub_ne_panic) h
    rcases okOr_panic h with h | ⟨r, _, h⟩
    · exact ⟨ts, _, _, _, _, hp, h⟩
    exfalso
    obtain ⟨_, _, h⟩ := eb_panic nb_toU64 h
    have h := (rq_panic h nofun).2
    have h := (rq_panic h nofun).2
    obtain ⟨_, _, h⟩ := eb_panic nb_toU64 h
    have h := (rq_panic h nofun).2
    have h := (rq_panic h nofun).2
    obtain ⟨_, _, h⟩ := eb_panic nb_toU64 h
    obtain ⟨_, _, h⟩ := eb_panic nb_ifPos h
    obtain ⟨_, _, h⟩ := eb_panic nb_toU64 h
    obtain ⟨_, _, h⟩ := eb_panic nb_tokenBurn h
    obtain ⟨_, _, h⟩ := eb_panic nb_ifPos h
    exact nb_ifPos h

theorem nb_singleDirection {x y z : Pubkey} : singleDirection x y z ≠ .error .Panic := by
  unfold singleDirection
  split
  · nofun
  · split <;> nofun

theorem singleDirection_ok {x y z : Pubkey} {dir : TradeDirection}
    (h : singleDirection x y z = .ok dir) :
    (x = y ∧ dir = .AtoB) ∨ (x ≠ y ∧ x = z ∧ dir = .BtoA) := by
  unfold singleDirection at h
  split at h
  · cases h; exact Or.inl ⟨by assumption, rfl⟩
  · split at h
    · cases h; exact Or.inr ⟨by assumption, by assumption, rfl⟩
    · cases h

theorem processDepositSingle_panic {x y : UInt64} {a : DepositSingleAccounts} {w : World}
    (h : processDepositSingle env signers x y a w = .error .Panic) :
    ∃ ts sa tA tB pm dir, PoolAt env w a.swap ts ∧ (w a.source).data = .token sa ∧
      (w ts.token_a).data = .token tA ∧ (w ts.token_b).data = .token tB ∧
      (w ts.pool_mint).data = .mint pm ∧ singleDirection sa.mint tA.mint tB.mint = .ok dir ∧
      ts.swap_curve.depositSingle env.spl x.toNat tA.amount.toNat tB.amount.toNat
        pm.supply.toNat dir ts.fees = .panic := by
  unfold processDepositSingle at h
  simp only [] at h
  obtain ⟨ts, hts, h⟩ := eb_panic nb_unpackSwap h
  obtain ⟨sa, hsa, h⟩ := eb_panic nb_unpackTokenAccount h
  obtain ⟨tA, hA, h⟩ := eb_panic nb_unpackTokenAccount h
  obtain ⟨tB, hB, h⟩ := eb_panic nb_unpackTokenAccount h
  obtain ⟨dir, hd, h⟩ := eb_panic nb_singleDirection h
  obtain ⟨_, hc, h⟩ := eb_panic nb_checkAccounts h
  obtain ⟨pm, hm, h⟩ := eb_panic nb_unpackMint h
  have ck := checkAccounts_ok hc
  have hp := unpackSwap_pool ck.owner hts
  have dA := (unpackTokenAccount_ok.1 hA).2
  have dB := (unpackTokenAccount_ok.1 hB).2
  have dM := (unpackMint_ok.1 hm).2
  rw [ck.isA] at dA
  rw [ck.isB] at dB
  rw [ck.isMint] at dM
  refine ⟨ts, sa, tA, tB, pm, dir, hp, (unpackTokenAccount_ok.1 hsa).2, dA, dB, dM, hd, ?_⟩
  split at h
  all_goals
    rcases (by first | exact okOr_panic h | exact Or.inr (a := False) (eb_panic (x := .ok _) nofun h))
      with h | ⟨_, _, h⟩
    · first | exact h | exact h.elim
    exfalso
    obtain ⟨_, _, h⟩ := eb_panic nb_toU64 h
    have h := (rq_panic h nofun).2
    have h := (rq_panic h nofun).2
    obtain ⟨_, _, h⟩ := eb_panic nb_tokenTransfer h
    exact nb_tokenMintTo h

theorem processWithdrawSingle_panic {x y : UInt64} {a : WithdrawSingleAccounts} {w : World}
    (h : processWithdrawSingle env signers x y a w = .error .Panic) :
    ∃ ts sa tA tB pm dir, PoolAt env w a.swap ts ∧ (w a.destination).data = .token sa ∧
      (w ts.token_a).data = .token tA ∧ (w ts.token_b).data = .token tB ∧
      (w ts.pool_mint).data = .mint pm ∧ singleDirection sa.mint tA.mint tB.mint = .ok dir ∧
      ts.swap_curve.withdrawSingle env.spl x.toNat tA.amount.toNat tB.amount.toNat
        pm.supply.toNat dir ts.fees = .panic := by
  unfold processWithdrawSingle at h
  simp only [] at h
  obtain ⟨ts, hts, h⟩ := eb_panic nb_unpackSwap h
  obtain ⟨sa, hsa, h⟩ := eb_panic nb_unpackTokenAccount h
  obtain ⟨tA, hA, h⟩ := eb_panic nb_unpackTokenAccount h
  obtain ⟨tB, hB, h⟩ := eb_panic nb_unpackTokenAccount h
  obtain ⟨dir, hd, h⟩ := eb_panic nb_singleDirection h
  obtain ⟨_, hc, h⟩ := eb_panic nb_checkAccounts h
  obtain ⟨pm, hm, h⟩ := eb_panic nb_unpackMint h
  have ck := checkAccounts_ok hc
  have hp := unpackSwap_pool ck.owner hts
  have dA := (unpackTokenAccount_ok.1 hA).2
  have dB := (unpackTokenAccount_ok.1 hB).2
  have dM := (unpackMint_ok.1 hm).2
  rw [ck.isA] at dA
  rw [ck.isB] at dB
  rw [ck.isMint] at dM
  refine ⟨ts, sa, tA, tB, pm, dir, hp, (unpackTokenAccount_ok.1 hsa).2, dA, dB, dM, hd, ?_⟩
  rcases okOr_panic h with h | ⟨bt, _, h⟩
  · exact h
  exfalso
  split at h
  all_goals
    obtain ⟨_, _, h⟩ := eb_panic (by first | exact nb_okOr calculateFee_np | nofun) h
    obtain ⟨_, _, h⟩ := eb_panic (nb_okOr cadd_ne_panic) h
    obtain ⟨_, _, h⟩ := eb_panic nb_toU64 h
    have h := (rq_panic h nofun).2
    have h := (rq_panic h nofun).2
    obtain ⟨_, _, h⟩ := eb_panic nb_toU64 h
    obtain ⟨_, _, h⟩ := eb_panic nb_ifPos h
    obtain ⟨_, _, h⟩ := eb_panic nb_toU64 h
    obtain ⟨_, _, h⟩ := eb_panic nb_tokenBurn h
    exact nb_tokenTransfer h

end Processor

/-! ### One-sided conversions -/

open Linear (bind_ne_panic)

theorem single_panic {e : SplEnv} {p : UInt64} {x A B n : Nat} {dir : TradeDirection} {f : Fees}
    (hn : n < 2 ^ 64)
    (h : (Curve.constantPrice p).depositSingle e x A B n dir f = .panic ∨
      (Curve.constantPrice p).withdrawSingle e x A B n dir f = .panic) :
    2 ^ 64 * worth p.toNat A B < worthOf p.toNat dir x := by
  have key : ∀ y, y ≤ x → worthOf p.toNat dir y ≤ worthOf p.toNat dir x := by
    intro y hy
    cases dir with
    | AtoB => exact hy
    | BtoA => exact Nat.mul_le_mul_left _ hy
  have sub : ∀ {t y : Nat}, csub x t = .ok y → y ≤ x := by
    intro t y hy
    unfold csub at hy
    split at hy
    · cases hy; exact Nat.sub_le _ _
    · cases hy
  rcases h with h | h
  · unfold Curve.depositSingle at h
    split at h
    · cases h
    rcases bind_panic h with h | ⟨_, _, h⟩
    · exact absurd h cdiv_ne_panic
    rcases bind_panic h with h | ⟨_, _, h⟩
    · exact absurd h calculateFee_np
    rcases bind_panic h with h | ⟨y, hy, h⟩
    · exact absurd h csub_ne_panic
    have h' : ConstantPrice.tradingTokensToPoolTokens e p y A B n dir .Floor = .panic := h
    exact lt_of_lt_of_le (ConstantPrice.trading_panic hn h') (key y (sub hy))
  · unfold Curve.withdrawSingle at h
    split at h
    · cases h
    rcases bind_panic h with h | ⟨_, _, h⟩
    · exact absurd h cdiv_ne_panic
    rcases bind_panic h with h | ⟨_, _, h⟩
    · exact absurd h calculateFee_np
    rcases bind_panic h with h | ⟨y, hy, h⟩
    · exact absurd h csub_ne_panic
    have h' : ConstantPrice.tradingTokensToPoolTokens e p y A B n dir .Ceiling = .panic := h
    exact lt_of_lt_of_le (ConstantPrice.trading_panic hn h') (key y (sub hy))

/-- Linear pools do not convert. -/
theorem single_linear {e : SplEnv} {c : LinearPriceCurve} {x A B n : Nat} {dir : TradeDirection}
    {f : Fees} : (Curve.linear c).depositSingle e x A B n dir f ≠ .panic ∧
      (Curve.linear c).withdrawSingle e x A B n dir f ≠ .panic := by
  constructor
  · unfold Curve.depositSingle
    split
    · nofun
    · exact bind_ne_panic cdiv_ne_panic fun _ => bind_ne_panic calculateFee_np fun _ =>
        bind_ne_panic csub_ne_panic fun _ => nofun
  · unfold Curve.withdrawSingle
    split
    · nofun
    · exact bind_ne_panic cdiv_ne_panic fun _ => bind_ne_panic calculateFee_np fun _ =>
        bind_ne_panic csub_ne_panic fun _ => nofun

/-- The owner fee of a swap is part of what the pool holds afterwards. -/
theorem swap_owner_le {e : SplEnv} {c : Curve} {x a b : Nat} {dir : TradeDirection} {f : Fees}
    {r : SwapResult} (h : c.swap e x a b dir f = .ok r) : r.owner_fee ≤ r.new_swap_source_amount := by
  unfold Curve.swap at h
  rw [Res.bind_eq_ok] at h
  obtain ⟨tf, _, h⟩ := h
  rw [Res.bind_eq_ok] at h
  obtain ⟨of, _, h⟩ := h
  rw [Res.bind_eq_ok] at h
  obtain ⟨tot, ht, h⟩ := h
  rw [Res.bind_eq_ok] at h
  obtain ⟨_, _, h⟩ := h
  rw [Res.bind_eq_ok] at h
  obtain ⟨r0, _, h⟩ := h
  rw [Res.bind_eq_ok] at h
  obtain ⟨sw, hs, h⟩ := h
  rw [Res.bind_eq_ok] at h
  obtain ⟨ns, hns, h⟩ := h
  rw [Res.bind_eq_ok] at h
  obtain ⟨_, _, h⟩ := h
  cases h
  have e1 := (cadd_eq_ok.1 ht).2
  have e2 := (cadd_eq_ok.1 hs).2
  have e3 := (cadd_eq_ok.1 hns).2
  simp only []
  omega

theorem swap_inner {e : SplEnv} {c : Curve} {x a b : Nat} {dir : TradeDirection} {f : Fees}
    {r : SwapResult} (h : c.swap e x a b dir f = .ok r) :
    ∃ y q, c.swapWithoutFees e y a b dir = .ok q := by
  unfold Curve.swap at h
  rw [Res.bind_eq_ok] at h
  obtain ⟨tf, _, h⟩ := h
  rw [Res.bind_eq_ok] at h
  obtain ⟨of, _, h⟩ := h
  rw [Res.bind_eq_ok] at h
  obtain ⟨tot, ht, h⟩ := h
  rw [Res.bind_eq_ok] at h
  obtain ⟨_, _, h⟩ := h
  rw [Res.bind_eq_ok] at h
  obtain ⟨r0, h0, h⟩ := h
  exact ⟨_, _, h0⟩

theorem swap_fee_np {e : SplEnv} {p : UInt64} {x a b n : Nat} {dir : TradeDirection} {f : Fees}
    {r : SwapResult} (hn : n < 2 ^ 64) (h : (Curve.constantPrice p).swap e x a b dir f = .ok r) :
    (Curve.constantPrice p).withdrawSingle e r.owner_fee (afterA r dir) (afterB r dir) n dir f ≠
      .panic := by
  intro hp
  have hw := single_panic hn (Or.inr hp)
  have ho := swap_owner_le h
  have : worthOf p.toNat dir r.owner_fee ≤ worth p.toNat (afterA r dir) (afterB r dir) := by
    cases dir with
    | AtoB =>
      unfold worthOf worth afterA
      simp only []
      omega
    | BtoA =>
      unfold worthOf worth afterB
      simp only []
      have := Nat.mul_le_mul_left p.toNat ho
      omega
  have h2 : worth p.toNat (afterA r dir) (afterB r dir) ≤
      2 ^ 64 * worth p.toNat (afterA r dir) (afterB r dir) := Nat.le_mul_of_pos_left _ (by norm_num)
  exact absurd hw (by omega)

end Verif
