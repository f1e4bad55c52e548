import Verif.Lemmas.ChainPrice
import Verif.Lemmas.Detour
import Verif.Lemmas.Live

/-
What a withdrawal from a constant-price pool takes out of the vaults.
-/

namespace Verif
open Spec Processor Props

variable {env : Env} {K : Pubkey → Prop}

/-- A two-sided withdrawal takes exactly the computed amounts, or all there is. -/
theorem withdrawAll_exact {w w' : World} {x : Pubkey} {s : SwapV1} {signers : List Pubkey}
    {a : WithdrawAllAccounts} {q y z : UInt64} (hK : K a.swap) (hp : PoolAt env w a.swap s)
    (hc : Custody env w a.swap s x) (hcf : Configured env s)
    (hs : ∀ y ∈ signers, ¬ IsPda env K y)
    (h : exec env signers (.withdrawAll a q y z) w = .ok w') :
    ∃ (burnt : Nat) (r : TradingTokenResult), burnt ≤ q.toNat ∧ burnt ≤ nsup w s.pool_mint ∧
      (s.fees.owner_withdraw_fee_numerator = 0 → burnt = q.toNat) ∧
      s.swap_curve.poolTokensToTradingTokens env.spl burnt (nsup w s.pool_mint) (nbal w s.token_a)
        (nbal w s.token_b) .Floor = .ok r ∧
      r.token_a_amount < 2 ^ 64 ∧ r.token_b_amount < 2 ^ 64 ∧
      nsup w' s.pool_mint = nsup w s.pool_mint - burnt ∧
      nbal w' s.token_a = nbal w s.token_a - r.token_a_amount ∧
      nbal w' s.token_b = nbal w s.token_b - r.token_b_amount := by
  have hx := hc.isPda hK
  have hab := vault_ne hc
  have nA := nbal_cast w s.token_a
  have nB := nbal_cast w s.token_b
  have nA' := nbal_cast w' s.token_a
  have nB' := nbal_cast w' s.token_b
  have nS := nsup_cast w s.pool_mint
  have nS' := nsup_cast w' s.pool_mint
  obtain ⟨hu, hpr⟩ := exec_withdrawAll h
  obtain ⟨ts, tA, tB, pm, fee, burnt, r, amtA, amtB, w1, w2, w3, run, fA, fB⟩ :=
    processWithdrawAll_fits hpr
  have es := run.state
  rw [unpackSwap_of hp] at es
  cases es
  obtain ⟨_, _, _, _, _, m2⟩ := tokenBurn_ok run.burn
  obtain ⟨s2, _, hs3, _, _, hs4⟩ := m2.srcTok
  have f1 := (ifPos_effect run.payFee).frame
  have a2 := hc.vaultA.not_spender f1 hx (hs _ hu) ⟨s2, hs3, hs4⟩
  have b2 := hc.vaultB.not_spender f1 hx (hs _ hu) ⟨s2, hs3, hs4⟩
  have hfe : a.fee = s.pool_fee_account := by simpa using run.checked.isFee
  have ba := run.effect.bal s.token_a
  have bb := run.effect.bal s.token_b
  have bs := run.effect.supply s.pool_mint
  have f2 := f1.trans m2.frame
  have f3 := f2.trans (ifPos_effect run.payA).frame
  -- tokens paid do not come back to a vault
  have zA : when (s.token_b = a.destA) (amtA.toNat : Int) = 0 := by
    by_cases e : s.token_b = a.destA
    · have hpay := run.payA
      unfold tokenTransferIfPos at hpay
      split at hpay
      · obtain ⟨_, _, _, _, _, m3⟩ := tokenTransfer_ok hpay
        have e1 := m3.mints
        rw [← e, run.checked.isA, hc.vaultA.mintOf f2, hc.vaultB.mintOf f2] at e1
        exact absurd (Option.some.inj e1) hc.mints
      · rename_i h0
        have : amtA.toNat = 0 := by
          have h0 : ¬ ((0 : UInt64).toNat < amtA.toNat) := fun g => h0 (UInt64.lt_iff_toNat_lt.2 g)
          change ¬ (0 < amtA.toNat) at h0
          omega
        rw [this, show ((0 : Nat) : Int) = 0 from rfl, when_zero]
    · exact when_neg e _
  have zB : when (s.token_a = a.destB) (amtB.toNat : Int) = 0 := by
    by_cases e : s.token_a = a.destB
    · have hpay := run.payB
      unfold tokenTransferIfPos at hpay
      split at hpay
      · obtain ⟨_, _, _, _, _, m3⟩ := tokenTransfer_ok hpay
        have e1 := m3.mints
        rw [← e, run.checked.isB, hc.vaultA.mintOf f3, hc.vaultB.mintOf f3] at e1
        exact absurd (Option.some.inj e1).symm hc.mints
      · rename_i h0
        have : amtB.toNat = 0 := by
          have h0 : ¬ ((0 : UInt64).toNat < amtB.toNat) := fun g => h0 (UInt64.lt_iff_toNat_lt.2 g)
          change ¬ (0 < amtB.toNat) at h0
          omega
        rw [this, show ((0 : Nat) : Int) = 0 from rfl, when_zero]
    · exact when_neg e _
  have dA : s.token_a ≠ a.destA := fun e => run.checked.neA (by rw [run.checked.isA, e])
  have dB : s.token_b ≠ a.destB := fun e => run.checked.neB (by rw [run.checked.isB, e])
  rw [when_neg a2, when_neg a2, when_pos (x := (amtA.toNat : Int)) (rfl : s.token_a = s.token_a),
    when_neg hab, when_neg dA, zB, hfe, when_neg hcf.feeA.symm] at ba
  rw [when_neg b2, when_neg b2, when_neg hab.symm, zA, when_neg dB, hfe, when_neg hcf.feeB.symm,
    when_pos (x := (amtB.toNat : Int)) (rfl : s.token_b = s.token_b)] at bb
  rw [when_pos rfl] at bs
  have tA0 := nbal_token (run.checked.isA ▸ run.tokA.2)
  have tB0 := nbal_token (run.checked.isB ▸ run.tokB.2)
  have tS0 := nsup_mint (run.checked.isMint ▸ run.mintAcc.2)
  have hr := run.result
  rw [← tA0, ← tB0, ← tS0] at hr
  have iA := run.amtAIs
  have iB := run.amtBIs
  have iF := run.burntIs
  refine ⟨burnt.toNat, r, by omega, by omega, ?_, hr, fA, fB, by omega, by omega, by omega⟩
  intro h0
  rcases run.feeIs with ⟨_, h1⟩ | ⟨_, h1⟩
  · omega
  · unfold Fees.ownerWithdrawFee calculateFee at h1
    rw [if_pos (Or.inl (by rw [h0]; rfl))] at h1
    have := Res.ok.inj h1
    omega

/-- A one-sided withdrawal takes exactly the requested amount from one vault. -/
theorem withdrawSingle_exact {w w' : World} {x : Pubkey} {s : SwapV1} {signers : List Pubkey}
    {a : WithdrawSingleAccounts} {q y : UInt64} (hK : K a.swap) (hp : PoolAt env w a.swap s)
    (hc : Custody env w a.swap s x) (hcf : Configured env s)
    (hs : ∀ y ∈ signers, ¬ IsPda env K y)
    (h : exec env signers (.withdrawSingle a q y) w = .ok w') :
    ∃ (burnt : Nat) (dir : TradeDirection), 0 < burnt ∧ burnt ≤ nsup w s.pool_mint ∧
      s.swap_curve.withdrawSingle env.spl q.toNat (nbal w s.token_a) (nbal w s.token_b)
        (nsup w s.pool_mint) dir s.fees = .ok burnt ∧
      mintOf w a.destination = some (mintIn s dir) ∧
      nsup w' s.pool_mint = nsup w s.pool_mint - burnt ∧
      nbal w' (vaultIn s dir) + q.toNat = nbal w (vaultIn s dir) ∧
      nbal w' (vaultOut s dir) = nbal w (vaultOut s dir) := by
  have hx := hc.isPda hK
  have hab := vault_ne hc
  have nA := nbal_cast w s.token_a
  have nB := nbal_cast w s.token_b
  have nA' := nbal_cast w' s.token_a
  have nB' := nbal_cast w' s.token_b
  have nS := nsup_cast w s.pool_mint
  have nS' := nsup_cast w' s.pool_mint
  obtain ⟨hu, hpr⟩ := exec_withdrawSingle h
  obtain ⟨ts, dst, tA, tB, dir, pm, fee, burnt, w1, w2, run⟩ := processWithdrawSingle_ok hpr
  have es := run.state
  rw [unpackSwap_of hp] at es
  cases es
  obtain ⟨_, _, _, _, _, m2⟩ := tokenBurn_ok run.burn
  obtain ⟨_, _, _, _, _, m3⟩ := tokenTransfer_ok run.pay
  obtain ⟨s2, _, hs3, _, _, hs4⟩ := m2.srcTok
  have f1 := (ifPos_effect run.payFee).frame
  have f2 := f1.trans m2.frame
  have a2 := hc.vaultA.not_spender f1 hx (hs _ hu) ⟨s2, hs3, hs4⟩
  have b2 := hc.vaultB.not_spender f1 hx (hs _ hu) ⟨s2, hs3, hs4⟩
  have hfe : a.fee = s.pool_fee_account := by simpa using run.checked.isFee
  have ba := run.effect.bal s.token_a
  have bb := run.effect.bal s.token_b
  have bs := run.effect.supply s.pool_mint
  rw [when_neg a2, when_neg a2, hfe, when_neg hcf.feeA.symm] at ba
  rw [when_neg b2, when_neg b2, hfe, when_neg hcf.feeB.symm] at bb
  rw [when_pos rfl] at bs
  have tA0 := nbal_token (run.checked.isA ▸ run.tokA.2)
  have tB0 := nbal_token (run.checked.isB ▸ run.tokB.2)
  have tS0 := nsup_mint (run.checked.isMint ▸ run.mintAcc.2)
  have hr := run.result
  rw [← tA0, ← tB0, ← tS0] at hr
  have hb : 0 < burnt.toNat := by
    rcases Nat.eq_zero_or_pos burnt.toNat with h0 | h0
    · exfalso
      have := run.posP
      rcases run.feeIs with ⟨_, h2⟩ | ⟨_, h2⟩
      · omega
      · rw [h0] at h2
        unfold Fees.ownerWithdrawFee calculateFee at h2
        rw [if_pos (Or.inr rfl)] at h2
        have := Res.ok.inj h2
        omega
    · exact h0
  have hd := m3.mints
  refine ⟨burnt.toNat, dir, hb, by omega, hr, ?_⟩
  cases dir with
  | AtoB =>
    have e3 : sideOf .AtoB a.tokenA a.tokenB = s.token_a := run.checked.isA
    rw [e3, hc.vaultA.mintOf f2] at hd
    have dA : s.token_a ≠ a.destination := fun e => run.checked.neA (by
      rw [if_pos rfl, run.checked.isA, e])
    have dB : s.token_b ≠ a.destination := fun e => by
      rw [← e, hc.vaultB.mintOf f2] at hd
      exact hc.mints (Option.some.inj hd)
    have e4 : when (s.token_a = sideOf .AtoB s.token_a s.token_b) (q.toNat : Int) = q.toNat :=
      when_pos rfl _
    have e5 : when (s.token_b = sideOf .AtoB s.token_a s.token_b) (q.toNat : Int) = 0 :=
      when_neg hab.symm _
    rw [when_neg dA, e4] at ba
    rw [when_neg dB, e5] at bb
    refine ⟨?_, by omega, ?_, ?_⟩
    · rw [← f2.mintOf]; exact hd.symm
    · show nbal w' s.token_a + q.toNat = nbal w s.token_a
      omega
    · show nbal w' s.token_b = nbal w s.token_b
      omega
  | BtoA =>
    have e3 : sideOf .BtoA a.tokenA a.tokenB = s.token_b := run.checked.isB
    rw [e3, hc.vaultB.mintOf f2] at hd
    have dB : s.token_b ≠ a.destination := fun e => run.checked.neB (by
      rw [if_pos rfl, run.checked.isB, e])
    have dA : s.token_a ≠ a.destination := fun e => by
      rw [← e, hc.vaultA.mintOf f2] at hd
      exact hc.mints (Option.some.inj hd).symm
    have e4 : when (s.token_b = sideOf .BtoA s.token_a s.token_b) (q.toNat : Int) = q.toNat :=
      when_pos rfl _
    have e5 : when (s.token_a = sideOf .BtoA s.token_a s.token_b) (q.toNat : Int) = 0 :=
      when_neg hab _
    rw [when_neg dA, e5] at ba
    rw [when_neg dB, e4] at bb
    refine ⟨?_, by omega, ?_, ?_⟩
    · rw [← f2.mintOf]; exact hd.symm
    · show nbal w' s.token_b + q.toNat = nbal w s.token_b
      omega
    · show nbal w' s.token_a = nbal w s.token_a
      omega

/-- Pool tokens for tokens, rounded up, when the quotient fits 128 bits. -/
theorem ConstantPrice.trading_ceil_eq {e : SplEnv} {p : UInt64} {s A B S m : Nat}
    {dir : TradeDirection} (hs : s < U64) (hA : A < U64) (hB : B < U64) (hS : S < U64)
    (hpos : 0 < worth p.toNat A B) (hge : worth p.toNat A B ≤ S * worthOf p.toNat dir s)
    (hm : Up (S * worthOf p.toNat dir s) (worth p.toNat A B) m) (hlt : m < U128) :
    tradingTokensToPoolTokens e p s A B S dir .Ceiling = .ok m := by
  have hp : p.toNat < U64 := UInt64.toNat_lt p
  have hw := worth_lt (p := p) hA hB
  have hU : U128 < U256 := by decide
  have ew : B * p.toNat + A = worth p.toNat A B := by
    unfold worth; rw [Nat.mul_comm B, Nat.add_comm]
  have hg : worthOf p.toNat dir s < U128 := by
    cases dir with
    | AtoB =>
      have : U64 < U128 := by decide
      show s < U128
      omega
    | BtoA =>
      show p.toNat * s < U128
      have : p.toNat * s < U64 * U64 := Nat.mul_lt_mul'' hp hs
      rwa [show U64 * U64 = U128 by decide] at this
  have hn : S * worthOf p.toNat dir s < U256 := by
    have : S * worthOf p.toNat dir s < U64 * U128 := Nat.mul_lt_mul'' hS hg
    have h2 : U64 * U128 < U256 := by decide
    omega
  have em := (up_iff hpos).1 hm
  have key : ∀ g, g = worthOf p.toNat dir s → (do
      let tb ← cmul U256 B p.toNat
      let total ← cadd U256 tb A
      let m ← cmul U256 S g
      let q ← Spl.ceilDiv e.ceilZeroHalf U256 m total
      asUint U128 q.1) = .ok m := by
    rintro g rfl
    rw [cmul_ok (by omega), Res.ok_bind, cadd_ok (by omega), Res.ok_bind, ew, cmul_ok hn,
      Res.ok_bind, ceilDiv_eq hpos hge hn, Res.ok_bind]
    simp only []
    rw [← em]
    exact asUint_ok hlt
  unfold tradingTokensToPoolTokens
  cases dir with
  | AtoB =>
    simp only []
    rw [Res.ok_bind]
    exact key _ rfl
  | BtoA =>
    simp only []
    have hg' : s * p.toNat < U256 := by
      have : p.toNat * s < U128 := hg
      rw [Nat.mul_comm]
      omega
    rw [cmul_ok hg', Res.ok_bind]
    exact key _ (Nat.mul_comm _ _)

theorem Spec.Thawed.frame {w w' : World} {k : Pubkey} (h : Thawed w k) (hf : Frame w w') :
    Thawed w' k := by
  obtain ⟨t, ht, hz⟩ := h
  obtain ⟨t', h1, _, _, h4, _⟩ := hf.token (tokenAt_some.1 ht)
  exact ⟨t', tokenAt_some.2 h1, by rw [h4]; exact hz⟩

end Verif
