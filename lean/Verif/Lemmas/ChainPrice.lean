import Verif.Lemmas.ChainLinear
import Verif.Spec.Claim

/-
What one step of the chain does to the vaults and pool tokens of a constant-price pool.
-/

namespace Verif
open Spec Processor Props

variable {env : Env} {K : Pubkey → Prop}

/-- How the worth `V` of the vaults and the number `S` of pool tokens may change in a step. -/
inductive Change (f : Fees) (p : Nat) (swaps single : Prop) (V S V' S' : Nat) : Prop
  | idle (h1 : V ≤ V') (h2 : S' ≤ S)
  | swap (m : Nat) (hi : swaps) (h1 : S' = S + m) (h2 : V * (S + (m - 1)) ≤ V' * S)
      (h3 : f.owner_trade_fee_numerator = 0 → m = 0)
  | deposit (m : Nat) (h1 : S' = S + m) (h2 : V * S' ≤ V' * S + m)
  | fair (h : V * S' ≤ V' * S)
  | single (hi : single) (x fee : Nat) (dir : TradeDirection)
      (hf : f.tradingFee (max 1 (x / 2)) = .ok fee)
      (h : V * S' ≤ (V' + worthOf p dir fee) * S)

def nsup (w : World) (k : Pubkey) : Nat := (supply w k).toNat

theorem supply_nonneg (w : World) (k : Pubkey) : 0 ≤ supply w k := by
  unfold supply
  split
  · exact Int.natCast_nonneg _
  · exact le_refl _

theorem nsup_cast (w : World) (k : Pubkey) : (nsup w k : Int) = supply w k :=
  Int.toNat_of_nonneg (supply_nonneg w k)

theorem nsup_mint {w : World} {k : Pubkey} {m : Mint} (h : (w k).data = .mint m) :
    nsup w k = m.supply.toNat := by
  unfold nsup supply
  rw [mintAt_some.2 h]
  exact Int.toNat_natCast _

theorem worth_mono {p A B A' B' : Nat} (h1 : A ≤ A') (h2 : B ≤ B') : worth p A B ≤ worth p A' B' :=
  Nat.add_le_add h1 (Nat.mul_le_mul_left _ h2)

theorem vault_ne {w : World} {k : Pubkey} {s : SwapV1} {x : Pubkey} (hc : Custody env w k s x) :
    s.token_a ≠ s.token_b := by
  intro e
  have h1 := hc.vaultA.mintOf (Frame.refl w)
  have h2 := hc.vaultB.mintOf (Frame.refl w)
  rw [e, h2] at h1
  exact hc.mints (Option.some.inj h1).symm

theorem ownerFee_zero {f : Fees} (h : f.owner_trade_fee_numerator = 0) (x : Nat) :
    f.ownerTradingFee x = .ok 0 := by
  unfold Fees.ownerTradingFee calculateFee
  rw [if_pos (Or.inl (by rw [h]; rfl))]

theorem noDilution_mono {V S V' V'' S' : Nat} (h : NoDilution V S V' S') (h1 : V' ≤ V'') :
    V * S' ≤ V'' * S := le_trans h (Nat.mul_le_mul_right _ h1)

/-- Instructions on other pools do no harm. -/
theorem price_elsewhere (he : EnvOk env K) {w w' : World} {k x : Pubkey} {s : SwapV1} (hK : K k)
    (hc : Custody env w k s x) {signers : List Pubkey} {i : Instr} (hi : K i.pool)
    (hs : ∀ y ∈ signers, ¬ IsPda env K y) (h : exec env signers i w = .ok w') (hne : i.pool ≠ k)
    (p : Nat) : vaultsWorth w s p ≤ vaultsWorth w' s p ∧ shares w' s ≤ shares w s := by
  have v1 := vault_step he hK hc.derived hc.vaultA hs hi h hne
  have v2 := vault_step he hK hc.derived hc.vaultB hs hi h hne
  refine ⟨worth_mono (Int.toNat_le_toNat v1) (Int.toNat_le_toNat v2), Int.toNat_le_toNat ?_⟩
  by_contra hlt
  obtain ⟨b, y, mm, h1, h2, h3⟩ := exec_supply he hi h (m := s.pool_mint) (by omega)
  obtain ⟨_, m, hm, ha, _⟩ := hc.minter
  rw [hm] at h2
  rw [← Data.mint.inj h2, ha] at h3
  rw [← Option.some.inj h3] at h1
  exact hne (he.inj _ _ _ _ _ hi hK h1 hc.derived)

/-- A single-sided withdrawal takes out at most the trade fee on half of it beyond its share. -/
theorem price_single {w w' : World} {x : Pubkey} {s : SwapV1} {p : UInt64} {signers : List Pubkey}
    {a : WithdrawSingleAccounts} {q y : UInt64} (hK : K a.swap) (hp : PoolAt env w a.swap s)
    (hc : Custody env w a.swap s x) (hcf : Configured env s)
    (hl : s.swap_curve = .constantPrice p) (hs : ∀ y ∈ signers, ¬ IsPda env K y)
    (h : exec env signers (.withdrawSingle a q y) w = .ok w') :
    ∃ fee dir, s.fees.tradingFee (max 1 (q.toNat / 2)) = .ok fee ∧
      vaultsWorth w s p.toNat * shares w' s ≤
        (vaultsWorth w' s p.toNat + worthOf p.toNat dir fee) * shares w s := by
  have hx := hc.isPda hK
  have hab := vault_ne hc
  have e1 : ∀ u, vaultsWorth u s p.toNat = worth p.toNat (nbal u s.token_a) (nbal u s.token_b) :=
    fun _ => rfl
  have e2 : ∀ u, shares u s = nsup u s.pool_mint := fun _ => rfl
  rw [e1, e1, e2, e2]
  have nA := nbal_cast w s.token_a
  have nB := nbal_cast w s.token_b
  have nA' := nbal_cast w' s.token_a
  have nB' := nbal_cast w' s.token_b
  have nS := nsup_cast w s.pool_mint
  have nS' := nsup_cast w' s.pool_mint
  obtain ⟨hu, hpr⟩ := exec_withdrawSingle h
  obtain ⟨ts, dst, tA, tB, dir, pm, fee, burnt, w1, w2, run⟩ := processWithdrawSingle_ok hpr
  have es := run.state
  rw [unpackSwap_of hp] at es
  cases es
  obtain ⟨_, _, _, _, _, m2⟩ := tokenBurn_ok run.burn
  obtain ⟨_, _, _, _, _, m3⟩ := tokenTransfer_ok run.pay
  obtain ⟨s2, _, hs3, _, _, hs4⟩ := m2.srcTok
  have f1 := (ifPos_effect run.payFee).frame
  have a2 := hc.vaultA.not_spender f1 hx (hs _ hu) ⟨s2, hs3, hs4⟩
  have b2 := hc.vaultB.not_spender f1 hx (hs _ hu) ⟨s2, hs3, hs4⟩
  have ba := run.effect.bal s.token_a
  have bb := run.effect.bal s.token_b
  have bs := run.effect.supply s.pool_mint
  rw [when_neg a2, when_neg a2] at ba
  rw [when_neg b2, when_neg b2] at bb
  rw [when_pos rfl] at bs
  have z1 := when_nonneg (c := s.token_a = a.fee) (Int.natCast_nonneg fee.toNat)
  have z2 := when_nonneg (c := s.token_b = a.fee) (Int.natCast_nonneg fee.toNat)
  have z3 := when_nonneg (c := s.token_a = a.destination) (Int.natCast_nonneg q.toNat)
  have z4 := when_nonneg (c := s.token_b = a.destination) (Int.natCast_nonneg q.toNat)
  have tA0 := nbal_token (run.checked.isA ▸ run.tokA.2)
  have tB0 := nbal_token (run.checked.isB ▸ run.tokB.2)
  have tS0 := nsup_mint (run.checked.isMint ▸ run.mintAcc.2)
  have gS : nsup w' s.pool_mint = nsup w s.pool_mint - burnt.toNat := by omega
  have hr := run.result
  rw [hl, ← tA0, ← tB0, ← tS0] at hr
  have hb : 0 < burnt.toNat := by
    rcases Nat.eq_zero_or_pos burnt.toNat with h0 | h0
    · exfalso
      have := run.posP
      rcases run.feeIs with ⟨_, h2⟩ | ⟨_, h2⟩
      · omega
      · rw [h0] at h2
        unfold Fees.ownerWithdrawFee calculateFee at h2
        rw [if_pos (Or.inr rfl)] at h2
        have := Res.ok.inj h2
        omega
    · exact h0
  -- what the vault pays was in it
  have hle : q.toNat ≤ (Pool.mk (nbal w s.token_a) (nbal w s.token_b) (nsup w s.pool_mint)).src dir := by
    obtain ⟨t3, _, ht3, hle, _⟩ := m3.srcTok
    have b0 : ∀ v, v ≠ a.source → bal w2 v = bal w v + when (v = a.fee) fee.toNat := by
      intro v hv
      rw [m2.bal, (ifPos_effect run.payFee).bal, when_neg hv, when_neg hv]
      omega
    have hfe : a.fee = s.pool_fee_account := by simpa using run.checked.isFee
    cases dir with
    | AtoB =>
      have e3 : sideOf .AtoB a.tokenA a.tokenB = s.token_a := run.checked.isA
      rw [e3] at ht3
      have := b0 _ a2
      rw [hfe, when_neg hcf.feeA.symm, bal_token ht3] at this
      show q.toNat ≤ nbal w s.token_a
      omega
    | BtoA =>
      have e3 : sideOf .BtoA a.tokenA a.tokenB = s.token_b := run.checked.isB
      rw [e3] at ht3
      have := b0 _ b2
      rw [hfe, when_neg hcf.feeB.symm, bal_token ht3] at this
      show q.toNat ≤ nbal w s.token_b
      omega
  obtain ⟨tf, h1, key⟩ := C22_withdraw_partial env.spl p q.toNat burnt.toNat
    ⟨nbal w s.token_a, nbal w s.token_b, nsup w s.pool_mint⟩ dir s.fees hr hb
    (show burnt.toNat ≤ nsup w s.pool_mint by omega) hle
  refine ⟨tf, dir, h1, ?_⟩
  have e4 : (takeOut ⟨nbal w s.token_a, nbal w s.token_b, nsup w s.pool_mint⟩ dir q.toNat
      burnt.toNat).S = nsup w' s.pool_mint := by rw [gS]; cases dir <;> rfl
  rw [e4] at key
  refine noDilution_mono key (Nat.add_le_add_right ?_ _)
  cases dir with
  | AtoB =>
    have : when (s.token_a = sideOf .AtoB s.token_a s.token_b) (q.toNat : Int) = q.toNat :=
      when_pos rfl _
    have z5 : when (s.token_b = sideOf .AtoB s.token_a s.token_b) (q.toNat : Int) = 0 :=
      when_neg hab.symm _
    exact worth_mono (show nbal w s.token_a - q.toNat ≤ _ by omega)
      (show nbal w s.token_b ≤ _ by omega)
  | BtoA =>
    have : when (s.token_b = sideOf .BtoA s.token_a s.token_b) (q.toNat : Int) = q.toNat :=
      when_pos rfl _
    have z5 : when (s.token_a = sideOf .BtoA s.token_a s.token_b) (q.toNat : Int) = 0 :=
      when_neg hab _
    exact worth_mono (show nbal w s.token_a ≤ _ by omega)
      (show nbal w s.token_b - q.toNat ≤ _ by omega)

theorem price_step (he : EnvOk env K) {w w' : World} {k x : Pubkey} {s : SwapV1} {p : UInt64}
    (hK : K k) (hp : PoolAt env w k s) (hc : Custody env w k s x) (hcf : Configured env s)
    (hl : s.swap_curve = .constantPrice p) (hpos : 0 < shares w s) {signers : List Pubkey} {i : Instr}
    (hi : K i.pool) (hs : ∀ y ∈ signers, ¬ IsPda env K y) (h : exec env signers i w = .ok w') :
    Change s.fees p.toNat (i.pool = k ∧ ∃ a x y, i = .swap a x y)
      (i.pool = k ∧ ∃ a x y, i = .withdrawSingle a x y) (vaultsWorth w s p.toNat) (shares w s)
      (vaultsWorth w' s p.toNat) (shares w' s) := by
  have hx := hc.isPda hK
  have hab := vault_ne hc
  have e1 : ∀ u, vaultsWorth u s p.toNat = worth p.toNat (nbal u s.token_a) (nbal u s.token_b) :=
    fun _ => rfl
  have e2 : ∀ u, shares u s = nsup u s.pool_mint := fun _ => rfl
  rw [e2] at hpos
  rw [e1, e1, e2, e2]
  have nA := nbal_cast w s.token_a
  have nB := nbal_cast w s.token_b
  have nA' := nbal_cast w' s.token_a
  have nB' := nbal_cast w' s.token_b
  have nS := nsup_cast w s.pool_mint
  have nS' := nsup_cast w' s.pool_mint
  by_cases hne : i.pool ≠ k
  · obtain ⟨g1, g2⟩ := price_elsewhere he hK hc hi hs h hne p.toNat
    exact .idle g1 g2
  have hk : i.pool = k := not_not.1 hne
  have noInit : ∀ a f cc, InitOf i a f cc → False := by
    intro a f cc ho
    obtain ⟨_, _, _, _, _, _, _, _, _, _, _, _, _, _, _, _, _, _, _, _, _, _, _, _, _, _, _, _,
        _, hno, _⟩ := C27_initialize env signers i a f cc w w' ho h
    rw [← init_pool ho, hk] at hno
    exact hno ⟨s, hp⟩
  cases i with
  | initConstantPrice a f q => exact (noInit _ _ _ (.price a f q)).elim
  | initLinearPrice a q => exact (noInit _ _ _ (.linear a q)).elim
  | depositAll a q y z =>
    obtain ⟨hu, hpr⟩ := exec_depositAll h
    obtain ⟨ts, tA, tB, pm, r, amtA, amtB, amtP, w1, w2, run⟩ := processDepositAll_ok hpr
    have es := run.state
    rw [show a.swap = k from hk, unpackSwap_of hp] at es
    cases es
    obtain ⟨_, _, _, _, _, m1⟩ := tokenTransfer_ok run.payA
    obtain ⟨_, _, _, _, _, m2⟩ := tokenTransfer_ok run.payB
    obtain ⟨s1, _, hs1, _, hs2⟩ := m1.srcTok
    obtain ⟨s2, _, hs3, _, hs4⟩ := m2.srcTok
    have a1 := hc.vaultA.not_spender (Frame.refl w) hx (hs _ hu) ⟨s1, hs1, hs2⟩
    have b1 := hc.vaultB.not_spender (Frame.refl w) hx (hs _ hu) ⟨s1, hs1, hs2⟩
    have a2 := hc.vaultA.not_spender m1.frame hx (hs _ hu) ⟨s2, hs3, hs4⟩
    have b2 := hc.vaultB.not_spender m1.frame hx (hs _ hu) ⟨s2, hs3, hs4⟩
    have ba := run.effect.bal s.token_a
    have bb := run.effect.bal s.token_b
    have bs := run.effect.supply s.pool_mint
    rw [when_pos rfl, when_neg a1, when_neg a2, when_neg hab] at ba
    rw [when_pos rfl, when_neg b1, when_neg b2, when_neg hab.symm] at bb
    rw [when_pos rfl] at bs
    have z1 := when_nonneg (c := s.token_a = a.destination) (Int.natCast_nonneg amtP.toNat)
    have z2 := when_nonneg (c := s.token_b = a.destination) (Int.natCast_nonneg amtP.toNat)
    have tA0 := nbal_token (run.checked.isA ▸ run.tokA.2)
    have tB0 := nbal_token (run.checked.isB ▸ run.tokB.2)
    have tS0 := nsup_mint (run.checked.isMint ▸ run.mintAcc.2)
    have hsp : pm.supply > 0 := UInt64.lt_iff_toNat_lt.2 (by rw [← tS0]; exact hpos)
    have hr := run.result
    have hP := run.amtPIs
    rw [if_pos hsp] at hP
    rw [if_pos hsp, if_pos hsp, hl, ← tA0, ← tB0, ← tS0, ← hP] at hr
    have pa : 0 < r.token_a_amount := by
      rw [← run.amtAIs]; exact Nat.pos_of_ne_zero fun h0 => run.posA (UInt64.toNat_inj.1 h0)
    have pb : 0 < r.token_b_amount := by
      rw [← run.amtBIs]; exact Nat.pos_of_ne_zero fun h0 => run.posB (UInt64.toNat_inj.1 h0)
    have key := C18_deposit_partial env.spl p _ _ _ _ r hr pa pb
    have gS : nsup w' s.pool_mint = nsup w s.pool_mint + amtP.toNat := by omega
    refine .deposit amtP.toNat gS ?_
    rw [gS]
    have iA := run.amtAIs
    have iB := run.amtBIs
    have g := worth_mono (p := p.toNat) (A := nbal w s.token_a + r.token_a_amount)
      (B := nbal w s.token_b + r.token_b_amount) (A' := nbal w' s.token_a) (B' := nbal w' s.token_b)
      (by omega) (by omega)
    have g2 := Nat.mul_le_mul_right (nsup w s.pool_mint) g
    have g3 : amtP.toNat * (worth p.toNat (nbal w s.token_a) (nbal w s.token_b) % 2) ≤
        amtP.toNat * 1 := Nat.mul_le_mul_left _ (by omega)
    omega
  | withdrawAll a q y z =>
    obtain ⟨hu, hpr⟩ := exec_withdrawAll h
    obtain ⟨ts, tA, tB, pm, fee, burnt, r, amtA, amtB, w1, w2, w3, run⟩ := processWithdrawAll_ok hpr
    have es := run.state
    rw [show a.swap = k from hk, unpackSwap_of hp] at es
    cases es
    obtain ⟨_, _, _, _, _, m2⟩ := tokenBurn_ok run.burn
    obtain ⟨s2, _, hs3, _, _, hs4⟩ := m2.srcTok
    have f1 := (ifPos_effect run.payFee).frame
    have a2 := hc.vaultA.not_spender f1 hx (hs _ hu) ⟨s2, hs3, hs4⟩
    have b2 := hc.vaultB.not_spender f1 hx (hs _ hu) ⟨s2, hs3, hs4⟩
    have ba := run.effect.bal s.token_a
    have bb := run.effect.bal s.token_b
    have bs := run.effect.supply s.pool_mint
    rw [when_neg a2, when_neg a2, when_pos (x := (amtA.toNat : Int)) (rfl : s.token_a = s.token_a),
      when_neg hab] at ba
    rw [when_neg b2, when_neg b2, when_neg hab.symm,
      when_pos (x := (amtB.toNat : Int)) (rfl : s.token_b = s.token_b)] at bb
    rw [when_pos rfl] at bs
    have z1 := when_nonneg (c := s.token_a = a.fee) (Int.natCast_nonneg fee.toNat)
    have z2 := when_nonneg (c := s.token_b = a.fee) (Int.natCast_nonneg fee.toNat)
    have z3 := when_nonneg (c := s.token_a = a.destA) (Int.natCast_nonneg amtA.toNat)
    have z4 := when_nonneg (c := s.token_b = a.destA) (Int.natCast_nonneg amtA.toNat)
    have z5 := when_nonneg (c := s.token_a = a.destB) (Int.natCast_nonneg amtB.toNat)
    have z6 := when_nonneg (c := s.token_b = a.destB) (Int.natCast_nonneg amtB.toNat)
    have tA0 := nbal_token (run.checked.isA ▸ run.tokA.2)
    have tB0 := nbal_token (run.checked.isB ▸ run.tokB.2)
    have tS0 := nsup_mint (run.checked.isMint ▸ run.mintAcc.2)
    have hr := run.result
    rw [hl, ← tA0, ← tB0, ← tS0] at hr
    have iA := run.amtAIs
    have iB := run.amtBIs
    have gS : nsup w' s.pool_mint = nsup w s.pool_mint - burnt.toNat := by omega
    have key := C19_constant_price env.spl p _ _ _ _ r hr amtA.toNat amtB.toNat (by omega) (by omega)
      (by omega) (by omega) (by omega)
    rw [← gS] at key
    exact .fair (noDilution_mono key (worth_mono (by omega) (by omega)))
  | depositSingle a q y =>
    obtain ⟨hu, hpr⟩ := exec_depositSingle h
    obtain ⟨ts, src, tA, tB, dir, pm, amtP, w1, run⟩ := processDepositSingle_ok hpr
    have es := run.state
    rw [show a.swap = k from hk, unpackSwap_of hp] at es
    cases es
    obtain ⟨_, _, _, _, _, m1⟩ := tokenTransfer_ok run.pay
    obtain ⟨s1, _, hs1, _, hs2⟩ := m1.srcTok
    have a1 := hc.vaultA.not_spender (Frame.refl w) hx (hs _ hu) ⟨s1, hs1, hs2⟩
    have b1 := hc.vaultB.not_spender (Frame.refl w) hx (hs _ hu) ⟨s1, hs1, hs2⟩
    have ba := run.effect.bal s.token_a
    have bb := run.effect.bal s.token_b
    have bs := run.effect.supply s.pool_mint
    rw [when_neg a1] at ba
    rw [when_neg b1] at bb
    rw [when_pos rfl] at bs
    have z1 := when_nonneg (c := s.token_a = a.destination) (Int.natCast_nonneg amtP.toNat)
    have z2 := when_nonneg (c := s.token_b = a.destination) (Int.natCast_nonneg amtP.toNat)
    have tA0 := nbal_token (run.checked.isA ▸ run.tokA.2)
    have tB0 := nbal_token (run.checked.isB ▸ run.tokB.2)
    have tS0 := nsup_mint (run.checked.isMint ▸ run.mintAcc.2)
    have gS : nsup w' s.pool_mint = nsup w s.pool_mint + amtP.toNat := by omega
    rcases run.result with ⟨h0, _⟩ | ⟨_, hr⟩
    · omega
    rw [hl, ← tA0, ← tB0, ← tS0] at hr
    have key := C21_deposit_single env.spl p q.toNat amtP.toNat
      ⟨nbal w s.token_a, nbal w s.token_b, nsup w s.pool_mint⟩ dir s.fees hr
    refine .fair ?_
    rw [gS]
    refine noDilution_mono key ?_
    cases dir with
    | AtoB =>
      have : when (s.token_a = sideOf .AtoB s.token_a s.token_b) (q.toNat : Int) = q.toNat :=
        when_pos rfl _
      have z3 := when_nonneg (c := s.token_b = sideOf .AtoB s.token_a s.token_b)
        (Int.natCast_nonneg q.toNat)
      exact worth_mono (show nbal w s.token_a + q.toNat ≤ _ by omega)
        (show nbal w s.token_b - 0 ≤ _ by omega)
    | BtoA =>
      have : when (s.token_b = sideOf .BtoA s.token_a s.token_b) (q.toNat : Int) = q.toNat :=
        when_pos rfl _
      have z3 := when_nonneg (c := s.token_a = sideOf .BtoA s.token_a s.token_b)
        (Int.natCast_nonneg q.toNat)
      exact worth_mono (show nbal w s.token_a - 0 ≤ _ by omega)
        (show nbal w s.token_b + q.toNat ≤ _ by omega)
  | withdrawSingle a q y =>
    have hk' : a.swap = k := hk
    rw [← hk'] at hc hK hp
    obtain ⟨fee, dir, g1, g2⟩ := price_single hK hp hc hcf hl hs h
    exact .single ⟨hk, a, q, y, rfl⟩ q.toNat fee dir g1 g2
  | swap a q y =>
    obtain ⟨hu, hpr⟩ := exec_swap h
    obtain ⟨ts, src, dst, pm, r, pt, amtIn, amtOut, w1, w2, run⟩ := processSwap_ok hpr
    have hk' : a.swap = k := hk
    have es := run.state
    rw [hk', unpackSwap_of hp] at es
    cases es
    rw [← hk'] at hc hK
    obtain ⟨v1, v2⟩ := swap_vaults hK hc hcf hs hu run
    have bs := run.effect.supply s.pool_mint
    rw [when_pos rfl] at bs
    have gS : nsup w' s.pool_mint = nsup w s.pool_mint + pt := by omega
    have tS0 := nsup_mint (run.mintIs ▸ run.mintAcc.2)
    have n1 := nbal_token run.srcTok.2
    have n2 := nbal_token run.dstTok.2
    have hr := run.result
    have hf := run.feeCalc
    rw [hl, ← n1, ← n2] at hr
    rw [hl, ← tS0] at hf
    obtain ⟨_, b2, b3, b4, _⟩ := C07_swap_bounds env.spl _ _ _ _ _ _ r hr
    have hzero : s.fees.owner_trade_fee_numerator = 0 → pt = 0 := by
      intro h0
      obtain ⟨_, _, h2, _⟩ := Curve.swap_inv hr
      rw [ownerFee_zero h0] at h2
      rw [← Res.ok.inj h2] at hf
      unfold Curve.withdrawSingle at hf
      rw [if_pos rfl] at hf
      exact (Res.ok.inj hf).symm
    have c1 := nbal_cast w a.swapSource
    have c2 := nbal_cast w a.swapDestination
    have c3 := nbal_cast w' a.swapSource
    have c4 := nbal_cast w' a.swapDestination
    have g1 : nbal w' a.swapSource = nbal w a.swapSource + r.source_amount_swapped := by omega
    have g2 : nbal w' a.swapDestination = nbal w a.swapDestination - r.destination_amount_swapped := by
      omega
    have b5 : r.new_swap_destination_amount = nbal w a.swapDestination - r.destination_amount_swapped := by
      omega
    refine .swap pt ⟨hk, a, q, y, rfl⟩ gS ?_ hzero
    by_cases hd : a.swapSource = s.token_a
    · have hd2 : a.swapDestination = s.token_b := by
        rcases run.dstIs with e | e
        · exact absurd (hd.trans e.symm) run.srcNeDst
        · exact e
      have hdir : swapDirection s a = .AtoB := by unfold swapDirection; rw [if_pos hd]
      rw [hdir] at hr hf
      rw [hd, hd2] at hr
      simp only [] at hf
      rw [b3, b5, hd, hd2] at hf
      rw [hd] at g1
      rw [hd2] at g2
      rw [g1, g2]
      exact C23_owner_fee env.spl p _ pt ⟨nbal w s.token_a, nbal w s.token_b, nsup w s.pool_mint⟩ .AtoB
        s.fees r hr hf
    · have hd1 : a.swapSource = s.token_b := run.srcIs.resolve_left hd
      have hd2 : a.swapDestination = s.token_a := by
        rcases run.dstIs with e | e
        · exact e
        · exact absurd (hd1.trans e.symm) run.srcNeDst
      have hdir : swapDirection s a = .BtoA := by unfold swapDirection; rw [if_neg hd]
      rw [hdir] at hr hf
      rw [hd1, hd2] at hr
      simp only [] at hf
      rw [b3, b5, hd1, hd2] at hf
      rw [hd1] at g1
      rw [hd2] at g2
      rw [g1, g2]
      exact C23_owner_fee env.spl p _ pt ⟨nbal w s.token_a, nbal w s.token_b, nsup w s.pool_mint⟩ .BtoA
        s.fees r hr hf

/-- Nobody else can harm the pool either. -/
theorem price_env {w w' : World} {k x : Pubkey} {s : SwapV1} (hK : K k) (hc : Custody env w k s x)
    (h : EnvStep env K w w') (p : Nat) :
    vaultsWorth w s p ≤ vaultsWorth w' s p ∧ shares w' s ≤ shares w s := by
  have hx := hc.isPda hK
  have v1 := (hc.vaultA.envStep hx h).2
  have v2 := (hc.vaultB.envStep hx h).2
  refine ⟨worth_mono (Int.toNat_le_toNat v1) (Int.toNat_le_toNat v2), ?_⟩
  obtain ⟨ho, m, hm, ha, _⟩ := hc.minter
  obtain ⟨_, m', hm', _, hle, _⟩ := h.mint _ m x ho hm ha hx
  rw [show shares w' s = nsup w' s.pool_mint from rfl, show shares w s = nsup w s.pool_mint from rfl,
    nsup_mint hm, nsup_mint hm']
  exact UInt64.le_iff_toNat_le.1 hle

end Verif
