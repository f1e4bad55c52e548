import Verif.Lemmas.Chain
import Verif.Spec.Linear

/-
A linear pool's vaults follow a trading history of its curve in every execution.
-/

namespace Verif
open Spec Processor Props

variable {env : Env} {K : Pubkey → Prop}

/-- A solely owned account cannot be spent from by a signer that is no derived address. -/
theorem Spec.SoleOwner.not_spender {w u : World} {v m x s : Pubkey} (hf : Frame w u)
    (hv : SoleOwner env w v m x) (hx : IsPda env K x) (hs : ¬ IsPda env K s) {src : Pubkey}
    (h : ∃ t, (u src).data = .token t ∧ (t.delegate = some s ∨ t.owner = s)) : v ≠ src := by
  rintro rfl
  obtain ⟨_, t, ht, _, ho, hd, _⟩ := hv.frame hf
  obtain ⟨t', ht', hor⟩ := h
  rw [ht] at ht'
  rw [← Data.token.inj ht', hd, ho] at hor
  rcases hor with h1 | h1
  · cases h1
  · exact hs (h1 ▸ hx)

theorem Spec.SoleOwner.mintOf {w u : World} {v m x : Pubkey} (hf : Frame w u)
    (hv : SoleOwner env w v m x) : mintOf u v = some m := by
  obtain ⟨_, t, ht, hm, _⟩ := hv.frame hf
  unfold Spec.mintOf
  rw [tokenAt_some.2 ht, Option.map_some, hm]

/-- Effect of a swap on the two vaults, when custody holds. -/
theorem swap_vaults {signers : List Pubkey} {x y : UInt64} {a : SwapAccounts}
    {w w' : World} {ts : SwapV1} {src dst : TokenAccount} {pm : Mint} {r : SwapResult} {pt : Nat}
    {amtIn amtOut : UInt64} {w1 w2 : World} {p : Pubkey} (hK : K a.swap)
    (hc : Custody env w a.swap ts p) (hcf : Configured env ts)
    (hs : ∀ y ∈ signers, ¬ IsPda env K y) (hu : a.userAuthority ∈ signers)
    (h : SwapRun env signers x y a none w w' ts src dst pm r pt amtIn amtOut w1 w2) :
    bal w' a.swapSource = bal w a.swapSource + r.source_amount_swapped ∧
    bal w' a.swapDestination = bal w a.swapDestination - r.destination_amount_swapped := by
  have hx := hc.isPda hK
  obtain ⟨_, _, _, _, _, m1⟩ := tokenTransfer_ok h.pay
  obtain ⟨_, _, _, _, _, m3⟩ := tokenTransfer_ok h.payOut
  have f2 := m1.frame.trans (feeStep_effect h.mint).frame
  obtain ⟨s1, _, hs1, _, hs2⟩ := m1.srcTok
  have nA := hc.vaultA.not_spender (Frame.refl w) hx (hs _ hu) ⟨s1, hs1, hs2⟩
  have nB := hc.vaultB.not_spender (Frame.refl w) hx (hs _ hu) ⟨s1, hs1, hs2⟩
  have mA := hc.vaultA.mintOf f2
  have mB := hc.vaultB.mintOf f2
  have hm := m3.mints
  have key : ∀ v u, (v = ts.token_a ∧ u = ts.token_b ∨ v = ts.token_b ∧ u = ts.token_a) →
      a.swapSource = v → a.swapDestination = u → a.destination ≠ v ∧ v ≠ a.source ∧ u ≠ a.source ∧
        v ≠ ts.pool_fee_account ∧ u ≠ ts.pool_fee_account := by
    rintro v u (⟨rfl, rfl⟩ | ⟨rfl, rfl⟩) e1 e2
    · refine ⟨?_, nA, nB, hcf.feeA.symm, hcf.feeB.symm⟩
      intro e
      rw [e2, e, mA, mB] at hm
      exact hc.mints (Option.some.inj hm).symm
    · refine ⟨?_, nB, nA, hcf.feeB.symm, hcf.feeA.symm⟩
      intro e
      rw [e2, e, mA, mB] at hm
      exact hc.mints (Option.some.inj hm)
  have hvu : a.swapSource = ts.token_a ∧ a.swapDestination = ts.token_b ∨
      a.swapSource = ts.token_b ∧ a.swapDestination = ts.token_a := by
    rcases h.srcIs with e1 | e1
    · rcases h.dstIs with e2 | e2
      · exact absurd (e1.trans e2.symm) h.srcNeDst
      · exact Or.inl ⟨e1, e2⟩
    · rcases h.dstIs with e2 | e2
      · exact Or.inr ⟨e1, e2⟩
      · exact absurd (e1.trans e2.symm) h.srcNeDst
  obtain ⟨k1, k2, k3, k4, k5⟩ := key _ _ hvu rfl rfl
  rw [h.effect.bal, h.effect.bal, when_pos rfl, when_neg k2, when_neg (Ne.symm k1),
    when_neg h.srcNeDst, when_neg k4, when_neg (Ne.symm h.srcNeDst), when_neg k3,
    when_neg h.dstNeUser, when_pos rfl, when_neg k5]
  constructor <;> omega

/-- The amounts of a successful swap on a linear pool, whose fees are zero. -/
theorem linear_swap_amounts {e : SplEnv} {c : LinearPriceCurve} {f : Fees} {s x y : Nat}
    {dir : TradeDirection} {r : SwapResult} (hf : f = ⟨0, 1, 0, 1, 0, 1, 0, 1⟩)
    (h : (Curve.linear c).swap e s x y dir f = .ok r) :
    Linear.swapWithoutFees c s x y dir = .ok ⟨r.source_amount_swapped, r.destination_amount_swapped⟩ ∧
      r.trade_fee = 0 ∧ r.owner_fee = 0 := by
  obtain ⟨q, h1, h2, _, h3, h4, h5, _⟩ := Curve.swap_inv h
  have z1 : r.trade_fee = 0 := by
    rw [hf] at h1
    unfold Fees.tradingFee calculateFee at h1
    simp only [] at h1
    rw [if_pos (Or.inl UInt64.toNat_zero)] at h1
    exact (Res.ok.inj h1).symm
  have z2 : r.owner_fee = 0 := by
    rw [hf] at h2
    unfold Fees.ownerTradingFee calculateFee at h2
    simp only [] at h2
    rw [if_pos (Or.inl UInt64.toNat_zero)] at h2
    exact (Res.ok.inj h2).symm
  rw [z1, z2] at h3 h4
  refine ⟨?_, z1, z2⟩
  rw [h4, h5]
  exact h3

/-- Balance as a natural number. -/
def nbal (w : World) (k : Pubkey) : Nat := (bal w k).toNat

theorem nbal_cast (w : World) (k : Pubkey) : (nbal w k : Int) = bal w k :=
  Int.toNat_of_nonneg (bal_nonneg w k)

theorem nbal_lt (w : World) (k : Pubkey) : nbal w k < 2 ^ 64 := by
  unfold nbal bal
  split
  · rename_i t _
    rw [Int.toNat_natCast]
    exact t.amount.toNat_lt
  · decide

theorem nbal_token {w : World} {k : Pubkey} {t : TokenAccount} (h : (w k).data = .token t) :
    nbal w k = t.amount.toNat := by
  unfold nbal
  rw [bal_token h, Int.toNat_natCast]

theorem donate_step {c : LinearPriceCurve} {w w' : World} {k j : Pubkey}
    (h1 : bal w k ≤ bal w' k) (h2 : bal w j ≤ bal w' j) :
    PoolStep c (nbal w k, nbal w j) (nbal w' k, nbal w' j) := by
  have a1 := nbal_cast w k
  have a2 := nbal_cast w' k
  have b1 := nbal_cast w j
  have b2 := nbal_cast w' j
  have l1 := nbal_lt w' k
  have l2 := nbal_lt w' j
  have := PoolStep.donate (c := c) (A := nbal w k) (B := nbal w j) (nbal w' k - nbal w k)
    (nbal w' j - nbal w j) (by omega) (by omega)
  rw [show nbal w k + (nbal w' k - nbal w k) = nbal w' k by omega,
    show nbal w j + (nbal w' j - nbal w j) = nbal w' j by omega] at this
  exact this

/-- One step of the chain is one step of the trading history of a linear pool. -/
theorem linear_step (he : EnvOk env K) {w w' : World} {k p : Pubkey} {s : SwapV1}
    {c : LinearPriceCurve} (hK : K k) (hp : PoolAt env w k s) (hc : Custody env w k s p)
    (hcf : Configured env s) (hl : s.swap_curve = .linear c) (hf : s.fees = ⟨0, 1, 0, 1, 0, 1, 0, 1⟩)
    (h : Step env K w w') :
    PoolStep c (nbal w s.token_a, nbal w s.token_b) (nbal w' s.token_a, nbal w' s.token_b) := by
  have hx := hc.isPda hK
  cases h with
  | other h =>
    exact donate_step (hc.vaultA.envStep hx h).2 (hc.vaultB.envStep hx h).2
  | instr signers i hi hs h =>
    by_cases hne : i.pool ≠ k
    · exact donate_step (vault_step he hK hc.derived hc.vaultA hs hi h hne)
        (vault_step he hK hc.derived hc.vaultB hs hi h hne)
    have hk : i.pool = k := not_not.1 hne
    have noInit : ∀ a f cc, InitOf i a f cc → False := by
      intro a f cc ho
      obtain ⟨_, _, _, _, _, _, _, _, _, _, _, _, _, _, _, _, _, _, _, _, _, _, _, _, _, _, _, _,
          _, hno, _⟩ := C27_initialize env signers i a f cc w w' ho h
      rw [← init_pool ho, hk] at hno
      exact hno ⟨s, hp⟩
    cases i with
    | initConstantPrice a f q => exact (noInit _ _ _ (.price a f q)).elim
    | initLinearPrice a q => exact (noInit _ _ _ (.linear a q)).elim
    | depositAll a x y z => exact absurd h ((C37_no_deposits_partial env signers w k s c hp hl).1 a x y z hk w')
    | withdrawAll a x y z => exact absurd h ((C36_no_withdrawals env signers w k s c hp hl).1 a x y z hk w')
    | withdrawSingle a x y => exact absurd h ((C36_no_withdrawals env signers w k s c hp hl).2 a x y hk w')
    | depositSingle a x y =>
      obtain ⟨hu, hpr⟩ := exec_depositSingle h
      obtain ⟨ts, src, tA, tB, dir, pm, amtP, w1, run⟩ := processDepositSingle_ok hpr
      have es := run.state
      rw [show a.swap = k from hk, unpackSwap_of hp] at es
      cases es
      obtain ⟨_, _, _, _, _, m1⟩ := tokenTransfer_ok run.pay
      obtain ⟨s1, _, hs1, _, hs2⟩ := m1.srcTok
      have nA := hc.vaultA.not_spender (Frame.refl w) hx (hs _ hu) ⟨s1, hs1, hs2⟩
      have nB := hc.vaultB.not_spender (Frame.refl w) hx (hs _ hu) ⟨s1, hs1, hs2⟩
      have inc : ∀ v, v ≠ a.source → bal w v ≤ bal w' v := by
        intro v hv
        rw [run.effect.bal, when_neg hv]
        have e1 := when_nonneg (c := v = sideOf dir s.token_a s.token_b) (Int.natCast_nonneg x.toNat)
        have e2 := when_nonneg (c := v = a.destination) (Int.natCast_nonneg amtP.toNat)
        omega
      exact donate_step (inc _ nA) (inc _ nB)
    | swap a x y =>
      obtain ⟨hu, hpr⟩ := exec_swap h
      obtain ⟨ts, src, dst, pm, r, pt, amtIn, amtOut, w1, w2, run⟩ := processSwap_ok hpr
      have hk' : a.swap = k := hk
      have es := run.state
      rw [hk', unpackSwap_of hp] at es
      cases es
      rw [← hk'] at hc hK
      obtain ⟨v1, v2⟩ := swap_vaults hK hc hcf hs hu run
      have hres := run.result
      rw [hl] at hres
      obtain ⟨hq, _, _⟩ := linear_swap_amounts hf hres
      obtain ⟨_, _, _, _, _, _, _, _, hle, _⟩ := Curve.swap_inv hres
      have n1 := nbal_token run.srcTok.2
      have n2 := nbal_token run.dstTok.2
      have x1 := x.toNat_lt
      have c1 := nbal_cast w a.swapSource
      have c2 := nbal_cast w a.swapDestination
      have c3 := nbal_cast w' a.swapSource
      have c4 := nbal_cast w' a.swapDestination
      have l3 := nbal_lt w' a.swapSource
      have g1 : nbal w' a.swapSource = nbal w a.swapSource + r.source_amount_swapped := by omega
      have g2 : nbal w' a.swapDestination = nbal w a.swapDestination - r.destination_amount_swapped := by
        omega
      rw [← n1, ← n2] at hq
      by_cases hd : a.swapSource = s.token_a
      · have hd2 : a.swapDestination = s.token_b := by
          rcases run.dstIs with e | e
          · exact absurd (hd.trans e.symm) run.srcNeDst
          · exact e
        have hdir : swapDirection s a = .AtoB := by unfold swapDirection; rw [if_pos hd]
        rw [hdir, hd, hd2] at hq
        rw [hd] at g1 l3
        rw [hd2] at g2 n2
        rw [g1, g2]
        rw [← n2] at hle
        rw [g1] at l3
        exact PoolStep.buy x.toNat _ x1 hq hle l3
      · have hd1 : a.swapSource = s.token_b := by
          rcases run.srcIs with e | e
          · exact absurd e hd
          · exact e
        have hd2 : a.swapDestination = s.token_a := by
          rcases run.dstIs with e | e
          · exact e
          · exact absurd (hd1.trans e.symm) run.srcNeDst
        have hdir : swapDirection s a = .BtoA := by unfold swapDirection; rw [if_neg hd]
        rw [hdir, hd1, hd2] at hq
        rw [hd1] at g1 l3
        rw [hd2] at g2 n2
        rw [g1, g2]
        rw [← n2] at hle
        rw [g1] at l3
        exact PoolStep.sell x.toNat _ x1 hq hle l3

/-- Whole executions. -/
theorem linear_history (he : EnvOk env K) {w w' : World} {k p : Pubkey} {s : SwapV1}
    {c : LinearPriceCurve} (hK : K k) (hp : PoolAt env w k s) (hc : Custody env w k s p)
    (hcf : Configured env s) (hl : s.swap_curve = .linear c) (hf : s.fees = ⟨0, 1, 0, 1, 0, 1, 0, 1⟩)
    (h : Steps env K w w') : PoolAt env w' k s ∧ Custody env w' k s p ∧
    History c (nbal w s.token_a, nbal w s.token_b) (nbal w' s.token_a, nbal w' s.token_b) := by
  induction h with
  | refl => exact ⟨hp, hc, .refl⟩
  | tail _ hstep ih =>
    obtain ⟨i1, i2, i3⟩ := ih
    have := step_pool i1 hstep
    exact ⟨poolAt_congr this.1 this.2 i1, i2.step hK hstep,
      i3.tail (linear_step he hK i1 i2 hcf hl hf hstep)⟩

end Verif
