import Verif.Props.Claim

/-
C107: what the owner of a constant-price pool gets for a trade.
-/

namespace Verif
namespace Props

open Spec Processor

/-- C107 in full: a trade does not lower the worth of a pool token. -/
def C107_statement (env : Env) (K : Pubkey → Prop) : Prop :=
  ∀ (w w' : World) (s : SwapV1) (p : UInt64) (signers : List Pubkey) (a : SwapAccounts) (x y : UInt64),
    Reachable env K w → K a.swap → PoolAt env w a.swap s → s.swap_curve = .constantPrice p →
    (∀ x ∈ signers, ¬ IsPda env K x) → exec env signers (.swap a x y) w = .ok w' →
    vaultsWorth w s p.toNat * shares w' s ≤ vaultsWorth w' s p.toNat * shares w s

theorem ceilDiv_twice {h : Bool} {lim a b q d : Nat} (he : Spl.ceilDiv h lim a b = .ok (q, d)) :
    q * b ≤ 2 * a := by
  obtain ⟨hb, hc⟩ := ceilDiv_ok he
  rcases hc with ⟨hlt, _, hq1, _⟩ | ⟨h1, h2, _, h4, _⟩
  · unfold Spl.ceilDiv at he
    rw [Res.bind_eq_ok] at he
    obtain ⟨q0, hq0, he⟩ := he
    have e0 := (cdiv_eq_ok.1 hq0).2
    rw [Nat.div_eq_of_lt hlt] at e0
    rw [if_pos e0] at he
    split at he
    · rw [Res.bind_eq_ok] at he
      obtain ⟨a2, h2, he⟩ := he
      have e2 := (cmul_eq_ok.1 h2).2
      split at he
      · have : 1 = q := congrArg Prod.fst (Res.ok.inj he)
        rw [← this]
        omega
      · have : 0 = q := congrArg Prod.fst (Res.ok.inj he)
        rw [← this]
        omega
    · cases he
  · obtain ⟨k, rfl⟩ : ∃ k, q = k + 1 := ⟨q - 1, by omega⟩
    rw [Nat.add_sub_cancel] at h4
    rw [Nat.add_mul, Nat.one_mul]
    omega

theorem ceilDiv_one {h : Bool} {lim a b q d : Nat} (he : Spl.ceilDiv h lim a b = .ok (q, d)) :
    (q - 1) * b ≤ a := by
  obtain ⟨hb, hc⟩ := ceilDiv_ok he
  rcases hc with ⟨_, _, hq1, _⟩ | ⟨_, _, _, h4, _⟩
  · rw [show q - 1 = 0 by omega, Nat.zero_mul]; exact Nat.zero_le _
  · omega

/-- C107.  The pool tokens minted for the owner fee are worth, on the balances after the trade, at most
twice the fee, and all but one of them at most the fee. -/
theorem C107_curve (e : SplEnv) (p : UInt64) (x A B S m : Nat) (dir : TradeDirection) (f : Fees)
    (hm : (Curve.constantPrice p).withdrawSingle e x A B S dir f = .ok m) :
    m * worth p.toNat A B ≤ 2 * (worthOf p.toNat dir x * S) ∧
      (m - 1) * worth p.toNat A B ≤ worthOf p.toNat dir x * S := by
  rcases withdrawSingle_inv hm with ⟨_, h0⟩ | ⟨fee, d, _, _, hd⟩
  · rw [h0, Nat.zero_mul]; exact ⟨Nat.zero_le _, Nat.zero_le _⟩
  · have hle : S * worthOf p.toNat dir (x - fee) ≤ worthOf p.toNat dir x * S := by
      rw [Nat.mul_comm]
      apply Nat.mul_le_mul_right
      cases dir
      · exact Nat.sub_le _ _
      · exact Nat.mul_le_mul_left _ (Nat.sub_le _ _)
    exact ⟨le_trans (ceilDiv_twice hd) (Nat.mul_le_mul_left _ hle), le_trans (ceilDiv_one hd) hle⟩

variable {env : Env} {K : Pubkey → Prop}

/-- A swap on a constant-price pool, on the vaults. -/
theorem price_swap {w w' : World} {x : Pubkey} {s : SwapV1} {p : UInt64} {signers : List Pubkey}
    {a : SwapAccounts} {q y : UInt64} (hK : K a.swap) (hp : PoolAt env w a.swap s)
    (hc : Custody env w a.swap s x) (hcf : Configured env s) (hl : s.swap_curve = .constantPrice p)
    (hs : ∀ y ∈ signers, ¬ IsPda env K y) (h : exec env signers (.swap a q y) w = .ok w') :
    ∃ dir of m, s.fees.ownerTradingFee q.toNat = .ok of ∧ shares w' s = shares w s + m ∧
      vaultsWorth w s p.toNat + worthOf p.toNat dir of ≤ vaultsWorth w' s p.toNat ∧
      m * vaultsWorth w' s p.toNat ≤ 2 * (worthOf p.toNat dir of * shares w s) ∧
      (m - 1) * vaultsWorth w' s p.toNat ≤ worthOf p.toNat dir of * shares w s := by
  have hx := hc.isPda hK
  have hab := vault_ne hc
  have e1 : ∀ u, vaultsWorth u s p.toNat = worth p.toNat (nbal u s.token_a) (nbal u s.token_b) :=
    fun _ => rfl
  have e2 : ∀ u, shares u s = nsup u s.pool_mint := fun _ => rfl
  rw [e1, e1, e2, e2]
  have nS := nsup_cast w s.pool_mint
  have nS' := nsup_cast w' s.pool_mint
  obtain ⟨hu, hpr⟩ := exec_swap h
  obtain ⟨ts, src, dst, pm, r, pt, amtIn, amtOut, w1, w2, run⟩ := processSwap_ok hpr
  have es := run.state
  rw [unpackSwap_of hp] at es
  cases es
  obtain ⟨v1, v2⟩ := swap_vaults hK hc hcf hs hu run
  have bs := run.effect.supply s.pool_mint
  rw [when_pos rfl] at bs
  have gS : nsup w' s.pool_mint = nsup w s.pool_mint + pt := by omega
  have tS0 := nsup_mint (run.mintIs ▸ run.mintAcc.2)
  have n1 := nbal_token run.srcTok.2
  have n2 := nbal_token run.dstTok.2
  have hr := run.result
  have hf := run.feeCalc
  rw [hl, ← n1, ← n2] at hr
  rw [hl, ← tS0] at hf
  obtain ⟨_, b2, b3, b4, _⟩ := C07_swap_bounds env.spl _ _ _ _ _ _ r hr
  have hv := C16_swap env.spl p _ _ _ _ _ r hr
  have c1 := nbal_cast w a.swapSource
  have c2 := nbal_cast w a.swapDestination
  have c3 := nbal_cast w' a.swapSource
  have c4 := nbal_cast w' a.swapDestination
  have g1 : nbal w' a.swapSource = nbal w a.swapSource + r.source_amount_swapped := by omega
  have g2 : nbal w' a.swapDestination = nbal w a.swapDestination - r.destination_amount_swapped := by
    omega
  have b5 : r.new_swap_destination_amount = nbal w a.swapDestination - r.destination_amount_swapped := by
    omega
  have hle : ∀ d, worthOf p.toNat d r.owner_fee ≤ worthOf p.toNat d (r.trade_fee + r.owner_fee) := by
    intro d
    cases d
    · exact Nat.le_add_left _ _
    · exact Nat.mul_le_mul_left _ (Nat.le_add_left _ _)
  refine ⟨swapDirection s a, r.owner_fee, pt, ?_, gS, ?_⟩
  · obtain ⟨_, _, h2, _⟩ := Curve.swap_inv hr
    exact h2
  rw [b3, b5, ← g1, ← g2] at hv hf
  by_cases hd : a.swapSource = s.token_a
  · have hd2 : a.swapDestination = s.token_b := by
      rcases run.dstIs with e | e
      · exact absurd (hd.trans e.symm) run.srcNeDst
      · exact e
    have hdir : swapDirection s a = .AtoB := by unfold swapDirection; rw [if_pos hd]
    rw [hdir] at hv hf ⊢
    rw [hd, hd2] at hv hf
    have := hle .AtoB
    exact ⟨by rw [show worth p.toNat (nbal w' s.token_a) (nbal w' s.token_b) = _ from hv]
              exact Nat.add_le_add_left this _,
      C107_curve env.spl p _ _ _ _ pt .AtoB s.fees hf⟩
  · have hd1 : a.swapSource = s.token_b := run.srcIs.resolve_left hd
    have hd2 : a.swapDestination = s.token_a := by
      rcases run.dstIs with e | e
      · exact e
      · exact absurd (hd1.trans e.symm) run.srcNeDst
    have hdir : swapDirection s a = .BtoA := by unfold swapDirection; rw [if_neg hd]
    rw [hdir] at hv hf ⊢
    rw [hd1, hd2] at hv hf
    have := hle .BtoA
    exact ⟨by rw [show worth p.toNat (nbal w' s.token_a) (nbal w' s.token_b) = _ from hv]
              exact Nat.add_le_add_left this _,
      C107_curve env.spl p _ _ _ _ pt .BtoA s.fees hf⟩

/-- C107, what holds: the pool tokens issued in a trade are worth at most twice the owner fee the trader
left in the vaults, so that all the others together lose no more than that fee, and no more than one pool
token. -/
theorem C107_twice_partial (env : Env) (K : Pubkey → Prop) (he : EnvOk env K) (w w' : World) (s : SwapV1)
    (p : UInt64) (signers : List Pubkey) (a : SwapAccounts) (x y : UInt64) (hr : Reachable env K w)
    (hp : PoolAt env w a.swap s) (hl : s.swap_curve = .constantPrice p)
    (hs : ∀ x ∈ signers, ¬ IsPda env K x) (h : exec env signers (.swap a x y) w = .ok w') :
    ∃ dir fee, s.fees.ownerTradingFee x.toNat = .ok fee ∧ shares w s ≤ shares w' s ∧
      vaultsWorth w s p.toNat + worthOf p.toNat dir fee ≤ vaultsWorth w' s p.toNat ∧
      (shares w' s - shares w s) * vaultsWorth w' s p.toNat ≤ 2 * (worthOf p.toNat dir fee * shares w s) ∧
      vaultsWorth w s p.toNat * shares w' s ≤ vaultsWorth w' s p.toNat * (shares w s + 1) ∧
      vaultsWorth w s p.toNat * shares w' s ≤
        vaultsWorth w' s p.toNat * shares w s + worthOf p.toNat dir fee * shares w' s := by
  obtain ⟨w0, hw0, hst⟩ := hr
  obtain ⟨hK, ⟨z, hc⟩, hcf⟩ := reachable_pool he hw0 hst a.swap s hp
  obtain ⟨dir, of, m, h1, h2, h3, h4, h5⟩ := price_swap hK hp hc hcf hl hs h
  refine ⟨dir, of, h1, by omega, h3, ?_, ?_, ?_⟩
  · rw [h2, Nat.add_sub_cancel_left]; exact h4
  · rw [h2]
    generalize vaultsWorth w s p.toNat = V at *
    generalize vaultsWorth w' s p.toNat = V' at *
    generalize worthOf p.toNat dir of = F at *
    generalize shares w s = S at *
    rcases Nat.eq_zero_or_pos m with rfl | hm
    · exact Nat.mul_le_mul (by omega) (by omega)
    · obtain ⟨k, rfl⟩ : ∃ k, m = k + 1 := ⟨m - 1, by omega⟩
      rw [Nat.add_sub_cancel] at h5
      have a1 : (V + F) * (S + 1) ≤ V' * (S + 1) := Nat.mul_le_mul_right _ h3
      have a2 : V * k ≤ k * V' := by rw [Nat.mul_comm]; exact Nat.mul_le_mul_left _ (by omega)
      have e3 : (V + F) * (S + 1) = V * (S + 1) + F * S + F := by ring
      have e4 : V * (S + (k + 1)) = V * (S + 1) + V * k := by ring
      omega
  · rw [h2]
    generalize vaultsWorth w s p.toNat = V at *
    generalize vaultsWorth w' s p.toNat = V' at *
    generalize worthOf p.toNat dir of = F at *
    generalize shares w s = S at *
    have a1 : (V + F) * (S + m) ≤ V' * (S + m) := Nat.mul_le_mul_right _ h3
    have e3 : (V + F) * (S + m) = V * (S + m) + F * S + F * m := by ring
    have e4 : V' * (S + m) = V' * S + m * V' := by ring
    have e5 : F * (S + m) = F * S + F * m := by ring
    omega

/-! ### The owner gains by trading with themselves -/

/-- One percent for the owner, nothing else. -/
def ownerPercent : Fees := ⟨0, 1, 1, 100, 0, 1, 0, 1⟩

/-- A ledger on which the pool of 70 is about to be created, with 10¹² of each token and fees for 50. -/
def richAccounts : List (Pubkey × Account) := [
  (Sample.key 2, ⟨Sample.key 100, .raw (List.replicate 324 0)⟩),
  (Sample.key 13, Sample.tok (Sample.key 20) (Sample.key 130) 1000000000000),
  (Sample.key 14, Sample.tok (Sample.key 21) (Sample.key 130) 1000000000000),
  (Sample.key 15, Sample.mnt (Sample.key 130) 0),
  (Sample.key 16, Sample.tok (Sample.key 15) (Sample.key 50) 0),
  (Sample.key 17, Sample.tok (Sample.key 15) (Sample.key 70) 0),
  (Sample.key 20, Sample.mnt (Sample.key 61) 1000001000000),
  (Sample.key 21, Sample.mnt (Sample.key 61) 1000001000000),
  (Sample.key 30, Sample.tok (Sample.key 20) (Sample.key 50) 1000000),
  (Sample.key 31, Sample.tok (Sample.key 21) (Sample.key 50) 1000000)]

def richLedger : World := Sample.ledger richAccounts

def richPool : World := ranTo [.initConstantPrice Sample.init2 ownerPercent 1] richLedger

/-- 50 trades A for B, and B for A, and gives back the pool tokens minted for the two fees. -/
def goAccounts : SwapAccounts := ⟨Sample.key 2, Sample.key 130, Sample.key 50, Sample.key 30, Sample.key 13,
  Sample.key 14, Sample.key 31, Sample.key 15, Sample.key 16, Sample.key 101⟩
def goThere : Instr := .swap goAccounts 200100 1
def goBack : Instr := .swap ⟨Sample.key 2, Sample.key 130, Sample.key 50, Sample.key 31, Sample.key 14,
  Sample.key 13, Sample.key 30, Sample.key 15, Sample.key 16, Sample.key 101⟩ 200100 1
def cashIn : Instr := .withdrawAll ⟨Sample.key 2, Sample.key 130, Sample.key 50, Sample.key 15,
  Sample.key 16, Sample.key 13, Sample.key 14, Sample.key 30, Sample.key 31, Sample.key 16,
  Sample.key 101⟩ 4 1 1

theorem rich_noPools : NoPools Sample.env richLedger := by
  intro k s h
  by_cases h4 : k = Sample.key 2
  · obtain ⟨_, l, h2, h3⟩ := h
    rw [h4] at h2
    rw [← Data.raw.inj (show Data.raw (List.replicate 324 0) = Data.raw l from h2)] at h3
    exact unpack_zeros _ _ h3
  · have ho := h.1
    have e : richLedger k = Sample.ledger (richAccounts.drop 1) k := by
      unfold richLedger richAccounts
      simp only [Sample.ledger, if_neg h4, List.drop_succ_cons, List.drop_zero]
    rw [e] at ho
    exact sample_owner _ (by decide) k ho

theorem richPool_reachable : Reachable Sample.env samplePools richPool :=
  ⟨_, rich_noPools, sample_steps _ _ _ (by
    intro i hi
    simp only [List.mem_cons, List.not_mem_nil, or_false] at hi
    rw [hi]; exact Or.inr rfl) (ranTo_ok (by decide +kernel))⟩

/-- What it stores. -/
def poolRich : SwapV1 := ⟨true, 255, Sample.key 101, Sample.key 13, Sample.key 14, Sample.key 15,
  Sample.key 20, Sample.key 21, Sample.key 16, ownerPercent, .constantPrice 1⟩

theorem rich_pool : PoolAt Sample.env richPool (Sample.key 2) poolRich :=
  pool_of (by decide +kernel) (by decide +kernel)

/-- C107.  The one who gets the owner's fees, and has no pool tokens, trades there and back and cashes in
the pool tokens minted for the two fees: they end with 1998 more of each token than they began with, all of
it from the holders of the other pool tokens. -/
theorem C107_gain : ∃ w', Steps Sample.env samplePools richPool w' ∧
    Sample.run Sample.env [goThere, goBack, cashIn] richPool = .ok w' ∧
    Sample.bals [30, 31, 16, 13, 14] richPool = [1000000, 1000000, 0, 1000000000000, 1000000000000] ∧
    Sample.bals [30, 31, 16, 13, 14] w' = [1001998, 1001998, 0, 999999998002, 999999998002] := by
  have h : Sample.after (Sample.run Sample.env [goThere, goBack, cashIn] richPool)
    (Sample.bals [30, 31, 16, 13, 14]) = .ok [1001998, 1001998, 0, 999999998002, 999999998002] := by
      decide +kernel
  have h1 : isOk (Sample.run Sample.env [goThere, goBack, cashIn] richPool) = true := by decide +kernel
  obtain ⟨w', hw⟩ := of_isOk h1
  refine ⟨w', sample_steps _ _ _ ?_ hw, hw, by decide +kernel, ?_⟩
  · intro i hi
    simp only [List.mem_cons, List.not_mem_nil, or_false] at hi
    rcases hi with rfl | rfl | rfl <;> exact Or.inr rfl
  · rw [hw] at h
    exact Except.ok.inj h

/-- A second round brings the same again. -/
example : Sample.after (Sample.run Sample.env [goThere, goBack, cashIn, goThere, goBack, cashIn] richPool)
    (Sample.bals [30, 31, 16, 13, 14]) = .ok [1003996, 1003996, 0, 999999996004, 999999996004] := by
  decide +kernel

theorem rich_trade : exec Sample.env [Sample.key 1, Sample.key 2, Sample.key 50] (.swap goAccounts 200100 1)
    richPool = .ok (ranTo [goThere] richPool) := exec_ranTo (i := goThere) (by decide +kernel)

/-- C107 is false of the code: the fee of 2001 A, worth a little more than one pool token, mints two. -/
theorem C107_false : ¬ ∀ (env : Env) (K : Pubkey → Prop), EnvOk env K → C107_statement env K := by
  intro hall
  have := hall Sample.env samplePools sample_ok richPool (ranTo [goThere] richPool) poolRich 1 _
    goAccounts 200100 1 richPool_reachable (Or.inr rfl) rich_pool rfl sample_signers rich_trade
  revert this
  decide +kernel

example := C107_twice_partial Sample.env samplePools sample_ok richPool (ranTo [goThere] richPool) poolRich
  1 _ goAccounts 200100 1 richPool_reachable rich_pool rfl sample_signers rich_trade

example : 2 * worth 1 1000000200100 999999801901 ≤ 2 * (worthOf 1 .AtoB 2001 * 1000000000) ∧
    (2 - 1) * worth 1 1000000200100 999999801901 ≤ worthOf 1 .AtoB 2001 * 1000000000 :=
  C107_curve ⟨true, fun _ => .none⟩ 1 2001 1000000200100 999999801901 1000000000 2 .AtoB ownerPercent
    (by decide +kernel)

end Props
end Verif
