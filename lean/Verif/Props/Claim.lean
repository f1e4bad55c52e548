import Verif.Lemmas.ChainPrice
import Verif.Props.Live
import Mathlib.Tactic.FieldSimp
import Mathlib.Tactic.Positivity

/-
C69: what belongs to a holder of pool tokens of a constant-price pool, over whole executions.
-/

namespace Verif
namespace Props

open Spec Processor

/-- C69 in full: no instruction costs a holder more than the larger of one token A and one pool
token. -/
def C69_statement (env : Env) (K : Pubkey → Prop) : Prop :=
  ∀ (w w' : World) (k : Pubkey) (s : SwapV1) (p : UInt64) (signers : List Pubkey) (i : Instr) (h : Nat),
    Reachable env K w → PoolAt env w k s → s.swap_curve = .constantPrice p → K i.pool →
    (∀ x ∈ signers, ¬ IsPda env K x) → exec env signers i w = .ok w' → 0 < h → h ≤ shares w s →
    h ≤ shares w' s →
    claim w s p.toNat h ≤ claim w' s p.toNat h + max 1 ((vaultsWorth w s p.toNat : ℚ) / shares w' s)

theorem claim_le {V S V' S' L h : Nat} (h0 : 0 < h) (h1 : h ≤ S) (h2 : h ≤ S')
    (hk : V * S' ≤ V' * S + L) :
    (h * V / S : ℚ) ≤ h * V' / S' + L / S' := by
  have p1 : (0 : ℚ) < S := by exact_mod_cast lt_of_lt_of_le h0 h1
  have p2 : (0 : ℚ) < S' := by exact_mod_cast lt_of_lt_of_le h0 h2
  have q1 : (h : ℚ) ≤ S := by exact_mod_cast h1
  have q0 : (0 : ℚ) ≤ h := Nat.cast_nonneg _
  have q2 : (V * S' : ℚ) ≤ V' * S + L := by exact_mod_cast hk
  have q3 : (0 : ℚ) ≤ L := Nat.cast_nonneg _
  rw [← add_div, div_le_div_iff₀ p1 p2]
  nlinarith [mul_le_mul_of_nonneg_left q2 q0, mul_le_mul_of_nonneg_right q1 q3]

variable (env : Env) (K : Pubkey → Prop) (he : EnvOk env K)
include he

/-- C69.  No instruction but a single-sided withdrawal from a pool with a trade fee costs a holder of
pool tokens more than one token A or one pool token; without an owner fee on trades, not more than
one token A. -/
theorem C69_step_partial (w w' : World) (hr : Reachable env K w) (k : Pubkey) (s : SwapV1)
    (hp : PoolAt env w k s) (p : UInt64) (hl : s.swap_curve = .constantPrice p)
    (signers : List Pubkey) (i : Instr) (hi : K i.pool) (hs : ∀ x ∈ signers, ¬ IsPda env K x)
    (h : exec env signers i w = .ok w') (n : Nat) (h0 : 0 < n) (h1 : n ≤ shares w s)
    (h2 : n ≤ shares w' s)
    (hno : s.fees.trade_fee_numerator = 0 ∨ ∀ a x y, i = .withdrawSingle a x y → i.pool ≠ k) :
    claim w s p.toNat n ≤ claim w' s p.toNat n + max 1 ((vaultsWorth w s p.toNat : ℚ) / shares w' s) ∧
    (s.fees.owner_trade_fee_numerator = 0 ∨ (∀ a x y, i = .swap a x y → i.pool ≠ k) →
      claim w s p.toNat n ≤ claim w' s p.toNat n + 1) := by
  obtain ⟨w0, hw0, hst⟩ := hr
  obtain ⟨hK, ⟨x, hc⟩, hcf⟩ := reachable_pool he hw0 hst k s hp
  have hpos : 0 < shares w s := lt_of_lt_of_le h0 h1
  have p2 : (0 : ℚ) < shares w' s := by exact_mod_cast lt_of_lt_of_le h0 h2
  have small : ∀ L, vaultsWorth w s p.toNat * shares w' s ≤
      vaultsWorth w' s p.toNat * shares w s + L → L ≤ shares w' s →
      claim w s p.toNat n ≤ claim w' s p.toNat n + 1 := by
    intro L hk hL
    refine le_trans (claim_le h0 h1 h2 hk) ((add_le_add_iff_left _).2 ?_)
    rw [div_le_one p2]
    exact_mod_cast hL
  have both : claim w s p.toNat n ≤ claim w' s p.toNat n + 1 →
      claim w s p.toNat n ≤ claim w' s p.toNat n + max 1 ((vaultsWorth w s p.toNat : ℚ) / shares w' s) ∧
    (s.fees.owner_trade_fee_numerator = 0 ∨ (∀ a x y, i = .swap a x y → i.pool ≠ k) →
      claim w s p.toNat n ≤ claim w' s p.toNat n + 1) :=
    fun hh => ⟨le_trans hh ((add_le_add_iff_left _).2 (le_max_left _ _)), fun _ => hh⟩
  cases price_step he hK hp hc hcf hl hpos hi hs h with
  | idle g1 g2 =>
    exact both (small 0 (by rw [Nat.add_zero]; exact Nat.mul_le_mul g1 g2) (Nat.zero_le _))
  | fair g => exact both (small 0 g (Nat.zero_le _))
  | deposit m g1 g2 => exact both (small m g2 (by omega))
  | single hsi y fee dir g1 g2 =>
    obtain ⟨hpk, a, q, z, hi'⟩ := hsi
    rcases hno with hz | hz
    · have : fee = 0 := by
        unfold Fees.tradingFee calculateFee at g1
        rw [if_pos (Or.inl (by rw [hz]; rfl))] at g1
        exact (Res.ok.inj g1).symm
      rw [this, show worthOf p.toNat dir 0 = 0 by cases dir <;> simp [worthOf]] at g2
      exact both (small 0 g2 (Nat.zero_le _))
    · exact absurd hpk (hz a q z hi')
  | swap m hsi g1 g2 g3 =>
    rcases Nat.eq_zero_or_pos m with h3 | h3
    · rw [h3] at g1 g2
      exact both (small 0 (by rw [g1]; exact g2) (Nat.zero_le _))
    · refine ⟨le_trans (claim_le h0 h1 h2 (L := vaultsWorth w s p.toNat) ?_)
        ((add_le_add_iff_left _).2 (le_max_right _ _)), ?_⟩
      · rw [g1, show shares w s + m = shares w s + (m - 1) + 1 by omega, Nat.mul_add, Nat.mul_one]
        exact Nat.add_le_add_right g2 _
      · rintro (hz | hz)
        · have := g3 hz
          omega
        · obtain ⟨hpk, a, q, z, hi'⟩ := hsi
          exact absurd hpk (hz a q z hi')

/-- C69.  A single-sided withdrawal costs the other holders at most the trade fee on half of it. -/
theorem C69_withdraw_single_partial (w w' : World) (hr : Reachable env K w) (s : SwapV1)
    (signers : List Pubkey) (hs : ∀ x ∈ signers, ¬ IsPda env K x) (a : WithdrawSingleAccounts)
    (x y : UInt64) (hp : PoolAt env w a.swap s) (p : UInt64) (hl : s.swap_curve = .constantPrice p)
    (h : exec env signers (.withdrawSingle a x y) w = .ok w') (n : Nat) (h0 : 0 < n)
    (h1 : n ≤ shares w s) (h2 : n ≤ shares w' s) :
    ∃ fee dir, s.fees.tradingFee (max 1 (x.toNat / 2)) = .ok fee ∧
      claim w s p.toNat n ≤ claim w' s p.toNat n + worthOf p.toNat dir fee := by
  obtain ⟨w0, hw0, hst⟩ := hr
  obtain ⟨hK, ⟨z, hc⟩, hcf⟩ := reachable_pool he hw0 hst a.swap s hp
  obtain ⟨fee, dir, g1, g2⟩ := price_single hK hp hc hcf hl hs h
  refine ⟨fee, dir, g1, ?_⟩
  have p2 : (0 : ℚ) < shares w' s := by exact_mod_cast lt_of_lt_of_le h0 h2
  have q2 : (n : ℚ) ≤ shares w' s := by exact_mod_cast h2
  have q3 : (0 : ℚ) ≤ worthOf p.toNat dir fee := Nat.cast_nonneg _
  have := claim_le (L := 0) h0 h1 h2 g2
  rw [Nat.cast_zero, zero_div, add_zero, Nat.cast_add, mul_add, add_div] at this
  refine le_trans this ((add_le_add_iff_left _).2 ?_)
  rw [div_le_iff₀ p2]
  nlinarith

/-- C69.  Over any execution on a pool without trade fees, a holder of `h` pool tokens loses at most
one token A for each instruction on the pool. -/
theorem C69_history_partial (w w' : World) (hr : Reachable env K w) (k : Pubkey) (s : SwapV1)
    (hp : PoolAt env w k s) (p : UInt64) (hl : s.swap_curve = .constantPrice p)
    (hz : s.fees.trade_fee_numerator = 0) (hz' : s.fees.owner_trade_fee_numerator = 0) (h n : Nat)
    (h0 : 0 < h) (h1 : h ≤ shares w s) (hw : While env K k s h w n w') :
    claim w s p.toNat h ≤ claim w' s p.toNat h + n := by
  have key : Reachable env K w' ∧ PoolAt env w' k s ∧ h ≤ shares w' s ∧
      claim w s p.toNat h ≤ claim w' s p.toNat h + n := by
    induction hw with
    | start => exact ⟨hr, hp, h1, by rw [Nat.cast_zero, add_zero]⟩
    | @other m u u' _ hstep hle ih =>
      obtain ⟨⟨w0, hw0, hst⟩, i2, i3, i4⟩ := ih
      obtain ⟨hK, ⟨x, hc⟩, _⟩ := reachable_pool he hw0 hst k s i2
      have hs1 : Step env K u u' := .other hstep
      have hsp := step_pool i2 hs1
      refine ⟨⟨w0, hw0, hst.tail hs1⟩, poolAt_congr hsp.1 hsp.2 i2, hle, le_trans i4 ?_⟩
      obtain ⟨g1, g2⟩ := price_env hK hc hstep p.toNat
      have := claim_le (L := 0) h0 i3 hle (V := vaultsWorth u s p.toNat)
        (V' := vaultsWorth u' s p.toNat) (by rw [Nat.add_zero]; exact Nat.mul_le_mul g1 g2)
      rw [Nat.cast_zero, zero_div, add_zero] at this
      exact (add_le_add_iff_right _).2 this
    | @instr m u u' signers i _ hi hs hx hle ih =>
      obtain ⟨⟨w0, hw0, hst⟩, i2, i3, i4⟩ := ih
      have hs1 : Step env K u u' := .instr signers i hi hs hx
      have hsp := step_pool i2 hs1
      refine ⟨⟨w0, hw0, hst.tail hs1⟩, poolAt_congr hsp.1 hsp.2 i2, hle, le_trans i4 ?_⟩
      by_cases hk : i.pool = k
      · rw [if_pos hk]
        have := (C69_step_partial env K he u u' ⟨w0, hw0, hst⟩ k s i2 p hl signers i hi hs hx h h0 i3
          hle (Or.inl hz)).2 (Or.inl hz')
        push_cast
        linarith
      · rw [if_neg hk]
        obtain ⟨hK, ⟨x, hc⟩, _⟩ := reachable_pool he hw0 hst k s i2
        obtain ⟨g1, g2⟩ := price_elsewhere he hK hc hi hs hx hk p.toNat
        have := claim_le (L := 0) h0 i3 hle (V := vaultsWorth u s p.toNat)
          (V' := vaultsWorth u' s p.toNat) (by rw [Nat.add_zero]; exact Nat.mul_le_mul g1 g2)
        rw [Nat.cast_zero, zero_div, add_zero] at this
        exact (add_le_add_iff_right _).2 this
  exact key.2.2.2

omit he

/-! ### The trade fee is a gift to those who leave -/

/-- Fees of the sample pool in the next results: a trade fee of 0.25%, nothing else. -/
def tradeFeeOnly : Fees := ⟨25, 10000, 0, 1, 0, 1, 0, 1⟩

/-- The ledger an execution leads to. -/
def ranTo (is : List Instr) (w : World) : World :=
  match Sample.run Sample.env is w with
  | .ok w' => w'
  | .error _ => w

theorem ranTo_ok {is : List Instr} {w : World} (h : isOk (Sample.run Sample.env is w) = true) :
    Sample.run Sample.env is w = .ok (ranTo is w) := by
  obtain ⟨w', hw⟩ := of_isOk h
  have : ranTo is w = w' := by unfold ranTo; rw [hw]
  rw [this]
  exact hw

theorem exec_ranTo {i : Instr} {w : World} (h : isOk (Sample.run Sample.env [i] w) = true) :
    exec Sample.env [Sample.key 1, Sample.key 2, Sample.key 50] i w = .ok (ranTo [i] w) := by
  have := ranTo_ok h
  rw [Sample.run, Except_bind_ok] at this
  obtain ⟨u, h1, h2⟩ := this
  rw [h1]
  exact h2

theorem pool_of {w : World} {k : Pubkey} {s : SwapV1} (ho : (w k).owner = Sample.env.programId)
    (h : (match unpackSwap w k with
      | .ok s' => decide (s' = s)
      | .error _ => false) = true) : PoolAt Sample.env w k s := by
  cases e : unpackSwap w k with
  | error _ => rw [e] at h; cases h
  | ok s' =>
    rw [e] at h
    rw [← of_decide_eq_true h]
    exact poolAt_of ho e

/-- The sample ledger with pool 2 charging these fees. -/
def feePool : World := ranTo [.initConstantPrice Sample.init2 tradeFeeOnly 7] Sample.start

/-- What it stores. -/
def poolFee : SwapV1 := ⟨true, 255, Sample.key 101, Sample.key 13, Sample.key 14, Sample.key 15,
  Sample.key 20, Sample.key 21, Sample.key 16, tradeFeeOnly, .constantPrice 7⟩

theorem feePool_reachable : Reachable Sample.env samplePools feePool :=
  ⟨_, sample_start, sample_steps _ _ _ (by
    intro i hi
    simp only [List.mem_cons, List.not_mem_nil, or_false] at hi
    rw [hi]; exact Or.inr rfl) (ranTo_ok (by decide +kernel))⟩

/-- A holder joins with both tokens and leaves with either. -/
def join : Instr :=
  .depositAll ⟨Sample.key 2, Sample.key 130, Sample.key 50, Sample.key 30, Sample.key 31,
    Sample.key 13, Sample.key 14, Sample.key 15, Sample.key 17, Sample.key 101⟩ 1000000000 10000 10000
def leaveA : Instr :=
  .withdrawSingle ⟨Sample.key 2, Sample.key 130, Sample.key 50, Sample.key 15, Sample.key 17,
    Sample.key 13, Sample.key 14, Sample.key 30, Sample.key 16, Sample.key 101⟩ 4951 1000000000
def leaveB : Instr :=
  .withdrawSingle ⟨Sample.key 2, Sample.key 130, Sample.key 50, Sample.key 15, Sample.key 17,
    Sample.key 13, Sample.key 14, Sample.key 31, Sample.key 16, Sample.key 101⟩ 708 1000000000

/-- C69.  Joining with both tokens and leaving with one after the other pays: with a trade fee of
0.25% the user ends up with more token A, as many token B and more pool tokens than before. -/
theorem C69_round_trip_gains : ∃ w', Steps Sample.env samplePools feePool w' ∧
    Sample.run Sample.env [join, leaveA, leaveB] feePool = .ok w' ∧
    Sample.bals [30, 31, 17] feePool = [20000, 20000, 1000000000] ∧
    Sample.bals [30, 31, 17] w' = [20001, 20000, 1000706964] := by
  have h : Sample.after (Sample.run Sample.env [join, leaveA, leaveB] feePool)
    (Sample.bals [30, 31, 17]) = .ok [20001, 20000, 1000706964] := by decide +kernel
  have h1 : isOk (Sample.run Sample.env [join, leaveA, leaveB] feePool) = true := by decide +kernel
  obtain ⟨w', hw⟩ := of_isOk h1
  refine ⟨w', sample_steps _ _ _ ?_ hw, hw, by decide +kernel, ?_⟩
  · intro i hi
    simp only [List.mem_cons, List.not_mem_nil, or_false] at hi
    rcases hi with rfl | rfl | rfl <;> exact Or.inr rfl
  · rw [hw] at h
    exact Except.ok.inj h

/-- C69 is false of the code: the first of the two withdrawals takes 4 token A from the holders of
the other thousand million pool tokens. -/
theorem C69_false : ¬ ∀ (env : Env) (K : Pubkey → Prop), EnvOk env K → C69_statement env K := by
  intro hall
  have r1 := ranTo_ok (is := [join]) (w := feePool) (by decide +kernel)
  have st : Steps Sample.env samplePools feePool (ranTo [join] feePool) := sample_steps _ _ _ (by
    intro i hi
    simp only [List.mem_cons, List.not_mem_nil, or_false] at hi
    rw [hi]; exact Or.inr rfl) r1
  obtain ⟨w0, hw0, hst⟩ := feePool_reachable
  have ex : exec Sample.env [Sample.key 1, Sample.key 2, Sample.key 50] leaveA (ranTo [join] feePool) =
      .ok (ranTo [leaveA] (ranTo [join] feePool)) := by
    exact exec_ranTo (by decide +kernel)
  have v1 : vaultsWorth (ranTo [join] feePool) poolFee 7 = 19806 := by decide +kernel
  have s1 : shares (ranTo [join] feePool) poolFee = 2000000000 := by decide +kernel
  have v2 : vaultsWorth (ranTo [leaveA] (ranTo [join] feePool)) poolFee 7 = 14855 := by decide +kernel
  have s2 : shares (ranTo [leaveA] (ranTo [join] feePool)) poolFee = 1500656366 := by decide +kernel
  have := hall Sample.env samplePools sample_ok (ranTo [join] feePool)
    (ranTo [leaveA] (ranTo [join] feePool)) (Sample.key 2) poolFee 7 _ leaveA 1000000000
    ⟨w0, hw0, hst.trans st⟩ (pool_of (by decide +kernel) (by decide +kernel)) rfl (Or.inr rfl)
    sample_signers ex (by decide) (by rw [s1]; decide) (by rw [s2]; decide)
  unfold claim at this
  rw [show (7 : UInt64).toNat = 7 from rfl, v1, v2, s1, s2] at this
  norm_num at this

/-! The hypotheses of the positive results are met on the sample ledgers. -/

example : claim live pool2 7 1000000000 ≤
    claim (ranTo [Sample.depAll] live) pool2 7 1000000000 + 1 :=
  (C69_step_partial Sample.env samplePools sample_ok live (ranTo [Sample.depAll] live) live_reachable
    (Sample.key 2) pool2 live_pool2 7 rfl _ Sample.depAll (Or.inr rfl) sample_signers
    (exec_ranTo (by decide +kernel)) 1000000000 (by decide) (by decide +kernel) (by decide +kernel)
    (Or.inr fun _ _ _ h => by cases h)).2 (Or.inr fun _ _ _ h => by cases h)

/-- That deposit in fact costs the holder nothing. -/
example : vaultsWorth live pool2 7 * shares (ranTo [Sample.depAll] live) pool2 ≤
    vaultsWorth (ranTo [Sample.depAll] live) pool2 7 * shares live pool2 := by decide +kernel

example : ∃ fee dir, poolFee.fees.tradingFee (max 1 (4951 / 2)) = .ok fee ∧
    claim (ranTo [join] feePool) poolFee 7 1000000000 ≤
      claim (ranTo [leaveA] (ranTo [join] feePool)) poolFee 7 1000000000 + worthOf 7 dir fee := by
  obtain ⟨w0, hw0, hst⟩ := feePool_reachable
  have st : Steps Sample.env samplePools feePool (ranTo [join] feePool) := sample_steps _ _ _ (by
    intro i hi
    simp only [List.mem_cons, List.not_mem_nil, or_false] at hi
    rw [hi]; exact Or.inr rfl) (ranTo_ok (by decide +kernel))
  exact C69_withdraw_single_partial Sample.env samplePools sample_ok _ _ ⟨w0, hw0, hst.trans st⟩
    poolFee _ sample_signers _ _ _ (pool_of (by decide +kernel) (by decide +kernel)) 7 rfl
    (exec_ranTo (i := leaveA) (by decide +kernel)) 1000000000 (by decide) (by decide +kernel)
    (by decide +kernel)

/-- A pool without fees, a purchase on it, and somebody joining it. -/
def freePool : World :=
  ranTo [.initConstantPrice Sample.init2 ⟨0, 1, 0, 1, 0, 1, 0, 1⟩ 7] Sample.start

def poolFree : SwapV1 := { poolFee with fees := ⟨0, 1, 0, 1, 0, 1, 0, 1⟩ }

example : claim freePool poolFree 7 1000000000 ≤
    claim (ranTo [join] (ranTo [Sample.trade] freePool)) poolFree 7 1000000000 + (2 : Nat) := by
  have hr : Reachable Sample.env samplePools freePool := ⟨_, sample_start, sample_steps _ _ _ (by
    intro i hi
    simp only [List.mem_cons, List.not_mem_nil, or_false] at hi
    rw [hi]; exact Or.inr rfl) (ranTo_ok (by decide +kernel))⟩
  refine C69_history_partial Sample.env samplePools sample_ok freePool _ hr (Sample.key 2) poolFree
    (pool_of (by decide +kernel) (by decide +kernel)) 7 rfl rfl rfl 1000000000 2 (by decide)
    (by decide +kernel) ?_
  have h1 : While Sample.env samplePools (Sample.key 2) poolFree 1000000000 freePool 1
      (ranTo [Sample.trade] freePool) :=
    .instr _ Sample.trade .start (Or.inr rfl) sample_signers (exec_ranTo (by decide +kernel))
      (by decide +kernel)
  exact .instr _ join h1 (Or.inr rfl) sample_signers (exec_ranTo (by decide +kernel))
    (by decide +kernel)

end Props
end Verif
