import Verif.Lemmas.StuckPool
import Verif.Props.Exit
import Verif.Props.Claim

/-
C75: when the program aborts.  C76: linear pools that cannot trade.
-/

namespace Verif
namespace Props

open Spec Processor

section
variable (env : Env) (K : Pubkey → Prop) (he : EnvOk env K)
include he

/-- C75.  On every reachable ledger an instruction aborts only in the listed situations: a linear pool
that cannot compute its position, a one-sided deposit or withdrawal of more than `2^64` times the
pool, or the initialisation of an account without space. -/
theorem C75_abort (w : World) (hr : Reachable env K w) (signers : List Pubkey) (i : Instr)
    (h : exec env signers i w = .error .Panic) : Aborts env w i := by
  obtain ⟨w0, hw0, hst⟩ := id hr
  unfold exec at h
  have h := (rq_panic h nofun).2
  have kind : ∀ {k s}, PoolAt env w k s → (∃ p, s.swap_curve = .constantPrice p) ∨
      ∃ l, s.swap_curve = .linear l := by
    intro k s hp
    obtain ⟨_, _, hcf⟩ := reachable_pool he hw0 hst k s hp
    rcases hcf.kind with h | ⟨l, h, _⟩
    · exact Or.inl h
    · exact Or.inr ⟨l, h⟩
  have mintA : ∀ {k s t}, PoolAt env w k s → (w s.token_a).data = .token t →
      t.mint = s.token_a_mint := by
    intro k s t hp ht
    obtain ⟨_, ⟨x, hc⟩, _⟩ := reachable_pool he hw0 hst k s hp
    obtain ⟨_, t', ht', hm, _⟩ := hc.vaultA
    rw [ht] at ht'
    cases ht'
    exact hm
  have single : ∀ {k s p tA tB sa dir} {u : Pubkey} {x : UInt64}, PoolAt env w k s →
      (w s.token_a).data = .token tA → (w s.token_b).data = .token tB →
      (w u).data = .token sa → singleDirection sa.mint tA.mint tB.mint = .ok dir →
      2 ^ 64 * worth p tA.amount.toNat tB.amount.toNat < worthOf p dir x.toNat →
      2 ^ 64 * vaultsWorth w s p < givenWorth w s p u x.toNat := by
    intro k s p tA tB sa dir u x hp hA hB hu hd hw
    have e1 : vaultsWorth w s p = worth p tA.amount.toNat tB.amount.toNat := by
      unfold vaultsWorth
      rw [bal_token hA, bal_token hB, Int.toNat_natCast, Int.toNat_natCast]
    have e2 : givenWorth w s p u x.toNat = worthOf p dir x.toNat := by
      unfold givenWorth
      rw [hu]
      simp only []
      rw [← mintA hp hA]
      rcases singleDirection_ok hd with ⟨e, rfl⟩ | ⟨e, _, rfl⟩
      · rw [if_pos e]; rfl
      · rw [if_neg e]; rfl
    rw [e1, e2]
    exact hw
  cases i with
  | initConstantPrice a f p => exact .blankPrice a f p (processInitialize_panic h)
  | initLinearPrice a c => exact .blankLinear a c (processInitialize_panic h)
  | swap a x y =>
    obtain ⟨s, src, dst, pm, hp, hsrc, hdst, hpm, hdir, h⟩ := processSwap_panic h
    rcases kind hp with ⟨p, hk⟩ | ⟨c, hk⟩
    · exfalso
      rw [hk] at h
      rcases h with h | ⟨r, hr', h⟩
      · obtain ⟨z, _, h⟩ := Curve.swap_panic h
        exact ConstantPrice.swapWithoutFees_np h
      · exact swap_fee_np pm.supply.toNat_lt hr' h
    · refine .linear a x y hp hk ?_
      have hv := Exit.valid he hr hp hk
      rw [hk] at h
      rcases h with h | ⟨r, _, h⟩
      · obtain ⟨z, hz, h⟩ := Curve.swap_panic h
        have h' := Linear.swapWithoutFees_panic hv (lt_of_le_of_lt hz x.toNat_lt)
          src.amount.toNat_lt dst.amount.toNat_lt h
        rcases hdir with ⟨e, e1, e2⟩ | ⟨e, e1, e2⟩
        · rw [e] at h'
          rw [e1] at hsrc
          rw [bal_token hsrc, Int.toNat_natCast]
          exact h'
        · rw [e] at h'
          rw [e2] at hdst
          rw [bal_token hdst, Int.toNat_natCast]
          exact h'
      · exact absurd h single_linear.2
  | depositAll a x y z =>
    exfalso
    obtain ⟨s, P, S, A, B, hp, hd, h⟩ := processDepositAll_panic h
    rcases kind hp with ⟨p, hk⟩ | ⟨c, hk⟩
    · rw [hk] at h
      unfold Curve.poolTokensToTradingTokens at h
      exact ConstantPrice.poolTokensToTradingTokens_np h
    · rw [hk] at hd
      cases hd
  | withdrawAll a x y z =>
    exfalso
    obtain ⟨s, P, S, A, B, hp, h⟩ := processWithdrawAll_panic h
    rcases kind hp with ⟨p, hk⟩ | ⟨c, hk⟩
    · rw [hk] at h
      unfold Curve.poolTokensToTradingTokens at h
      exact ConstantPrice.poolTokensToTradingTokens_np h
    · rw [hk] at h
      cases h
  | depositSingle a x y =>
    obtain ⟨s, sa, tA, tB, pm, dir, hp, hsa, hA, hB, hM, hd, h⟩ := processDepositSingle_panic h
    rcases kind hp with ⟨p, hk⟩ | ⟨c, hk⟩
    · rw [hk] at h
      exact .deposit a x y hp hk
        (single hp hA hB hsa hd (single_panic pm.supply.toNat_lt (Or.inl h)))
    · rw [hk] at h
      exact absurd h single_linear.1
  | withdrawSingle a x y =>
    obtain ⟨s, sa, tA, tB, pm, dir, hp, hsa, hA, hB, hM, hd, h⟩ := processWithdrawSingle_panic h
    rcases kind hp with ⟨p, hk⟩ | ⟨c, hk⟩
    · rw [hk] at h
      exact .withdraw a x y hp hk
        (single hp hA hB hsa hd (single_panic pm.supply.toNat_lt (Or.inr h)))
    · rw [hk] at h
      exact absurd h single_linear.2

/-- C75.  Deposits and withdrawals of both tokens never abort, and neither does a swap on a
constant-price pool. -/
theorem C75_never (w : World) (hr : Reachable env K w) (signers : List Pubkey) :
    (∀ a x y z, exec env signers (.depositAll a x y z) w ≠ .error .Panic) ∧
    (∀ a x y z, exec env signers (.withdrawAll a x y z) w ≠ .error .Panic) ∧
    ∀ a x y s p, PoolAt env w a.swap s → s.swap_curve = .constantPrice p →
      exec env signers (.swap a x y) w ≠ .error .Panic := by
  refine ⟨fun a x y z h => ?_, fun a x y z h => ?_, fun a x y s p hp hk h => ?_⟩
  · cases C75_abort env K he w hr signers _ h
  · cases C75_abort env K he w hr signers _ h
  · cases C75_abort env K he w hr signers _ h with
    | linear _ _ _ hp' hk' _ =>
      have es := unpackSwap_of hp
      rw [unpackSwap_of hp'] at es
      cases es
      rw [hk] at hk'
      cases hk'

/-- C75.  Conversely no swap on a linear pool succeeds while the pool cannot compute its position. -/
theorem C75_stuck (w w' : World) (hr : Reachable env K w) (signers : List Pubkey)
    (a : SwapAccounts) (x y : UInt64) (s : SwapV1) (hp : PoolAt env w a.swap s) (c : LinearPriceCurve) (hk : s.swap_curve = .linear c)
    (hst : Stuck c (bal w s.token_a).toNat) : exec env signers (.swap a x y) w ≠ .ok w' := by
  intro h
  have hv := Exit.valid he hr hp hk
  obtain ⟨_, h⟩ := exec_swap h
  obtain ⟨ts, src, dst, pm, r, _, _, _, _, _, run⟩ := processSwap_ok h
  have es := run.state
  rw [unpackSwap_of hp] at es
  cases es
  have hres := run.result
  rw [hk] at hres
  obtain ⟨z, q, hq⟩ := swap_inner hres
  have hA : heldA (swapDirection s a) src.amount.toNat dst.amount.toNat = (bal w s.token_a).toNat := by
    unfold swapDirection
    split
    · rename_i e
      have := run.srcTok.2
      rw [e] at this
      rw [bal_token this, Int.toNat_natCast]
      rfl
    · rename_i e
      have h1 : a.swapDestination = s.token_a := by
        rcases run.dstIs with h2 | h2
        · exact h2
        · rcases run.srcIs with h3 | h3
          · exact absurd h3 e
          · exact absurd (h3.trans h2.symm) run.srcNeDst
      have := run.dstTok.2
      rw [h1] at this
      rw [bal_token this, Int.toNat_natCast]
      rfl
  rw [← hA] at hst
  have hx := Linear.swapWithoutFees_stuck (s := z) hv src.amount.toNat_lt dst.amount.toNat_lt hst
  have : Linear.swapWithoutFees c z src.amount.toNat dst.amount.toNat (swapDirection s a) = .ok q := hq
  rw [hx] at this
  cases this

/-- C76.  A stuck pool whose band reaches beyond every possible balance is locked: in every later
state of the chain it is still stuck, no swap on it succeeds, and neither vault ever shrinks. -/
theorem C76_locked (w w' : World) (hr : Reachable env K w) (k : Pubkey) (s : SwapV1)
    (hp : PoolAt env w k s) (c : LinearPriceCurve) (hk : s.swap_curve = .linear c) (h : Nat)
    (h1 : 1 ≤ h) (hlo : (2 ^ 64 - 1) * 4 ^ h < rootArg c (bal w s.token_a).toNat)
    (hhi : rootArg c (2 ^ 64 - 1) < 2 ^ 64 * 4 ^ h) (hst : Steps env K w w') :
    bal w s.token_a ≤ bal w' s.token_a ∧ bal w s.token_b ≤ bal w' s.token_b ∧
      Stuck c (bal w' s.token_a).toNat ∧
      ∀ signers a x y w'', a.swap = k → exec env signers (.swap a x y) w' ≠ .ok w'' := by
  have hv := Exit.valid he hr hp hk
  have inBand : ∀ A, (bal w s.token_a).toNat ≤ A → A < 2 ^ 64 → Stuck c A := by
    intro A hA hA2
    have m1 := rootArg_mono c hA
    have m2 := rootArg_mono c (show A ≤ 2 ^ 64 - 1 by omega)
    exact ⟨h, h1, by omega, by omega⟩
  have key : Reachable env K w' ∧ PoolAt env w' k s ∧ bal w s.token_a ≤ bal w' s.token_a ∧
      bal w s.token_b ≤ bal w' s.token_b := by
    induction hst with
    | refl => exact ⟨hr, hp, le_rfl, le_rfl⟩
    | @tail u u' _ hstep ih =>
      obtain ⟨⟨w0, hw0, hs0⟩, i2, i3, i4⟩ := ih
      obtain ⟨hK, ⟨x, hc⟩, hcf⟩ := reachable_pool he hw0 hs0 k s i2
      have hf : s.fees = ⟨0, 1, 0, 1, 0, 1, 0, 1⟩ := by
        rcases hcf.kind with ⟨p, e⟩ | ⟨l, _, e⟩
        · rw [hk] at e; cases e
        · exact e
      have st := linear_step he hK i2 hc hcf hk hf hstep
      have hge : (bal w s.token_a).toNat ≤ nbal u s.token_a := by
        have := nbal_cast u s.token_a
        omega
      have g := stuck_step hv (nbal_lt u s.token_a) (nbal_lt u s.token_b)
        (inBand _ hge (nbal_lt u s.token_a)) st
      simp only [] at g
      have c1 := nbal_cast u s.token_a
      have c2 := nbal_cast u s.token_b
      have c3 := nbal_cast u' s.token_a
      have c4 := nbal_cast u' s.token_b
      refine ⟨⟨w0, hw0, hs0.tail hstep⟩, ?_, by omega, by omega⟩
      obtain ⟨e1, e2⟩ := step_pool i2 hstep
      obtain ⟨o, l, hl, hu⟩ := i2
      exact ⟨by rw [e1]; exact o, l, by rw [e2]; exact hl, hu⟩
  obtain ⟨k1, k2, k3, k4⟩ := key
  have hge : (bal w s.token_a).toNat ≤ nbal w' s.token_a := by
    have := nbal_cast w' s.token_a
    omega
  have hs := inBand _ hge (nbal_lt w' s.token_a)
  refine ⟨k3, k4, hs, fun signers a x y w'' ea => ?_⟩
  rw [← ea] at k2
  exact C75_stuck env K he w' w'' k1 signers a x y s k2 c hk hs

end

/-! ### C76: release by sending tokens -/

/-- C76 in full: however a linear pool that may be created got stuck, sending it token A releases
it. -/
def C76_statement : Prop :=
  ∀ (c : LinearPriceCurve), Linear.isCurveParamValid c = .ok () → ∀ A, A < 2 ^ 64 → Stuck c A →
    ∃ d, A + d < 2 ^ 64 ∧ ¬ Stuck c (A + d)

/-- A curve that is stuck whatever the pool holds: price 9903520314283042199, the least slope. -/
def deadCurve : LinearPriceCurve := ⟨1, 1000000000000000000, 9903520314283042199, 1⟩

theorem dead_valid : Linear.isCurveParamValid deadCurve = .ok () := by decide +kernel

theorem dead_low : (2 ^ 64 - 1) * 4 ^ 61 < rootArg deadCurve 0 := by decide +kernel

theorem dead_high : rootArg deadCurve (2 ^ 64 - 1) < 2 ^ 64 * 4 ^ 61 := by decide +kernel

/-- C76 is false of the code. -/
theorem C76_false : ¬ C76_statement := by
  intro hall
  have inBand : ∀ A, A < 2 ^ 64 → Stuck deadCurve A := by
    intro A hA
    have m1 := rootArg_mono deadCurve (Nat.zero_le A)
    have m2 := rootArg_mono deadCurve (show A ≤ 2 ^ 64 - 1 by omega)
    exact ⟨61, by norm_num, lt_of_lt_of_le dead_low m1, lt_of_le_of_lt m2 dead_high⟩
  obtain ⟨d, h1, h2⟩ := hall deadCurve dead_valid 0 (by norm_num) (inBand 0 (by norm_num))
  exact h2 (inBand _ h1)

/-- C76.  A stuck pool can be released by sending token A exactly if the end of its band is within
reach of a `u64` balance. -/
theorem C76_release_partial (c : LinearPriceCurve) (hv : Linear.isCurveParamValid c = .ok ())
    (A : Nat) (hA : A < 2 ^ 64) (h : Nat) (h1 : 1 ≤ h) (hlo : (2 ^ 64 - 1) * 4 ^ h < rootArg c A)
    (hhi : rootArg c A < 2 ^ 64 * 4 ^ h) :
    (∃ d, A + d < 2 ^ 64 ∧ ¬ Stuck c (A + d)) ↔ 2 ^ 64 * 4 ^ h ≤ rootArg c (2 ^ 64 - 1) := by
  have hd : 0 < c.slope_denominator.toNat := Nat.pos_of_ne_zero (Linear.nz_of_valid hv).sd
  constructor
  · rintro ⟨d, hd1, hd2⟩
    by_contra hc
    have m1 := rootArg_mono c (show A ≤ A + d by omega)
    have m2 := rootArg_mono c (show A + d ≤ 2 ^ 64 - 1 by omega)
    exact hd2 ⟨h, h1, by omega, by omega⟩
  · intro hR
    by_cases h0 : 1 ≤ A
    · obtain ⟨d, h2, h3⟩ := leave_band hd h0 hhi (D := 2 ^ 64 - 1 - A)
        (by rw [Nat.add_sub_cancel' (by omega)]; exact hR)
      exact ⟨d, by omega, h3⟩
    · have eA : A = 0 := by omega
      subst eA
      by_cases hs : Stuck c 1
      · obtain ⟨j, j1, j2, j3⟩ := hs
        have hjh : h ≤ j := by
          by_contra hc
          have : 4 ^ (j + 1) ≤ 4 ^ h := Nat.pow_le_pow_right (by norm_num) (by omega)
          rw [pow_succ] at this
          have := rootArg_mono c (show 0 ≤ 1 by omega)
          omega
        have hend : 2 ^ 64 * 4 ^ j ≤ rootArg c (2 ^ 64 - 1) := by
          rcases Nat.lt_or_ge h j with hlt | hge
          · have q : 4 ^ (h + 1) ≤ 4 ^ j := Nat.pow_le_pow_right (by norm_num) hlt
            rw [pow_succ] at q
            have a1 := rootArg_add c 1 1
            have e0 : rootArg c 1 = rootArg c 0 +
                2 * c.slope_numerator.toNat * (1 * 10 ^ 18) / c.slope_denominator.toNat := by
              unfold rootArg
              simp
            have a2 := rootArg_mono c (show 1 + 1 ≤ 2 ^ 64 - 1 by norm_num)
            omega
          · have : h = j := by omega
            rw [← this]
            exact hR
        obtain ⟨d, h2, h3⟩ := leave_band hd (le_refl 1) j3 (D := 2 ^ 64 - 2)
          (by rw [show 1 + (2 ^ 64 - 2) = 2 ^ 64 - 1 by norm_num]; exact hend)
        exact ⟨1 + d, by omega, by rw [Nat.zero_add]; exact h3⟩
      · exact ⟨1, by norm_num, hs⟩

/-- C76.  How many tokens are needed: as many as move the radicand by the width of the band. -/
theorem C76_tokens_partial (c : LinearPriceCurve) (hv : Linear.isCurveParamValid c = .ok ())
    (A D h : Nat) (hA : 1 ≤ A) (hlo : (2 ^ 64 - 1) * 4 ^ h < rootArg c A)
    (hhi : rootArg c A < 2 ^ 64 * 4 ^ h)
    (hD : 4 ^ h * c.slope_denominator.toNat ≤ 2 * c.slope_numerator.toNat * (D * 10 ^ 18)) :
    ∃ d ≤ D, ¬ Stuck c (A + d) := by
  have hd : 0 < c.slope_denominator.toNat := Nat.pos_of_ne_zero (Linear.nz_of_valid hv).sd
  refine leave_band hd hA hhi ?_
  have h1 := rootArg_add c A D
  have h2 : 4 ^ h ≤ 2 * c.slope_numerator.toNat * (D * 10 ^ 18) / c.slope_denominator.toNat :=
    (Nat.le_div_iff_mul_le hd).2 hD
  omega

/-- C76.  With initial price zero a single token A releases any stuck pool. -/
theorem C76_zero_partial (c : LinearPriceCurve) (hv : Linear.isCurveParamValid c = .ok ())
    (hz : c.initial_token_a_price_numerator = 0) (A : Nat) (hA : A < 2 ^ 64) (hs : Stuck c A) :
    ¬ Stuck c (A + 1) := by
  obtain ⟨h, h1, hlo, hhi⟩ := hs
  have hd : 0 < c.slope_denominator.toNat := Nat.pos_of_ne_zero (Linear.nz_of_valid hv).sd
  have e0 : ∀ X, rootArg c X = 2 * c.slope_numerator.toNat * (X * 10 ^ 18) / c.slope_denominator.toNat := by
    intro X
    unfold rootArg
    rw [hz]
    simp
  have hA1 : 1 ≤ A := by
    by_contra hc
    have : A = 0 := by omega
    rw [this, e0] at hlo
    simp at hlo
  have hD : 4 ^ h * c.slope_denominator.toNat ≤ 2 * c.slope_numerator.toNat * (1 * 10 ^ 18) := by
    rw [e0] at hlo
    have l1 : (2 ^ 64 - 1) * 4 ^ h * c.slope_denominator.toNat ≤
        2 * c.slope_numerator.toNat * (A * 10 ^ 18) :=
      (Nat.le_div_iff_mul_le hd).1 (le_of_lt hlo)
    have l2 : A * (4 ^ h * c.slope_denominator.toNat) ≤
        (2 ^ 64 - 1) * 4 ^ h * c.slope_denominator.toNat := by
      rw [Nat.mul_assoc]
      exact Nat.mul_le_mul_right _ (by omega)
    have l3 : 2 * c.slope_numerator.toNat * (A * 10 ^ 18) =
        A * (2 * c.slope_numerator.toNat * (1 * 10 ^ 18)) := by ring
    rw [l3] at l1
    exact Nat.le_of_mul_le_mul_left (le_trans l2 l1) hA1
  obtain ⟨d, hd1, hd2⟩ := C76_tokens_partial c hv A 1 h hA1 hlo hhi hD
  have : d = 0 ∨ d = 1 := by omega
  rcases this with rfl | rfl
  · exact absurd ⟨h, h1, hlo, hhi⟩ hd2
  · exact hd2

/-! ### Concrete cases -/

/-- The instruction aborts. -/
def aborted (r : Except Err World) : Bool :=
  match r with
  | .error .Panic => true
  | _ => false

theorem of_aborted {r : Except Err World} (h : aborted r = true) : r = .error .Panic := by
  unfold aborted at h
  split at h
  · rfl
  · cases h

/-- A pool with price `2^63` and a trade fee of 99.9% from which all token B has been withdrawn. -/
def steepPool : World := ranTo [.initConstantPrice Sample.init2 ⟨999, 1000, 0, 1, 0, 1, 0, 1⟩
    9223372036854775808,
  .withdrawSingle ⟨Sample.key 2, Sample.key 130, Sample.key 50, Sample.key 15, Sample.key 17,
    Sample.key 13, Sample.key 14, Sample.key 31, Sample.key 16, Sample.key 101⟩ 700 1000000000]
  Sample.start

theorem steep_reachable : Reachable Sample.env samplePools steepPool :=
  ⟨_, sample_start, sample_steps _ _ _ (by
    intro i hi
    simp only [List.mem_cons, List.not_mem_nil, or_false] at hi
    rcases hi with rfl | rfl <;> exact Or.inr rfl) (ranTo_ok (by decide +kernel))⟩

/-- One-sided deposits and withdrawals of `2^64 - 1` token B there. -/
def hugeDeposit : Instr :=
  .depositSingle ⟨Sample.key 2, Sample.key 130, Sample.key 50, Sample.key 31, Sample.key 13,
    Sample.key 14, Sample.key 15, Sample.key 17, Sample.key 101⟩ 18446744073709551615 1
def hugeWithdrawal : Instr :=
  .withdrawSingle ⟨Sample.key 2, Sample.key 130, Sample.key 50, Sample.key 15, Sample.key 17,
    Sample.key 13, Sample.key 14, Sample.key 31, Sample.key 16, Sample.key 101⟩
    18446744073709551615 1000000000

/-- They abort. -/
theorem C75_deposit_aborts :
    exec Sample.env [Sample.key 1, Sample.key 2, Sample.key 50] hugeDeposit steepPool =
      .error .Panic := of_aborted (by decide +kernel)
theorem C75_withdrawal_aborts :
    exec Sample.env [Sample.key 1, Sample.key 2, Sample.key 50] hugeWithdrawal steepPool =
      .error .Panic := of_aborted (by decide +kernel)

example : Aborts Sample.env steepPool hugeDeposit :=
  C75_abort Sample.env samplePools sample_ok steepPool steep_reachable _ _ C75_deposit_aborts
example : Aborts Sample.env steepPool hugeWithdrawal :=
  C75_abort Sample.env samplePools sample_ok steepPool steep_reachable _ _ C75_withdrawal_aborts

example (x y : UInt64) : exec Sample.env [Sample.key 50] (.swap ⟨Sample.key 2, Sample.key 130,
    Sample.key 50, Sample.key 30, Sample.key 13, Sample.key 14, Sample.key 31, Sample.key 15,
    Sample.key 16, Sample.key 101⟩ x y) live ≠ .error .Panic :=
  (C75_never Sample.env samplePools sample_ok live live_reachable _).2.2 _ x y pool2 7 live_pool2 rfl

/-- The sample ledger with pool 1 on the dead curve. -/
def deadPool : World := ranTo [.initLinearPrice Sample.init1 deadCurve] Sample.start

theorem dead_reachable : Reachable Sample.env samplePools deadPool :=
  ⟨_, sample_start, sample_steps _ _ _ (by
    intro i hi
    simp only [List.mem_cons, List.not_mem_nil, or_false] at hi
    rw [hi]; exact Or.inl rfl) (ranTo_ok (by decide +kernel))⟩

/-- What it stores. -/
def poolDead : SwapV1 := ⟨true, 255, Sample.key 101, Sample.key 3, Sample.key 4, Sample.key 5,
  Sample.key 20, Sample.key 21, Sample.key 6, ⟨0, 1, 0, 1, 0, 1, 0, 1⟩, .linear deadCurve⟩

theorem dead_pool : PoolAt Sample.env deadPool (Sample.key 1) poolDead :=
  pool_of (by decide +kernel) (by decide +kernel)

/-- Swaps there abort. -/
theorem C75_swap_aborts :
    exec Sample.env [Sample.key 1, Sample.key 2, Sample.key 50] Sample.buy deadPool =
      .error .Panic := of_aborted (by decide +kernel)

example : Aborts Sample.env deadPool Sample.buy :=
  C75_abort Sample.env samplePools sample_ok deadPool dead_reachable _ _ C75_swap_aborts

/-- C76.  The hundred token B of this pool stay where they are, whatever anybody does. -/
theorem C76_dead (w' : World) (hst : Steps Sample.env samplePools deadPool w') :
    100 ≤ bal w' (Sample.key 4) ∧
      ∀ signers a x y w'', a.swap = Sample.key 1 →
        exec Sample.env signers (.swap a x y) w' ≠ .ok w'' := by
  have hb : bal deadPool (Sample.key 4) = 100 := by decide +kernel
  have h0 : (bal deadPool poolDead.token_a).toNat = 0 := by decide +kernel
  have := C76_locked Sample.env samplePools sample_ok deadPool w' dead_reachable (Sample.key 1)
    poolDead dead_pool deadCurve rfl 61 (by norm_num) (by rw [h0]; exact dead_low) dead_high hst
  have g := this.2.1
  rw [show poolDead.token_b = Sample.key 4 from rfl, hb] at g
  exact ⟨g, this.2.2.2⟩

/-- Initialising an account without space aborts. -/
example : aborted (exec Sample.env [Sample.key 1, Sample.key 2, Sample.key 50] Sample.initLinear
    (Sample.start.setData (Sample.key 1) (.raw []))) = true := by decide +kernel

/-- The curve of C44 is stuck with 9 token A; one more releases it. -/
def narrow : LinearPriceCurve := ⟨8198552921648689607, 2000000000000000000, 0, 1⟩

theorem narrow_stuck : Stuck narrow 9 := ⟨1, le_rfl, by decide +kernel, by decide +kernel⟩

example : ¬ Stuck narrow 10 :=
  C76_zero_partial narrow (by decide +kernel) rfl 9 (by norm_num) narrow_stuck

example : ∃ d, 9 + d < 2 ^ 64 ∧ ¬ Stuck narrow (9 + d) :=
  (C76_release_partial narrow (by decide +kernel) 9 (by norm_num) 1 le_rfl (by decide +kernel)
    (by decide +kernel)).2 (by decide +kernel)

example : ∃ d ≤ 1, ¬ Stuck narrow (9 + d) :=
  C76_tokens_partial narrow (by decide +kernel) 9 1 1 (by norm_num) (by decide +kernel)
    (by decide +kernel) (by decide +kernel)

end Props
end Verif
