import Verif.Spec.Steady
import Verif.Props.Exchange
import Verif.Props.Room
import Verif.Props.Idle

/-
C90: what a constant-price pool quotes does not depend on what it holds.
-/

namespace Verif
namespace Props

open Spec Processor

/-- C90.  The curve: an offer is settled as quoted, whatever the vaults hold, if that much is there. -/
theorem C90_quote (e : SplEnv) (p : UInt64) (s x y : Nat) (dir : TradeDirection) (f : Fees)
    (hv : f.validate = .ok ()) (hs : s < 2 ^ 64) (hx : x < 2 ^ 64) (t d : Nat) :
    (∃ r, (Curve.constantPrice p).swap e s x y dir f = .ok r ∧ r.source_amount_swapped = t ∧
      r.destination_amount_swapped = d) ↔ fixedQuote p.toNat f s dir = some (t, d) ∧ d ≤ y := by
  generalize hp : p.toNat = q
  have hdm := Nat.div_add_mod (s - (feeOf f.trade_fee_numerator.toNat f.trade_fee_denominator.toNat s +
    feeOf f.owner_trade_fee_numerator.toNat f.owner_trade_fee_denominator.toNat s)) q
  constructor
  · rintro ⟨r, h, rfl, rfl⟩
    obtain ⟨tf, of, t, d, rfl, rfl, h1, ⟨h2, h3, h4⟩, h5, rfl⟩ :=
      (C50_constant_price e p s x y dir f hv hs hx r).1 h
    rw [hp] at h4
    refine ⟨?_, h5⟩
    unfold fixedQuote
    simp only []
    generalize feeOf f.trade_fee_numerator.toNat f.trade_fee_denominator.toNat s = tf at *
    generalize feeOf f.owner_trade_fee_numerator.toNat f.owner_trade_fee_denominator.toNat s = of at *
    cases dir with
    | AtoB =>
      obtain ⟨h4, h6, h7⟩ := h4
      have hq : 0 < q := by
        rcases Nat.eq_zero_or_pos q with e | e
        · rw [e, Nat.zero_mul] at h4; omega
        · exact e
      have hd : (s - (tf + of)) / q = d := by
        rw [Nat.div_eq_iff hq]
        constructor
        · rw [Nat.mul_comm]; omega
        · rw [Nat.mul_comm]; omega
      simp only []
      rw [hd, if_pos ⟨h1, by omega, h3⟩, h4]
      rfl
    | BtoA =>
      obtain ⟨h4, h6⟩ := h4
      simp only []
      rw [if_pos ⟨h1, by omega, by omega⟩, h4, h6]
      rfl
  · rintro ⟨h, h5⟩
    unfold fixedQuote at h
    simp only [] at h
    cases dir with
    | AtoB =>
      simp only [] at h
      split at h
      swap
      · cases h
      rename_i hc
      obtain ⟨h1, h2, h3⟩ := hc
      cases h
      have hq : 0 < q := by
        rcases Nat.eq_zero_or_pos q with e | e
        · rw [e, Nat.zero_mul] at h2; omega
        · exact e
      have hm := Nat.mod_lt (s - (feeOf f.trade_fee_numerator.toNat f.trade_fee_denominator.toNat s +
        feeOf f.owner_trade_fee_numerator.toNat f.owner_trade_fee_denominator.toNat s)) hq
      refine ⟨_, (C50_constant_price e p s x y .AtoB f hv hs hx _).2 ⟨_, _, _, _, rfl, rfl, h1,
        ⟨h2, h3, ?_⟩, h5, rfl⟩, rfl, rfl⟩
      rw [hp]
      exact ⟨rfl, Nat.mul_div_le _ _, by omega⟩
    | BtoA =>
      simp only [] at h
      split at h
      swap
      · cases h
      rename_i hc
      obtain ⟨h1, h2, h3⟩ := hc
      cases h
      exact ⟨_, (C50_constant_price e p s x y .BtoA f hv hs hx _).2 ⟨_, _, _, _, rfl, rfl, h1,
        ⟨h2, h3, by rw [hp]; exact ⟨rfl, rfl⟩⟩, h5, rfl⟩, rfl, rfl⟩

/-- C90, on the ledger.  On every ledger that can occur, a swap with a constant-price pool moves its vaults
by the amounts quoted. -/
theorem C90_ledger (env : Env) (K : Pubkey → Prop) (he : EnvOk env K) (w w' : World)
    (hr : Reachable env K w) (signers : List Pubkey) (hs : ∀ u ∈ signers, ¬ IsPda env K u)
    (a : SwapAccounts) (x y : UInt64) (s : SwapV1) (p : UInt64)
    (hp : PoolAt env w a.swap s) (hl : s.swap_curve = .constantPrice p)
    (h : exec env signers (.swap a x y) w = .ok w') :
    ∃ dir t d, a.swapSource = vaultIn s dir ∧ a.swapDestination = vaultOut s dir ∧
      fixedQuote p.toNat s.fees x.toNat dir = some (t, d) ∧ y.toNat ≤ d ∧
      bal w' (vaultIn s dir) = bal w (vaultIn s dir) + t ∧
      bal w' (vaultOut s dir) = bal w (vaultOut s dir) - d := by
  unfold exec at h
  rw [req_bind] at h
  obtain ⟨hu, h⟩ := h
  obtain ⟨s', tin, tout, pm, r, fee, xi, xo, w1, w2, run⟩ := processSwap_ok h
  have e : s' = s :=
    Except.ok.inj ((unpackSwap_of (poolAt_of run.owner run.state)).symm.trans (unpackSwap_of hp))
  subst e
  obtain ⟨w0, h0, hst⟩ := hr
  obtain ⟨hK, ⟨z, hc⟩, hcf⟩ := reachable_pool he h0 hst _ _ hp
  obtain ⟨e1, e2⟩ := swapDirection_in run.srcIs run.dstIs run.srcNeDst
  obtain ⟨dir, hdir⟩ : ∃ dir, swapDirection s' a = dir := ⟨_, rfl⟩
  have hq := run.result
  rw [hdir] at e1 e2 hq
  have hb := swap_vaults hK hc hcf hs hu run
  rw [hl] at hq
  have hq' := (C90_quote env.spl p _ _ _ dir s'.fees hcf.fees x.toNat_lt tin.amount.toNat_lt _ _).1
    ⟨r, hq, rfl, rfl⟩
  refine ⟨dir, r.source_amount_swapped, r.destination_amount_swapped, e1, e2, hq'.1, run.slippage, ?_⟩
  rw [← e1, ← e2]
  exact hb

theorem vaultIn_inj {s : SwapV1} {d d' : TradeDirection} (h : s.token_a ≠ s.token_b)
    (e : vaultIn s d = vaultIn s d') : d = d' := by
  cases d <;> cases d' <;> first | rfl | exact absurd e h | exact absurd e.symm h

/-- C90.  So the same offer to the pool, made before and after whatever others do, costs the same and
yields the same, if it goes through. -/
theorem C90_stays (env : Env) (K : Pubkey → Prop) (he : EnvOk env K) (w u v v' : World)
    (hr : Reachable env K w) (hm : Steps env K w v) (signers signers' : List Pubkey)
    (hs : ∀ z ∈ signers, ¬ IsPda env K z) (hs' : ∀ z ∈ signers', ¬ IsPda env K z)
    (a a' : SwapAccounts) (x y y' : UInt64) (s : SwapV1) (p : UInt64)
    (hp : PoolAt env w a.swap s) (hl : s.swap_curve = .constantPrice p)
    (ha : a'.swap = a.swap) (hd : a'.swapSource = a.swapSource)
    (h : exec env signers (.swap a x y) w = .ok u)
    (h' : exec env signers' (.swap a' x y') v = .ok v') :
    a'.swapDestination = a.swapDestination ∧
    bal v' a.swapSource - bal v a.swapSource = bal u a.swapSource - bal w a.swapSource ∧
    bal v a.swapDestination - bal v' a.swapDestination =
      bal w a.swapDestination - bal u a.swapDestination := by
  have hp' : PoolAt env v a'.swap s := by
    rw [ha]
    clear h h'
    induction hm with
    | refl => exact hp
    | tail _ hst ih =>
      have := step_pool ih hst
      exact poolAt_congr this.1 this.2 ih
  have hr' : Reachable env K v := by
    obtain ⟨w0, h0, hst⟩ := hr
    exact ⟨w0, h0, hst.trans hm⟩
  obtain ⟨dir, t, d, e1, e2, e3, _, e4, e5⟩ := C90_ledger env K he w u hr signers hs a x y s p hp hl h
  obtain ⟨dir', t', d', g1, g2, g3, _, g4, g5⟩ :=
    C90_ledger env K he v v' hr' signers' hs' a' x y' s p hp' hl h'
  have hne : s.token_a ≠ s.token_b := by
    obtain ⟨w0, h0, hst⟩ := hr
    obtain ⟨_, ⟨z, hc⟩, _⟩ := reachable_pool he h0 hst _ _ hp
    exact ne_of_mint hc.vaultA.mint hc.vaultB.mint hc.mints
  have hdir : dir' = dir := vaultIn_inj hne (by rw [← g1, hd, e1])
  subst hdir
  rw [e3] at g3
  cases g3
  refine ⟨g2.trans e2.symm, ?_, ?_⟩
  · rw [e1, e4, g4]; omega
  · rw [e2, e5, g5]; omega

/-- C90.  Exactly when a trade with a constant-price pool without an owner fee goes through, in plain
numbers: of what the pool holds, only whether it can pay matters. -/
theorem C90_trade (env : Env) (K : Pubkey → Prop) (he : EnvOk env K) (w : World)
    (hr : Reachable env K w) (signers : List Pubkey) (hs : ∀ u ∈ signers, ¬ IsPda env K u)
    (a : SwapAccounts) (x y : UInt64) (s : SwapV1) (hp : PoolAt env w a.swap s) (ho : Ordinary s)
    (p : UInt64) (hl : s.swap_curve = .constantPrice p)
    (hf : s.fees.owner_trade_fee_numerator = 0) (hA : Scarce env w s.token_a_mint)
    (hB : Scarce env w s.token_b_mint) :
    (∃ w', exec env signers (.swap a x y) w = .ok w') ↔ FixedDue env w signers a x y s p.toNat := by
  have uniq : ∀ s', PoolAt env w a.swap s' → s' = s := fun s' h =>
    Except.ok.inj ((unpackSwap_of h).symm.trans (unpackSwap_of hp))
  have hM : ∀ dir, Scarce env w (mintIn s dir) ∧ Scarce env w (mintOut s dir) := by
    intro dir
    cases dir
    · exact ⟨hA, hB⟩
    · exact ⟨hB, hA⟩
  rw [C81_swap env K he w hr signers hs a x y fun s' h => Or.inl (by rw [uniq s' h]; exact ho)]
  constructor
  · rintro ⟨s', dir, tin, tout, m, r, fee, h1, h2, h3, h4, h5, h6, h7, h8, h9, h10, h11, h12, h13, h14,
      h15, h16, h17, h18, _, _⟩
    rw [uniq s' h1] at *
    obtain ⟨hc, hcf, hpd⟩ := pool_facts he hr hp h2
    rw [hl] at h12
    obtain ⟨q1, q2⟩ := (C90_quote env.spl p _ _ _ dir s.fees hcf.fees x.toNat_lt tin.amount.toNat_lt
      _ _).1 ⟨r, h12, rfl, rfl⟩
    have b1 := bal_token (tokenAt_some.1 h9)
    have b2 := bal_token (tokenAt_some.1 h10)
    refine ⟨dir, _, _, h2, h3, h4, h5, h6, h7, h8, q1, ?_, h13, h14, ?_, h16, takes_of h17, h18⟩
    · rw [b2]; exact_mod_cast q2
    · obtain ⟨_, t', g1, _, g2, _⟩ := h15
      exact ⟨t', g1, g2⟩
  · rintro ⟨dir, t, d, h2, h3, h4, h5, h6, h7, h8, h9, h10, h11, h12, h13, h14, h15, h16⟩
    obtain ⟨hc, hcf, hpd⟩ := pool_facts he hr hp h2
    have hux : a.userAuthority ≠ a.authority := fun e => hs _ h3 (e ▸ hpd)
    have cin := custody_in hc dir
    have cout := custody_out hc dir
    obtain ⟨_, tin, i2, _⟩ := id cin
    obtain ⟨_, tout, o2, _⟩ := id cout
    obtain ⟨_, m, m2, _⟩ := id hc.minter
    have b1 := bal_token i2
    have b2 := bal_token o2
    rw [b2] at h10
    obtain ⟨r, hq, rfl, rfl⟩ := (C90_quote env.spl p x.toNat tin.amount.toNat tout.amount.toNat dir
      s.fees hcf.fees x.toNat_lt tin.amount.toNat_lt t d).2 ⟨h9, by exact_mod_cast h10⟩
    have hz : r.owner_fee = 0 := by
      obtain ⟨tf, of, t, d, _, e, _, _, _, rfl⟩ := (C50_constant_price env.spl p _ _ _ dir s.fees
        hcf.fees x.toNat_lt tin.amount.toNat_lt r).1 hq
      refine e.trans ?_
      unfold feeOf
      rw [hf]
      exact if_pos (Or.inl rfl)
    refine ⟨s, dir, tin, tout, m, r, 0, hp, h2, h3, h4, h5, h6, h7, h8, tokenAt_some.2 i2,
      tokenAt_some.2 o2, mintAt_some.2 m2, by rw [hl]; exact hq, h11, h12, ?_, h14,
      ?_, h16, ?_, fun h => absurd h (by decide)⟩
    · exact C87_room env w _ (hM dir).1 _ _ (spend_ne h12 cin hux) _ (spend_held h12)
        (sole_takes cin h13)
    · refine C87_room env w _ (hM dir).2 _ _ (fun e => h16 e.symm) _ ?_ h15
      have := sole_held cout
      rw [b2] at this
      omega
    · unfold Curve.withdrawSingle
      rw [hz]
      exact if_pos rfl

/-- A purchase from the constant-price pool by user 50. -/
def fixedIn : SwapAccounts := ⟨Sample.key 2, Sample.key 130, Sample.key 50, Sample.key 30,
  Sample.key 13, Sample.key 14, Sample.key 31, Sample.key 15, Sample.key 16, Sample.key 101⟩

/-- At the price 7, with the fees of the sample pool, 1000 token A buy 139 token B for 995; without fees
142 for 994.  Ten token B sell for 56 and for 70, and six token A buy nothing. -/
example : fixedQuote 7 pool2.fees 1000 .AtoB = some (995, 139) ∧
    fixedQuote 7 poolFree.fees 1000 .AtoB = some (994, 142) ∧
    fixedQuote 7 pool2.fees 10 .BtoA = some (10, 56) ∧
    fixedQuote 7 poolFree.fees 10 .BtoA = some (10, 70) ∧
    fixedQuote 7 poolFree.fees 6 .AtoB = none := by decide +kernel

example : ∃ r, (Curve.constantPrice 7).swap Sample.env.spl 1000 5995 561 .AtoB pool2.fees = .ok r ∧
    r.source_amount_swapped = 995 ∧ r.destination_amount_swapped = 139 :=
  (C90_quote Sample.env.spl 7 1000 5995 561 .AtoB pool2.fees (by decide) (by decide) (by decide) 995
    139).2 (by decide +kernel)

theorem fixed_steps : Steps Sample.env samplePools live (ranTo [Sample.depAll] live) :=
  .single (.instr _ Sample.depAll (Or.inr rfl) sample_signers (exec_ranTo (by decide +kernel)))

/-- The same offer before and after a deposit. -/
example : bal (ranTo [.swap fixedIn 1000 5] (ranTo [Sample.depAll] live)) (Sample.key 13) -
      bal (ranTo [Sample.depAll] live) (Sample.key 13) =
    bal (ranTo [.swap fixedIn 1000 1] live) (Sample.key 13) - bal live (Sample.key 13) :=
  (C90_stays Sample.env samplePools sample_ok live _ _ _ live_reachable fixed_steps _ _ sample_signers
    sample_signers fixedIn fixedIn 1000 1 5 pool2 7 live_pool2 rfl rfl rfl
    (exec_ranTo (by decide +kernel)) (exec_ranTo (by decide +kernel))).2.1
example : bal live (Sample.key 13) = 5995 ∧
    bal (ranTo [.swap fixedIn 1000 1] live) (Sample.key 13) = 6990 ∧
    bal (ranTo [Sample.depAll] live) (Sample.key 13) ≠ 5995 := by decide +kernel

example : ∃ dir t d, fixedIn.swapSource = vaultIn pool2 dir ∧
      fixedIn.swapDestination = vaultOut pool2 dir ∧
      fixedQuote 7 pool2.fees 1000 dir = some (t, d) ∧ 1 ≤ d ∧
      bal (ranTo [.swap fixedIn 1000 1] live) (vaultIn pool2 dir) = bal live (vaultIn pool2 dir) + t ∧
      bal (ranTo [.swap fixedIn 1000 1] live) (vaultOut pool2 dir) = bal live (vaultOut pool2 dir) - d :=
  C90_ledger Sample.env samplePools sample_ok live _ live_reachable _ sample_signers fixedIn 1000 1 pool2
    7 live_pool2 rfl (exec_ranTo (by decide +kernel))

theorem lentFree_scarce : Scarce Sample.env lentFree poolFree.token_a_mint ∧
    Scarce Sample.env lentFree poolFree.token_b_mint := by
  have e1 : poolFree.token_a_mint = Sample.key 20 := by decide
  have e2 : poolFree.token_b_mint = Sample.key 21 := by decide
  rw [e1, e2]
  exact ⟨C87_scarce _ _ _ (C73_accounted Sample.env (Sample.key 0) samplePools sample_ok (by decide) _ _
      lentFree_moves _ (by decide) (ledger_accounted (n := 25000)
        {Sample.key 3, Sample.key 13, Sample.key 30} (by decide +kernel) (by decide +kernel)
        (by decide +kernel))),
    C87_scarce _ _ _ (C73_accounted Sample.env (Sample.key 0) samplePools sample_ok (by decide) _ _
      lentFree_moves _ (by decide) (ledger_accounted (n := 20800)
        {Sample.key 4, Sample.key 14, Sample.key 31} (by decide +kernel) (by decide +kernel)
        (by decide +kernel)))⟩

/-- On the pool without fees a trade goes through exactly if it is due; one of 1000 token A for 142 token B
is, and for 143 is not. -/
example (x y : UInt64) : (∃ w', exec Sample.env [Sample.key 50] (.swap fixedIn x y) lentFree = .ok w') ↔
    FixedDue Sample.env lentFree [Sample.key 50] fixedIn x y poolFree 7 :=
  C90_trade Sample.env samplePools sample_ok lentFree lentFree_facts.1 _ user50 fixedIn x y poolFree
    (pool_of (by decide +kernel) (by decide +kernel)) ⟨by decide, by decide⟩ 7 rfl rfl
    lentFree_scarce.1 lentFree_scarce.2
example : isOk (exec Sample.env [Sample.key 50] (.swap fixedIn 1000 142) lentFree) = true ∧
    isOk (exec Sample.env [Sample.key 50] (.swap fixedIn 1000 143) lentFree) = false := by
  decide +kernel

end Props
end Verif
