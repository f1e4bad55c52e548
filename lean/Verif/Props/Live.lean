import Verif.Lemmas.Live
import Verif.Props.Chain

/-
C52-C54: well-formed instructions go through.
-/

namespace Verif
namespace Props
open Spec Processor

theorem when_of {c : Prop} [Decidable c] (h : c) (x : Int) : when c x = x := if_pos h
theorem when_not {c : Prop} [Decidable c] (h : ¬ c) (x : Int) : when c x = 0 := if_neg h

theorem custody_in {env : Env} {w : World} {k x : Pubkey} {s : SwapV1} (h : Custody env w k s x)
    (dir : TradeDirection) : SoleOwner env w (vaultIn s dir) (mintIn s dir) x := by
  cases dir
  · exact h.vaultA
  · exact h.vaultB

theorem custody_out {env : Env} {w : World} {k x : Pubkey} {s : SwapV1} (h : Custody env w k s x)
    (dir : TradeDirection) : SoleOwner env w (vaultOut s dir) (mintOut s dir) x := by
  cases dir
  · exact h.vaultB
  · exact h.vaultA

theorem mints_ne {env : Env} {w : World} {k x : Pubkey} {s : SwapV1} (h : Custody env w k s x)
    (dir : TradeDirection) : mintIn s dir ≠ mintOut s dir := by
  cases dir
  · exact h.mints
  · exact h.mints.symm

/-- Accounts of different mints are different accounts. -/
theorem ne_of_mint {w : World} {j k m n : Pubkey} (hj : mintOf w j = some m)
    (hk : mintOf w k = some n) (h : m ≠ n) : j ≠ k := by
  rintro rfl
  rw [hj] at hk
  exact h (Option.some.inj hk)

/-- A user's account is not a vault. -/
theorem ne_of_owner {env : Env} {w : World} {j k m n u x : Pubkey} {a : Nat}
    (hj : CanPay env w j m u a) (hk : SoleOwner env w k n x) (h : u ≠ x) : j ≠ k := by
  rintro rfl
  obtain ⟨_, t, ht, _, hu, _⟩ := hj
  obtain ⟨_, t', ht', _, hx, _⟩ := hk
  rw [tokenAt_some.2 ht'] at ht
  cases ht
  exact h (hu.symm.trans hx)

/-! ### C52 -/

/-- C52.  In every reachable ledger, a pool serves every trade its curve quotes within the caller's
limit: the caller's account can pay, the account they name can receive, the vaults are not frozen and
have room, and, where pool tokens are minted for the owner's fee, the fee account can receive them. -/
theorem C52_swap (env : Env) (K : Pubkey → Prop) (he : EnvOk env K) (w : World)
    (hr : Reachable env K w) (k : Pubkey) (s : SwapV1) (hp : PoolAt env w k s) (pda : Pubkey)
    (hpda : env.createPda k s.bump_seed = some pda) (signers : List Pubkey) (u : Pubkey)
    (hu : u ∈ signers) (hun : ¬ IsPda env K u) (dir : TradeDirection) (src dst : Pubkey)
    (x y : UInt64) (tin tout : TokenAccount) (m : Mint)
    (hin : tokenAt w (vaultIn s dir) = some tin) (hout : tokenAt w (vaultOut s dir) = some tout)
    (hm : mintAt w s.pool_mint = some m) (r : SwapResult)
    (hq : s.swap_curve.swap env.spl x.toNat tin.amount.toNat tout.amount.toNat dir s.fees = .ok r)
    (hy : y.toNat ≤ r.destination_amount_swapped)
    (hpay : CanPay env w src (mintIn s dir) u r.source_amount_swapped)
    (hroom : CanReceive env w (vaultIn s dir) (mintIn s dir) r.source_amount_swapped)
    (hthaw : Thawed w (vaultOut s dir))
    (hrecv : CanReceive env w dst (mintOut s dir) r.destination_amount_swapped)
    (hdst : dst ≠ vaultOut s dir) (fee : Nat)
    (hfee : s.swap_curve.withdrawSingle env.spl r.owner_fee (afterA r dir) (afterB r dir)
      m.supply.toNat dir s.fees = .ok fee)
    (hfr : 0 < fee → CanReceive env w s.pool_fee_account s.pool_mint fee ∧
      m.supply.toNat + fee < 2 ^ 64 ∧ s.pool_fee_account ≠ src ∧ s.pool_fee_account ≠ dst) :
    ∃ w', exec env signers (.swap ⟨k, pda, u, src, vaultIn s dir, vaultOut s dir, dst, s.pool_mint,
      s.pool_fee_account, env.tokenProgramId⟩ x y) w = .ok w' := by
  obtain ⟨w0, h0, hst⟩ := hr
  obtain ⟨hK, ⟨z, hc⟩, hcf⟩ := reachable_pool he h0 hst k s hp
  have ez : z = pda := by have := hc.derived; rw [hpda] at this; exact (Option.some.inj this).symm
  subst ez
  have hb := C07_swap_bounds _ _ _ _ _ _ _ _ hq
  have hux : u ≠ z := by rintro rfl; exact hun ⟨k, _, hK, hpda⟩
  have cin := custody_in hc dir
  have cout := custody_out hc dir
  have hio : vaultIn s dir ≠ vaultOut s dir := ne_of_mint cin.mint cout.mint (mints_ne hc dir)
  have nsi : src ≠ vaultIn s dir := ne_of_owner hpay cin hux
  have nso : src ≠ vaultOut s dir := ne_of_owner hpay cout hux
  have nsd : dst ≠ src := ne_of_mint hrecv.mintOf hpay.mintOf (mints_ne hc dir).symm
  have ndi : dst ≠ vaultIn s dir := ne_of_mint hrecv.mintOf cin.mint (mints_ne hc dir).symm
  have nfi : s.pool_fee_account ≠ vaultIn s dir := by
    cases dir
    · exact hcf.feeA
    · exact hcf.feeB
  have nfo : s.pool_fee_account ≠ vaultOut s dir := by
    cases dir
    · exact hcf.feeB
    · exact hcf.feeA
  have htout := tout.amount.toNat_lt
  obtain ⟨xi, exi, hxi⟩ := toU64_of (n := r.source_amount_swapped)
    (by have := hroom.room; have := bal_nonneg w (vaultIn s dir); omega)
  obtain ⟨xo, exo, hxo⟩ := toU64_of (n := r.destination_amount_swapped) (by omega)
  -- the user pays
  obtain ⟨w1, hw1, f1, s1, b1⟩ := tokenTransfer_of (signers := signers) hpda (Or.inl hu)
    (x := xi) (by rw [exi]; exact hpay) (by rw [exi]; exact hroom) nsi
  -- pool tokens are minted for the fee
  have step : ∃ w2, ownerFeeStep env signers s ⟨k, z, u, src, vaultIn s dir, vaultOut s dir, dst,
      s.pool_mint, s.pool_fee_account, env.tokenProgramId⟩ none fee w1 = .ok w2 ∧ Frame w1 w2 ∧
      ∀ j, j ≠ s.pool_fee_account ∨ fee = 0 → bal w2 j = bal w1 j := by
    unfold ownerFeeStep
    by_cases h : fee > 0
    · rw [if_pos h]
      obtain ⟨h1, h2, h3, _⟩ := hfr h
      obtain ⟨xf, exf, hxf⟩ := toU64_of (n := fee) (by omega)
      have hsm : SoleMinter env w1 s.pool_mint z := hc.minter.frame f1
      obtain ⟨w2, hw2, f2, _, b2⟩ := tokenMintTo_of (signers := signers) hpda (dst := s.pool_fee_account)
        (x := xf) hsm
        (by
          rw [exf]
          refine h1.frame f1 ?_
          rw [b1, when_not nfi, when_not h3]
          have := h1.room
          omega)
        (by
          rw [s1, supply_mint (mintAt_some.1 hm), exf]
          exact_mod_cast h2)
      refine ⟨w2, ?_, f2, ?_⟩
      · rw [Except_bind_ok]
        refine ⟨(fee, w1), rfl, ?_⟩
        rw [Except_bind_ok]
        exact ⟨xf, hxf, hw2⟩
      · intro j hj
        rw [b2, when_not (by rcases hj with hj | hj; exact hj; omega)]
        omega
    · rw [if_neg h]
      exact ⟨w1, rfl, Frame.refl _, fun _ _ => rfl⟩
  obtain ⟨w2, hw2, f2, b2⟩ := step
  have hd2 : bal w2 dst = bal w dst := by
    rw [b2 dst, b1, when_not ndi, when_not nsd]
    · omega
    · by_cases h : 0 < fee
      · exact Or.inl (hfr h).2.2.2.symm
      · exact Or.inr (by omega)
  have ho2 : bal w2 (vaultOut s dir) = bal w (vaultOut s dir) := by
    rw [b2 _ (Or.inl nfo.symm), b1, when_not hio.symm, when_not nso.symm]
    omega
  -- the pool pays
  have hpo : CanPay env w (vaultOut s dir) (mintOut s dir) z xo.toNat := by
    refine cout.canPay hthaw ?_
    rw [bal_some hout, exo]
    have := hb.2.2.2.1
    omega
  obtain ⟨w3, hw3, _⟩ := tokenTransfer_of (signers := signers) hpda (Or.inr rfl) (x := xo)
    (src := vaultOut s dir) (dst := dst) (m := mintOut s dir)
    (hpo.frame (f1.trans f2) (by rw [ho2]; exact hpo.funds))
    (hrecv.frame (f1.trans f2) (by rw [hd2, exo]; exact hrecv.room)) hdst.symm
  have hdir : swapDirection s ⟨k, z, u, src, vaultIn s dir, vaultOut s dir, dst, s.pool_mint,
      s.pool_fee_account, env.tokenProgramId⟩ = dir := by
    unfold swapDirection
    cases dir
    · exact if_pos rfl
    · exact if_neg hio
  refine ⟨w3, ?_⟩
  unfold exec
  rw [req_bind]
  refine ⟨hu, SwapRun.run (ts := s) (src := tin) (dst := tout) (pm := m) (r := r) (pt := fee)
    (i := xi) (o := xo) (w1 := w1) (w2 := w2) ?_⟩
  refine ⟨hp.1, unpackSwap_of hp, hpda, ?_, ?_, hio, nsi.symm, hdst.symm, rfl, rfl, hcf.tp.symm,
    ?_, ?_, ?_, by rw [hdir]; exact hq, hy, exi, hw1, ?_, hw2, exo, hw3⟩
  · cases dir
    · exact Or.inl rfl
    · exact Or.inr rfl
  · cases dir
    · exact Or.inr rfl
    · exact Or.inl rfl
  · exact ⟨cin.1.trans hcf.tp.symm, tokenAt_some.1 hin⟩
  · exact ⟨cout.1.trans hcf.tp.symm, tokenAt_some.1 hout⟩
  · exact ⟨hc.minter.1.trans hcf.tp.symm, mintAt_some.1 hm⟩
  · rw [hdir]
    cases dir
    · exact hfee
    · exact hfee

/-- Fees of linear pools are zero. -/
theorem linear_swap_of {e : SplEnv} {c : LinearPriceCurve} {s x y : Nat} {dir : TradeDirection}
    {q : SwapWithoutFeesResult} (h : Linear.swapWithoutFees c s x y dir = .ok q)
    (hx : x + q.source_amount_swapped < 2 ^ 128) (hy : q.destination_amount_swapped ≤ y) :
    (Curve.linear c).swap e s x y dir ⟨0, 1, 0, 1, 0, 1, 0, 1⟩ =
      .ok ⟨x + q.source_amount_swapped, y - q.destination_amount_swapped, q.source_amount_swapped,
        q.destination_amount_swapped, 0, 0⟩ := by
  have z1 : (⟨0, 1, 0, 1, 0, 1, 0, 1⟩ : Fees).tradingFee s = .ok 0 := by
    unfold Fees.tradingFee calculateFee
    simp only []
    rw [if_pos (Or.inl UInt64.toNat_zero)]
  have z2 : (⟨0, 1, 0, 1, 0, 1, 0, 1⟩ : Fees).ownerTradingFee s = .ok 0 := by
    unfold Fees.ownerTradingFee calculateFee
    simp only []
    rw [if_pos (Or.inl UInt64.toNat_zero)]
  have z3 : cadd U128 0 0 = .ok 0 := cadd_eq_ok.2 ⟨by rw [U128_val]; omega, rfl⟩
  have z4 : csub s 0 = .ok s := csub_eq_ok.2 ⟨Nat.zero_le _, rfl⟩
  have z5 : cadd U128 q.source_amount_swapped 0 = .ok q.source_amount_swapped :=
    cadd_eq_ok.2 ⟨by rw [U128_val]; omega, rfl⟩
  have z6 : cadd U128 x q.source_amount_swapped = .ok (x + q.source_amount_swapped) :=
    cadd_eq_ok.2 ⟨by rw [U128_val]; exact hx, rfl⟩
  have z7 : csub y q.destination_amount_swapped = .ok (y - q.destination_amount_swapped) :=
    csub_eq_ok.2 ⟨hy, rfl⟩
  unfold Curve.swap
  rw [z1, Res.ok_bind, z2, Res.ok_bind, z3, Res.ok_bind, z4, Res.ok_bind]
  unfold Curve.swapWithoutFees
  simp only []
  rw [h, Res.ok_bind, z5, Res.ok_bind, z6, Res.ok_bind, z7, Res.ok_bind]

/-- C52.  On a linear pool no fee is involved: whatever the curve quotes is served, and the user's
accounts and the vaults move by exactly the quoted amounts. -/
theorem C52_linear (env : Env) (K : Pubkey → Prop) (he : EnvOk env K) (w : World)
    (hr : Reachable env K w) (k : Pubkey) (s : SwapV1) (hp : PoolAt env w k s)
    (c : LinearPriceCurve) (hc : s.swap_curve = .linear c) (pda : Pubkey)
    (hpda : env.createPda k s.bump_seed = some pda) (signers : List Pubkey) (u : Pubkey)
    (hu : u ∈ signers) (hun : ¬ IsPda env K u) (dir : TradeDirection) (src dst : Pubkey)
    (x y : UInt64) (tin tout : TokenAccount)
    (hin : tokenAt w (vaultIn s dir) = some tin) (hout : tokenAt w (vaultOut s dir) = some tout)
    (q : SwapWithoutFeesResult)
    (hq : Linear.swapWithoutFees c x.toNat tin.amount.toNat tout.amount.toNat dir = .ok q)
    (hqy : q.destination_amount_swapped ≤ tout.amount.toNat)
    (hy : y.toNat ≤ q.destination_amount_swapped)
    (hpay : CanPay env w src (mintIn s dir) u q.source_amount_swapped)
    (hroom : CanReceive env w (vaultIn s dir) (mintIn s dir) q.source_amount_swapped)
    (hthaw : Thawed w (vaultOut s dir))
    (hrecv : CanReceive env w dst (mintOut s dir) q.destination_amount_swapped)
    (hdst : dst ≠ vaultOut s dir) :
    ∃ w', exec env signers (.swap ⟨k, pda, u, src, vaultIn s dir, vaultOut s dir, dst, s.pool_mint,
      s.pool_fee_account, env.tokenProgramId⟩ x y) w = .ok w' ∧
      bal w' src = bal w src - q.source_amount_swapped ∧
      bal w' (vaultIn s dir) = bal w (vaultIn s dir) + q.source_amount_swapped ∧
      bal w' (vaultOut s dir) = bal w (vaultOut s dir) - q.destination_amount_swapped ∧
      bal w' dst = bal w dst + q.destination_amount_swapped := by
  obtain ⟨w0, h0, hst⟩ := hr
  obtain ⟨hK, ⟨z, hcu⟩, hcf⟩ := reachable_pool he h0 hst k s hp
  have ez : z = pda := by have := hcu.derived; rw [hpda] at this; exact (Option.some.inj this).symm
  subst ez
  have hux : u ≠ z := by rintro rfl; exact hun ⟨k, _, hK, hpda⟩
  obtain ⟨_, pm, hpm, _⟩ := hcu.minter
  have hfees : s.fees = ⟨0, 1, 0, 1, 0, 1, 0, 1⟩ := by
    rcases hcf.kind with ⟨p, h1⟩ | ⟨l, _, h2⟩
    · rw [hc] at h1; cases h1
    · exact h2
  have hlt : tin.amount.toNat + q.source_amount_swapped < 2 ^ 64 := by
    have := hroom.room
    rw [bal_some hin] at this
    exact_mod_cast this
  have hsw := linear_swap_of (e := env.spl) hq (by omega) hqy
  obtain ⟨w', hw'⟩ := C52_swap env K he w ⟨w0, h0, hst⟩ k s hp z hpda signers u hu hun dir src dst
    x y tin tout pm hin hout (mintAt_some.2 hpm) _ (by rw [hc, hfees]; exact hsw) hy hpay hroom hthaw
    hrecv hdst 0 (by unfold Curve.withdrawSingle; rw [if_pos rfl]) (fun h => absurd h (by omega))
  refine ⟨w', hw', ?_⟩
  have cin := custody_in hcu dir
  have cout := custody_out hcu dir
  have hio : vaultIn s dir ≠ vaultOut s dir := ne_of_mint cin.mint cout.mint (mints_ne hcu dir)
  have nsi : src ≠ vaultIn s dir := ne_of_owner hpay cin hux
  have nso : src ≠ vaultOut s dir := ne_of_owner hpay cout hux
  have nsd : dst ≠ src := ne_of_mint hrecv.mintOf hpay.mintOf (mints_ne hcu dir).symm
  have ndi : dst ≠ vaultIn s dir := ne_of_mint hrecv.mintOf cin.mint (mints_ne hcu dir).symm
  obtain ⟨ts, src', dst', m', dir', r', fee', h1, h2, _, _, _, h4, h5, _, h7, _, _, _, _, _, h12,
    heff⟩ :=
    C29_swap env signers _ x y w w' hw'
  simp only [] at h1 h2 h4 h5 heff
  have ets : ts = s := by
    have a1 := unpackSwap_of h1
    rw [unpackSwap_of hp] at a1
    exact (Except.ok.inj a1).symm
  rw [ets] at h2 h7
  have edir : dir' = dir := by
    rcases h2 with ⟨g1, g2, _⟩ | ⟨g1, g2, _⟩
    · rw [g1]
      cases dir
      · rfl
      · exact absurd g2 hio.symm.symm
    · rw [g1]
      cases dir
      · exact absurd g2 hio
      · rfl
  rw [hin] at h4
  rw [hout] at h5
  rw [← Option.some.inj h4, ← Option.some.inj h5, edir, hc, hfees, hsw] at h7
  have er := (Res.ok.inj h7).symm
  have e1 : r'.source_amount_swapped = q.source_amount_swapped := by rw [er]
  have e2 : r'.destination_amount_swapped = q.destination_amount_swapped := by rw [er]
  have e3 : fee' = 0 := h12 (by rw [er])
  have hb := heff.bal
  simp only [e1, e2, e3] at hb
  simp only [show ((0 : Nat) : Int) = 0 from rfl, when_zero] at hb
  refine ⟨?_, ?_, ?_, ?_⟩
  · rw [hb, when_not nsi, when_of rfl, when_not nsd.symm, when_not nso]; omega
  · rw [hb, when_of rfl, when_not nsi.symm, when_not ndi.symm, when_not hio]; omega
  · rw [hb, when_not hio.symm, when_not nso.symm, when_not hdst.symm, when_of rfl]; omega
  · rw [hb, when_not ndi, when_not nsd, when_of rfl, when_not hdst]; omega

/-! ### C53 -/

/-- C53.  In every reachable ledger a pool whose curve takes deposits serves every two-sided deposit
the curve quotes within the caller's limits. -/
theorem C53_deposit_all (env : Env) (K : Pubkey → Prop) (he : EnvOk env K) (w : World)
    (hr : Reachable env K w) (k : Pubkey) (s : SwapV1) (hp : PoolAt env w k s) (pda : Pubkey)
    (hpda : env.createPda k s.bump_seed = some pda) (signers : List Pubkey) (u : Pubkey)
    (hu : u ∈ signers) (hun : ¬ IsPda env K u) (srcA srcB dst : Pubkey) (p maxA maxB : UInt64)
    (tA tB : TokenAccount) (m : Mint) (hA : tokenAt w s.token_a = some tA)
    (hB : tokenAt w s.token_b = some tB) (hm : mintAt w s.pool_mint = some m)
    (hal : s.swap_curve.allowsDeposits = true) (pool sup amtA amtB : Nat)
    (hs1 : m.supply ≠ 0 → pool = p.toNat ∧ sup = m.supply.toNat)
    (hs0 : m.supply = 0 → pool = 1000000000 ∧ sup = 1000000000)
    (hq : s.swap_curve.poolTokensToTradingTokens env.spl pool sup tA.amount.toNat tB.amount.toNat
      .Ceiling = .ok ⟨amtA, amtB⟩)
    (hA0 : 0 < amtA) (hAx : amtA ≤ maxA.toNat) (hB0 : 0 < amtB) (hBx : amtB ≤ maxB.toNat)
    (hpayA : CanPay env w srcA s.token_a_mint u amtA)
    (hroomA : CanReceive env w s.token_a s.token_a_mint amtA)
    (hpayB : CanPay env w srcB s.token_b_mint u amtB)
    (hroomB : CanReceive env w s.token_b s.token_b_mint amtB)
    (hrecv : CanReceive env w dst s.pool_mint pool) (hsup : m.supply.toNat + pool < 2 ^ 64)
    (hdA : dst ≠ s.token_a) (hdB : dst ≠ s.token_b) :
    ∃ w', exec env signers (.depositAll ⟨k, pda, u, srcA, srcB, s.token_a, s.token_b, s.pool_mint,
      dst, env.tokenProgramId⟩ p maxA maxB) w = .ok w' := by
  obtain ⟨w0, h0, hst⟩ := hr
  obtain ⟨hK, ⟨z, hc⟩, hcf⟩ := reachable_pool he h0 hst k s hp
  have ez : z = pda := by have := hc.derived; rw [hpda] at this; exact (Option.some.inj this).symm
  subst ez
  have hux : u ≠ z := by rintro rfl; exact hun ⟨k, _, hK, hpda⟩
  have nA : srcA ≠ s.token_a := ne_of_owner hpayA hc.vaultA hux
  have nB : srcB ≠ s.token_b := ne_of_owner hpayB hc.vaultB hux
  have nBA : srcB ≠ s.token_a := ne_of_owner hpayB hc.vaultA hux
  have nAB : srcA ≠ s.token_b := ne_of_owner hpayA hc.vaultB hux
  have nss : srcA ≠ srcB := ne_of_mint hpayA.mintOf hpayB.mintOf hc.mints
  have nvv : s.token_a ≠ s.token_b := ne_of_mint hc.vaultA.mint hc.vaultB.mint hc.mints
  have hmx := maxA.toNat_lt
  have hmx' := maxB.toNat_lt
  obtain ⟨xa, exa, hxa⟩ := toU64_of (n := amtA) (by omega)
  obtain ⟨xb, exb, hxb⟩ := toU64_of (n := amtB) (by omega)
  obtain ⟨xp, exp, hxp⟩ := toU64_of (n := pool) (by omega)
  obtain ⟨w1, hw1, f1, s1, b1⟩ := tokenTransfer_of (signers := signers) hpda (Or.inl hu)
    (x := xa) (by rw [exa]; exact hpayA) (by rw [exa]; exact hroomA) nA
  obtain ⟨w2, hw2, f2, s2, b2⟩ := tokenTransfer_of (signers := signers) hpda (Or.inl hu) (x := xb)
    (hpayB.frame f1 (by
      rw [b1, when_not nBA, when_not nss.symm, exb]; have := hpayB.funds; omega))
    (hroomB.frame f1 (by
      rw [b1, when_not nvv.symm, when_not nAB.symm, exb]; have := hroomB.room; omega)) nB
  obtain ⟨w3, hw3, _⟩ := tokenMintTo_of (signers := signers) hpda (x := xp) (dst := dst)
    (hc.minter.frame (f1.trans f2))
    (hrecv.frame (f1.trans f2) (by
      rw [b2, b1, when_not hdA, when_not hdB, exp]
      have h1 := when_nonneg (c := dst = srcA) (x := xa.toNat) (by omega)
      have h2 := when_nonneg (c := dst = srcB) (x := xb.toNat) (by omega)
      have := hrecv.room
      omega))
    (by rw [s2, s1, supply_mint (mintAt_some.1 hm), exp]; exact_mod_cast hsup)
  have hpos : m.supply > 0 ↔ m.supply ≠ 0 := by
    rw [gt_iff_lt, UInt64.lt_iff_toNat_lt, Ne, ← UInt64.toNat_inj]
    change 0 < m.supply.toNat ↔ ¬ m.supply.toNat = 0
    omega
  have epool : (if m.supply > 0 then p.toNat else s.swap_curve.newPoolSupply) = pool := by
    by_cases h : m.supply = 0
    · rw [if_neg (fun g => hpos.1 g h), (hs0 h).1]; rfl
    · rw [if_pos (hpos.2 h), (hs1 h).1]
  have esup : (if m.supply > 0 then m.supply.toNat else s.swap_curve.newPoolSupply) = sup := by
    by_cases h : m.supply = 0
    · rw [if_neg (fun g => hpos.1 g h), (hs0 h).2]; rfl
    · rw [if_pos (hpos.2 h), (hs1 h).2]
  refine ⟨w3, ?_⟩
  unfold exec
  rw [req_bind]
  refine ⟨hu, DepositAllRun.run (ts := s) (tA := tA) (tB := tB) (pm := m) (r := ⟨amtA, amtB⟩)
    (xa := xa) (xb := xb) (xp := xp) (w1 := w1) (w2 := w2) ?_⟩
  refine ⟨unpackSwap_of hp, hal, ⟨hp.1, hpda, rfl, rfl, rfl, hcf.tp.symm, ?_, ?_, Or.inl rfl⟩,
    ⟨hc.vaultA.1.trans hcf.tp.symm, tokenAt_some.1 hA⟩,
    ⟨hc.vaultB.1.trans hcf.tp.symm, tokenAt_some.1 hB⟩,
    ⟨hc.minter.1.trans hcf.tp.symm, mintAt_some.1 hm⟩, by rw [epool, esup]; exact hq, exa,
    UInt64.le_iff_toNat_le.2 (by omega), ?_, exb, UInt64.le_iff_toNat_le.2 (by omega), ?_,
    by rw [epool]; exact exp, hw1, hw2, hw3⟩
  · exact fun h => nA (Option.some.inj h)
  · exact fun h => nB (Option.some.inj h)
  · intro h; rw [h] at exa; change 0 = amtA at exa; omega
  · intro h; rw [h] at exb; change 0 = amtB at exb; omega

/-- C53.  In every reachable ledger a pool serves every two-sided withdrawal the curve quotes above
the caller's minimum. -/
theorem C53_withdraw_all (env : Env) (K : Pubkey → Prop) (he : EnvOk env K) (w : World)
    (hr : Reachable env K w) (k : Pubkey) (s : SwapV1) (hp : PoolAt env w k s) (pda : Pubkey)
    (hpda : env.createPda k s.bump_seed = some pda) (signers : List Pubkey) (u : Pubkey)
    (hu : u ∈ signers) (hun : ¬ IsPda env K u) (src dstA dstB : Pubkey) (p minA minB : UInt64)
    (tA tB : TokenAccount) (m : Mint) (hA : tokenAt w s.token_a = some tA)
    (hB : tokenAt w s.token_b = some tB) (hm : mintAt w s.pool_mint = some m)
    (fee burnt : Nat) (hfee : if s.pool_fee_account = src then fee = 0 else
      s.fees.ownerWithdrawFee p.toNat = .ok fee) (hburnt : burnt + fee = p.toNat)
    (r : TradingTokenResult)
    (hq : s.swap_curve.poolTokensToTradingTokens env.spl burnt m.supply.toNat tA.amount.toNat
      tB.amount.toNat .Floor = .ok r)
    (hrA : r.token_a_amount < 2 ^ 64) (hrB : r.token_b_amount < 2 ^ 64)
    (hA1 : minA.toNat ≤ min tA.amount.toNat r.token_a_amount)
    (hA2 : r.token_a_amount = 0 → tA.amount = 0)
    (hB1 : minB.toNat ≤ min tB.amount.toNat r.token_b_amount)
    (hB2 : r.token_b_amount = 0 → tB.amount = 0)
    (hpay : CanPay env w src s.pool_mint u p.toNat) (hsup : burnt ≤ m.supply.toNat)
    (hfr : 0 < fee → CanReceive env w s.pool_fee_account s.pool_mint fee)
    (hthA : Thawed w s.token_a) (hthB : Thawed w s.token_b)
    (hrecvA : CanReceive env w dstA s.token_a_mint (min tA.amount.toNat r.token_a_amount))
    (hrecvB : CanReceive env w dstB s.token_b_mint (min tB.amount.toNat r.token_b_amount))
    (hdA : dstA ≠ s.token_a) (hdB : dstB ≠ s.token_b)
    (hfA : dstA ≠ s.pool_fee_account) (hfB : dstB ≠ s.pool_fee_account) :
    ∃ w', exec env signers (.withdrawAll ⟨k, pda, u, s.pool_mint, src, s.token_a, s.token_b, dstA,
      dstB, s.pool_fee_account, env.tokenProgramId⟩ p minA minB) w = .ok w' := by
  obtain ⟨w0, h0, hst⟩ := hr
  obtain ⟨hK, ⟨z, hc⟩, hcf⟩ := reachable_pool he h0 hst k s hp
  have ez : z = pda := by have := hc.derived; rw [hpda] at this; exact (Option.some.inj this).symm
  subst ez
  have hux : u ≠ z := by rintro rfl; exact hun ⟨k, _, hK, hpda⟩
  have nA : src ≠ s.token_a := ne_of_owner hpay hc.vaultA hux
  have nB : src ≠ s.token_b := ne_of_owner hpay hc.vaultB hux
  have nvv : s.token_a ≠ s.token_b := ne_of_mint hc.vaultA.mint hc.vaultB.mint hc.mints
  have ndd : dstA ≠ dstB := ne_of_mint hrecvA.mintOf hrecvB.mintOf hc.mints
  have ndAB : dstA ≠ s.token_b := ne_of_mint hrecvA.mintOf hc.vaultB.mint hc.mints
  have ndBA : dstB ≠ s.token_a := ne_of_mint hrecvB.mintOf hc.vaultA.mint hc.mints.symm
  have hpl := p.toNat_lt
  have hAl := tA.amount.toNat_lt
  have hBl := tB.amount.toNat_lt
  obtain ⟨xf, exf, _⟩ := toU64_of (n := fee) (by omega)
  obtain ⟨xb, exb, _⟩ := toU64_of (n := burnt) (by omega)
  obtain ⟨xA, exA, _⟩ := toU64_of (n := min tA.amount.toNat r.token_a_amount) (by omega)
  obtain ⟨xB, exB, _⟩ := toU64_of (n := min tB.amount.toNat r.token_b_amount) (by omega)
  -- fee
  have step1 : ∃ w1, tokenTransferIfPos env signers k env.tokenProgramId src s.pool_fee_account u
      s.bump_seed xf w = .ok w1 ∧ Frame w w1 ∧ (∀ j, supply w1 j = supply w j) ∧
      ∀ j, bal w1 j = bal w j + when (j = s.pool_fee_account) xf.toNat - when (j = src) xf.toNat := by
    by_cases h : s.pool_fee_account = src
    · rw [if_pos h] at hfee
      refine ⟨w, ?_, Frame.refl _, fun _ => rfl, fun j => ?_⟩
      · unfold tokenTransferIfPos
        rw [if_neg]
        intro g
        have g : (0 : UInt64).toNat < xf.toNat := UInt64.lt_iff_toNat_lt.1 g
        rw [exf, hfee] at g
        exact absurd g (Nat.lt_irrefl 0)
      · rw [exf, hfee, show ((0 : Nat) : Int) = 0 from rfl, when_zero, when_zero]; omega
    · refine ifPos_of hpda (Or.inl hu) (m := s.pool_mint) (hpay.frame (Frame.refl w) ?_) ?_
        (Ne.symm h)
      · have := hpay.funds; omega
      · rw [exf]; exact hfr
  obtain ⟨w1, hw1, f1, s1, b1⟩ := step1
  -- burn
  obtain ⟨w2, hw2, f2, s2, b2⟩ := tokenBurn_of (signers := signers) hpda (x := xb) (src := src)
    (hc.minter.frame f1) (Or.inl hu)
    (hpay.frame f1 (by
      rw [b1, when_of rfl]
      have := hpay.funds
      have := when_nonneg (c := src = s.pool_fee_account) (x := xf.toNat) (by omega)
      omega))
    (by rw [s1, supply_mint (mintAt_some.1 hm), exb]; exact_mod_cast hsup)
  have f12 := f1.trans f2
  have bA2 : bal w2 s.token_a = bal w s.token_a := by
    rw [b2, b1, when_not nA.symm, when_not hcf.feeA.symm]
    rw [when_not nA.symm]; omega
  have bB2 : bal w2 s.token_b = bal w s.token_b := by
    rw [b2, b1, when_not nB.symm, when_not hcf.feeB.symm]
    rw [when_not nB.symm]; omega
  have bdA : bal w2 dstA ≤ bal w dstA := by
    rw [b2, b1, when_not hfA]
    have h1 := when_nonneg (c := dstA = src) (x := xf.toNat) (by omega)
    have h2 := when_nonneg (c := dstA = src) (x := xb.toNat) (by omega)
    omega
  have bdB : bal w2 dstB ≤ bal w dstB := by
    rw [b2, b1, when_not hfB]
    have h1 := when_nonneg (c := dstB = src) (x := xf.toNat) (by omega)
    have h2 := when_nonneg (c := dstB = src) (x := xb.toNat) (by omega)
    omega
  -- payouts
  have hpA : CanPay env w s.token_a s.token_a_mint z xA.toNat := by
    refine hc.vaultA.canPay hthA ?_
    rw [bal_some hA, exA]
    omega
  have hpB : CanPay env w s.token_b s.token_b_mint z xB.toNat := by
    refine hc.vaultB.canPay hthB ?_
    rw [bal_some hB, exB]
    omega
  obtain ⟨w3, hw3, f3, s3, b3⟩ := ifPos_of (signers := signers) hpda (Or.inr rfl) (x := xA)
    (src := s.token_a) (dst := dstA) (m := s.token_a_mint)
    (hpA.frame f12 (by rw [bA2]; exact hpA.funds))
    (fun _ => hrecvA.frame f12 (by rw [exA]; have := hrecvA.room; omega)) hdA.symm
  have f123 := f12.trans f3
  obtain ⟨w4, hw4, _⟩ := ifPos_of (signers := signers) hpda (Or.inr rfl) (x := xB)
    (src := s.token_b) (dst := dstB) (m := s.token_b_mint)
    (hpB.frame f123 (by
      rw [b3, when_not ndAB.symm, when_not nvv.symm, bB2]; have := hpB.funds; omega))
    (fun _ => hrecvB.frame f123 (by
      rw [b3, when_not ndd.symm, when_not ndBA, exB]; have := hrecvB.room; omega)) hdB.symm
  refine ⟨w4, ?_⟩
  unfold exec
  rw [req_bind]
  refine ⟨hu, WithdrawAllRun.run (ts := s) (tA := tA) (tB := tB) (pm := m) (r := r) (fee := xf)
    (burnt := xb) (xa := xA) (xb := xB) (w1 := w1) (w2 := w2) (w3 := w3) ?_ hrA hrB⟩
  refine ⟨unpackSwap_of hp, ⟨hp.1, hpda, rfl, rfl, rfl, hcf.tp.symm, ?_, ?_, Or.inr rfl⟩,
    ⟨hc.vaultA.1.trans hcf.tp.symm, tokenAt_some.1 hA⟩,
    ⟨hc.vaultB.1.trans hcf.tp.symm, tokenAt_some.1 hB⟩,
    ⟨hc.minter.1.trans hcf.tp.symm, mintAt_some.1 hm⟩, ?_, by omega, by rw [exb]; exact hq, exA,
    UInt64.le_iff_toNat_le.2 (by omega), ?_, exB, UInt64.le_iff_toNat_le.2 (by omega), ?_,
    hw1, hw2, hw3, hw4⟩
  · exact fun h => hdA (Option.some.inj h)
  · exact fun h => hdB (Option.some.inj h)
  · split at hfee
    · rename_i h; exact Or.inl ⟨h, by omega⟩
    · rename_i h; exact Or.inr ⟨h, by rw [exf]; exact hfee⟩
  · rintro ⟨h1, h2⟩
    rw [h1] at exA
    change 0 = _ at exA
    rcases Nat.eq_zero_or_pos tA.amount.toNat with h3 | h3
    · exact h2 (UInt64.toNat_inj.1 h3)
    · exact h2 (hA2 (by omega))
  · rintro ⟨h1, h2⟩
    rw [h1] at exB
    change 0 = _ at exB
    rcases Nat.eq_zero_or_pos tB.amount.toNat with h3 | h3
    · exact h2 (UInt64.toNat_inj.1 h3)
    · exact h2 (hB2 (by omega))

theorem sideOf_in (s : SwapV1) (dir : TradeDirection) :
    sideOf dir s.token_a s.token_b = vaultIn s dir := by
  cases dir <;> rfl

theorem singleDirection_of {m a b : Pubkey} {dir : TradeDirection} (hab : a ≠ b)
    (h : m = sideOf dir a b) : singleDirection m a b = .ok dir := by
  unfold singleDirection
  cases dir with
  | AtoB => exact if_pos h
  | BtoA =>
    have h : m = b := h
    rw [if_neg (fun g => hab (g.symm.trans h)), if_pos h]

/-- C53.  In every reachable ledger a pool serves every one-sided deposit the curve quotes at or
above the caller's minimum.  (Linear pools have no quote unless all pool tokens are gone, see C37.) -/
theorem C53_deposit_single (env : Env) (K : Pubkey → Prop) (he : EnvOk env K) (w : World)
    (hr : Reachable env K w) (k : Pubkey) (s : SwapV1) (hp : PoolAt env w k s) (pda : Pubkey)
    (hpda : env.createPda k s.bump_seed = some pda) (signers : List Pubkey) (u : Pubkey)
    (hu : u ∈ signers) (hun : ¬ IsPda env K u) (dir : TradeDirection) (src dst : Pubkey)
    (x minPool : UInt64) (tA tB : TokenAccount) (m : Mint) (hA : tokenAt w s.token_a = some tA)
    (hB : tokenAt w s.token_b = some tB) (hm : mintAt w s.pool_mint = some m) (pool : Nat)
    (hq : if m.supply = 0 then pool = 1000000000 else
      s.swap_curve.depositSingle env.spl x.toNat tA.amount.toNat tB.amount.toNat m.supply.toNat dir
        s.fees = .ok pool)
    (hp0 : 0 < pool) (hpm : minPool.toNat ≤ pool)
    (hpay : CanPay env w src (mintIn s dir) u x.toNat)
    (hroom : CanReceive env w (vaultIn s dir) (mintIn s dir) x.toNat)
    (hrecv : CanReceive env w dst s.pool_mint pool) (hsup : m.supply.toNat + pool < 2 ^ 64)
    (hdst : dst ≠ vaultIn s dir) :
    ∃ w', exec env signers (.depositSingle ⟨k, pda, u, src, s.token_a, s.token_b, s.pool_mint,
      dst, env.tokenProgramId⟩ x minPool) w = .ok w' := by
  obtain ⟨w0, h0, hst⟩ := hr
  obtain ⟨hK, ⟨z, hc⟩, hcf⟩ := reachable_pool he h0 hst k s hp
  have ez : z = pda := by have := hc.derived; rw [hpda] at this; exact (Option.some.inj this).symm
  subst ez
  have hux : u ≠ z := by rintro rfl; exact hun ⟨k, _, hK, hpda⟩
  have nA : src ≠ s.token_a := ne_of_owner hpay hc.vaultA hux
  have nB : src ≠ s.token_b := ne_of_owner hpay hc.vaultB hux
  have nin : src ≠ vaultIn s dir := ne_of_owner hpay (custody_in hc dir) hux
  have emA : tA.mint = s.token_a_mint := by
    have := hc.vaultA.mint
    unfold mintOf at this
    rw [hA] at this
    exact Option.some.inj this
  have emB : tB.mint = s.token_b_mint := by
    have := hc.vaultB.mint
    unfold mintOf at this
    rw [hB] at this
    exact Option.some.inj this
  obtain ⟨so, st, hst1, hsm, _⟩ := id hpay
  obtain ⟨xp, exp, hxp⟩ := toU64_of (n := pool) (by omega)
  obtain ⟨w1, hw1, f1, s1, b1⟩ := tokenTransfer_of (signers := signers) hpda (Or.inl hu)
    hpay hroom nin
  obtain ⟨w2, hw2, _⟩ := tokenMintTo_of (signers := signers) hpda (x := xp) (dst := dst)
    (hc.minter.frame f1)
    (hrecv.frame f1 (by
      rw [b1, when_not hdst, exp]
      have h1 := when_nonneg (c := dst = src) (x := x.toNat) (by omega)
      have := hrecv.room
      omega))
    (by rw [s1, supply_mint (mintAt_some.1 hm), exp]; exact_mod_cast hsup)
  refine ⟨w2, ?_⟩
  unfold exec
  rw [req_bind]
  refine ⟨hu, DepositSingleRun.run (ts := s) (src := st) (tA := tA) (tB := tB) (dir := dir)
    (pm := m) (xp := xp) (w1 := w1) ?_⟩
  refine ⟨unpackSwap_of hp, ⟨so.trans hcf.tp.symm, tokenAt_some.1 hst1⟩,
    ⟨hc.vaultA.1.trans hcf.tp.symm, tokenAt_some.1 hA⟩,
    ⟨hc.vaultB.1.trans hcf.tp.symm, tokenAt_some.1 hB⟩, ?_,
    ⟨hp.1, hpda, rfl, rfl, rfl, hcf.tp.symm, ?_, ?_, Or.inl rfl⟩,
    ⟨hc.minter.1.trans hcf.tp.symm, mintAt_some.1 hm⟩, ?_, UInt64.le_iff_toNat_le.2 (by omega), ?_,
    by rw [sideOf_in]; exact hw1, hw2⟩
  · rw [emA, emB]
    refine singleDirection_of hc.mints ?_
    rw [hsm]
    cases dir <;> rfl
  · split
    · exact fun h => nA (Option.some.inj h)
    · exact nofun
  · split
    · exact fun h => nB (Option.some.inj h)
    · exact nofun
  · split at hq
    · rename_i h
      refine Or.inl ⟨by rw [h]; rfl, ?_⟩
      rw [exp, hq]; rfl
    · rename_i h
      refine Or.inr ⟨?_, by rw [exp]; exact hq⟩
      rcases Nat.eq_zero_or_pos m.supply.toNat with h1 | h1
      · exact absurd (UInt64.toNat_inj.1 h1) h
      · exact h1
  · intro h; rw [h] at exp; change 0 = pool at exp; omega

/-- C53.  In every reachable ledger a pool serves every one-sided withdrawal the curve quotes at or
below the caller's maximum. -/
theorem C53_withdraw_single (env : Env) (K : Pubkey → Prop) (he : EnvOk env K) (w : World)
    (hr : Reachable env K w) (k : Pubkey) (s : SwapV1) (hp : PoolAt env w k s) (pda : Pubkey)
    (hpda : env.createPda k s.bump_seed = some pda) (signers : List Pubkey) (u : Pubkey)
    (hu : u ∈ signers) (hun : ¬ IsPda env K u) (dir : TradeDirection) (src dst : Pubkey)
    (x maxPool : UInt64) (tA tB : TokenAccount) (m : Mint) (hA : tokenAt w s.token_a = some tA)
    (hB : tokenAt w s.token_b = some tB) (hm : mintAt w s.pool_mint = some m) (fee burnt : Nat)
    (hq : s.swap_curve.withdrawSingle env.spl x.toNat tA.amount.toNat tB.amount.toNat
      m.supply.toNat dir s.fees = .ok burnt)
    (hfee : if s.pool_fee_account = src then fee = 0 else
      s.fees.ownerWithdrawFee burnt = .ok fee)
    (hp0 : 0 < burnt + fee) (hpm : burnt + fee ≤ maxPool.toNat)
    (hpay : CanPay env w src s.pool_mint u (burnt + fee)) (hsup : burnt ≤ m.supply.toNat)
    (hfr : 0 < fee → CanReceive env w s.pool_fee_account s.pool_mint fee)
    (hth : Thawed w (vaultIn s dir)) (hx : (x.toNat : Int) ≤ bal w (vaultIn s dir))
    (hrecv : CanReceive env w dst (mintIn s dir) x.toNat)
    (hdst : dst ≠ vaultIn s dir) (hdf : dst ≠ s.pool_fee_account) :
    ∃ w', exec env signers (.withdrawSingle ⟨k, pda, u, s.pool_mint, src, s.token_a, s.token_b,
      dst, s.pool_fee_account, env.tokenProgramId⟩ x maxPool) w = .ok w' := by
  obtain ⟨w0, h0, hst⟩ := hr
  obtain ⟨hK, ⟨z, hc⟩, hcf⟩ := reachable_pool he h0 hst k s hp
  have ez : z = pda := by have := hc.derived; rw [hpda] at this; exact (Option.some.inj this).symm
  subst ez
  have hux : u ≠ z := by rintro rfl; exact hun ⟨k, _, hK, hpda⟩
  have cin := custody_in hc dir
  have nin : src ≠ vaultIn s dir := ne_of_owner hpay cin hux
  have nfi : s.pool_fee_account ≠ vaultIn s dir := by
    cases dir
    · exact hcf.feeA
    · exact hcf.feeB
  have emA : tA.mint = s.token_a_mint := by
    have := hc.vaultA.mint
    unfold mintOf at this
    rw [hA] at this
    exact Option.some.inj this
  have emB : tB.mint = s.token_b_mint := by
    have := hc.vaultB.mint
    unfold mintOf at this
    rw [hB] at this
    exact Option.some.inj this
  have hml := maxPool.toNat_lt
  obtain ⟨dob, dt, hdt, hdm, _⟩ := id hrecv
  obtain ⟨xf, exf, _⟩ := toU64_of (n := fee) (by omega)
  obtain ⟨xb, exb, _⟩ := toU64_of (n := burnt) (by omega)
  have step1 : ∃ w1, tokenTransferIfPos env signers k env.tokenProgramId src s.pool_fee_account u
      s.bump_seed xf w = .ok w1 ∧ Frame w w1 ∧ (∀ j, supply w1 j = supply w j) ∧
      ∀ j, bal w1 j = bal w j + when (j = s.pool_fee_account) xf.toNat - when (j = src) xf.toNat := by
    by_cases h : s.pool_fee_account = src
    · rw [if_pos h] at hfee
      refine ⟨w, ?_, Frame.refl _, fun _ => rfl, fun j => ?_⟩
      · unfold tokenTransferIfPos
        rw [if_neg]
        intro g
        have g : (0 : UInt64).toNat < xf.toNat := UInt64.lt_iff_toNat_lt.1 g
        rw [exf, hfee] at g
        exact absurd g (Nat.lt_irrefl 0)
      · rw [exf, hfee, show ((0 : Nat) : Int) = 0 from rfl, when_zero, when_zero]; omega
    · refine ifPos_of hpda (Or.inl hu) (m := s.pool_mint) (hpay.frame (Frame.refl w) ?_) ?_
        (Ne.symm h)
      · have := hpay.funds; omega
      · rw [exf]; exact hfr
  obtain ⟨w1, hw1, f1, s1, b1⟩ := step1
  obtain ⟨w2, hw2, f2, s2, b2⟩ := tokenBurn_of (signers := signers) hpda (x := xb) (src := src)
    (hc.minter.frame f1) (Or.inl hu)
    (hpay.frame f1 (by
      rw [b1, when_of rfl]
      have := hpay.funds
      have := when_nonneg (c := src = s.pool_fee_account) (x := xf.toNat) (by omega)
      omega))
    (by rw [s1, supply_mint (mintAt_some.1 hm), exb]; exact_mod_cast hsup)
  have f12 := f1.trans f2
  have bv : bal w2 (vaultIn s dir) = bal w (vaultIn s dir) := by
    rw [b2, b1, when_not nin.symm, when_not nfi.symm]
    rw [when_not nin.symm]; omega
  have bd : bal w2 dst ≤ bal w dst := by
    rw [b2, b1, when_not hdf]
    have h1 := when_nonneg (c := dst = src) (x := xf.toNat) (by omega)
    have h2 := when_nonneg (c := dst = src) (x := xb.toNat) (by omega)
    omega
  have hpv : CanPay env w (vaultIn s dir) (mintIn s dir) z x.toNat := cin.canPay hth hx
  obtain ⟨w3, hw3, _⟩ := tokenTransfer_of (signers := signers) hpda (Or.inr rfl) (x := x)
    (src := vaultIn s dir) (dst := dst) (m := mintIn s dir)
    (hpv.frame f12 (by rw [bv]; exact hx))
    (hrecv.frame f12 (by have := hrecv.room; omega)) hdst.symm
  refine ⟨w3, ?_⟩
  unfold exec
  rw [req_bind]
  refine ⟨hu, WithdrawSingleRun.run (ts := s) (dst := dt) (tA := tA) (tB := tB) (dir := dir)
    (pm := m) (fee := xf) (burnt := xb) (w1 := w1) (w2 := w2) ?_⟩
  refine ⟨unpackSwap_of hp, ⟨dob.trans hcf.tp.symm, tokenAt_some.1 hdt⟩,
    ⟨hc.vaultA.1.trans hcf.tp.symm, tokenAt_some.1 hA⟩,
    ⟨hc.vaultB.1.trans hcf.tp.symm, tokenAt_some.1 hB⟩, ?_,
    ⟨hp.1, hpda, rfl, rfl, rfl, hcf.tp.symm, ?_, ?_, Or.inr rfl⟩,
    ⟨hc.minter.1.trans hcf.tp.symm, mintAt_some.1 hm⟩, by rw [exb]; exact hq, ?_, by omega, by omega,
    hw1, hw2, by rw [sideOf_in]; exact hw3⟩
  · rw [emA, emB]
    refine singleDirection_of hc.mints ?_
    rw [hdm]
    cases dir <;> rfl
  · cases dir
    · exact fun h => hdst (Option.some.inj h)
    · exact nofun
  · cases dir
    · exact nofun
    · exact fun h => hdst (Option.some.inj h)
  · split at hfee
    · rename_i h; exact Or.inl ⟨h, by omega⟩
    · rename_i h; exact Or.inr ⟨h, by rw [exf, exb]; exact hfee⟩

/-! ### C54 -/

theorem startable_of {c : Curve} {a b : UInt64} (h : Startable c a b) :
    c.validate = .ok () ∧ c.validateSupply a b = .ok () := by
  cases c with
  | constantPrice p =>
    obtain ⟨h1, h2⟩ := h
    unfold Curve.validate Curve.validateSupply
    simp only [if_neg h1, if_neg h2, and_self]
  | linear l =>
    obtain ⟨h1, h2, h3, h4, h5, h6⟩ := h
    exact ⟨(C11_params l).2 ⟨h1, h2, h3, h4⟩, (C11_supply l a b).2 ⟨h6, h5⟩⟩
  | constantProduct => exact h.elim
  | stable amp => exact h.elim
  | offset o => exact h.elim

theorem constraints_of {env : Env} {f : Fees} {c : Curve} {o : Pubkey} (h : Allowed env f c o) :
    checkConstraints f c o env.constraints = .ok () := by
  unfold Allowed at h
  cases hs : env.constraints with
  | none => rfl
  | some sc =>
    obtain ⟨h1, h2, h3, h4⟩ := h sc hs
    unfold checkConstraints
    refine Except_bind_ok.2 ⟨o, optErr_ok.2 h1, req_bind.2 ⟨rfl, Except_bind_ok.2 ⟨(), ?_, ?_⟩⟩⟩
    · unfold SwapConstraints.validateCurve
      exact req_ok.2 h2
    · unfold SwapConstraints.validateFees
      refine req_ok.2 ?_
      simp only [ge_iff_le, UInt64.le_iff_toNat_le]
      exact ⟨(h3 .trade).2, UInt64.toNat_inj.1 (h3 .trade).1, (h3 .ownerTrade).2,
        UInt64.toNat_inj.1 (h3 .ownerTrade).1, (h3 .ownerWithdraw).2,
        UInt64.toNat_inj.1 (h3 .ownerWithdraw).1, UInt64.toNat_inj.1 h4,
        UInt64.toNat_inj.1 (h3 .host).1⟩

/-- C54.  A pool can be initialised whenever its accounts are in order: the state account belongs to
the program, has the right size and is not yet in use; both vaults belong to the derived address,
differ in mint, and have neither delegate nor close authority; the pool mint is the derived address's,
unissued and without freeze authority; the fee account and the destination for the first pool tokens
hold the pool mint and belong to somebody else; amounts, fees, curve and constraints are valid. -/
theorem C54_initialize (env : Env) (K : Pubkey → Prop) (he : EnvOk env K) (signers : List Pubkey)
    (i : Instr) (a : InitAccounts) (f : Fees) (c : Curve) (hi : InitOf i a f c) (hK : K a.swap)
    (hs : a.swap ∈ signers) (w : World) (l : List UInt8) (tA tB fa de : TokenAccount) (pm : Mint)
    (hpda : a.authority = (env.findPda a.swap).1) (htp : a.tokenProgram = env.tokenProgramId)
    (hso : (w a.swap).owner = env.programId) (hsd : (w a.swap).data = .raw l)
    (hsl : l.length = 324) (hsn : ∀ s, ¬ PoolAt env w a.swap s)
    (hA : SoleOwner env w a.tokenA tA.mint a.authority) (htA : tokenAt w a.tokenA = some tA)
    (hB : SoleOwner env w a.tokenB tB.mint a.authority) (htB : tokenAt w a.tokenB = some tB)
    (hmints : tA.mint ≠ tB.mint) (hsup : Startable c tA.amount tB.amount)
    (hM : SoleMinter env w a.poolMint a.authority) (hpm : mintAt w a.poolMint = some pm)
    (hpm0 : pm.supply = 0)
    (hfo : (w a.fee).owner = env.tokenProgramId) (hfa : tokenAt w a.fee = some fa)
    (hfm : fa.mint = a.poolMint) (hfn : fa.owner ≠ a.authority)
    (hde : tokenAt w a.destination = some de) (hdn : de.owner ≠ a.authority)
    (hdr : CanReceive env w a.destination a.poolMint 1000000000)
    (hcon : Allowed env f c fa.owner) (hf : ProperFees f) :
    ∃ w', exec env signers i w = .ok w' := by
  have hf : f.validate = .ok () := (C15_validate f).2 hf
  have hcon := constraints_of hcon
  obtain ⟨hc, hsup⟩ := startable_of hsup
  have hd := he.find a.swap hK
  rw [← hpda] at hd
  have hn : (UInt64.ofNat 1000000000).toNat = 1000000000 := rfl
  obtain ⟨w1, hw1, f1, _⟩ := tokenMintTo_of (signers := signers) hd (x := UInt64.ofNat 1000000000) hM
    (by rw [hn]; exact hdr)
    (by rw [hn, supply_mint (mintAt_some.1 hpm), hpm0]; decide)
  obtain ⟨hAo, tA', htA', _, hAw, hAd, hAc⟩ := hA
  rw [tokenAt_some.1 htA] at htA'
  cases htA'
  obtain ⟨hBo, tB', htB', _, hBw, hBd, hBc⟩ := hB
  rw [tokenAt_some.1 htB] at htB'
  cases htB'
  obtain ⟨hMo, pm', hpm', hMa, hMf⟩ := hM
  rw [mintAt_some.1 hpm] at hpm'
  cases hpm'
  have hfresh : isInitialized w a.swap = false := by
    unfold isInitialized
    rw [hsd]
    unfold SwapVersion.isInitialized
    simp only []
    split
    · rename_i s hs
      exact absurd ⟨hso, l, hsd, hs⟩ (hsn s)
    · rfl
  have hpack : ∀ s, ∃ b, SwapVersion.pack s l = .ok b := by
    intro s
    cases l with
    | nil => cases hsl
    | cons v rest =>
      unfold SwapVersion.pack SwapV1.pack
      simp only []
      have : rest.length = SwapV1.LEN := by
        have := hsl
        rw [List.length_cons] at this
        unfold SwapV1.LEN
        omega
      rw [if_neg (by rw [this]; exact fun h => h rfl)]
      exact ⟨_, rfl⟩
  obtain ⟨bytes, hbytes⟩ := hpack
    { is_initialized := true
      bump_seed := (env.findPda a.swap).2
      token_program_id := a.tokenProgram
      token_a := a.tokenA
      token_b := a.tokenB
      pool_mint := a.poolMint
      token_a_mint := tA.mint
      token_b_mint := tB.mint
      pool_fee_account := a.fee
      fees := f
      swap_curve := c }
  have hrun : InitRun env signers f c a w (w1.setData a.swap (.raw bytes)) tA tB fa de pm bytes l
      w1 := by
    refine ⟨hfresh, hpda, ⟨hAo.trans htp.symm, tokenAt_some.1 htA⟩,
      ⟨hBo.trans htp.symm, tokenAt_some.1 htB⟩, ⟨hfo.trans htp.symm, tokenAt_some.1 hfa⟩,
      ⟨hdr.1.trans htp.symm, tokenAt_some.1 hde⟩, ⟨hMo.trans htp.symm, mintAt_some.1 hpm⟩,
      hAw.symm, hBw.symm, hdn.symm, hfn.symm, hMa.symm, hmints, hsup, hAd, hBd, hAc, hBc, hpm0, hMf,
      hfm.symm, hcon, hf, hc, by rw [htp]; exact hw1, f1.raw hsd, hbytes, (f1 _).1.trans hso, rfl⟩
  have := hrun.run
  cases hi with
  | price a f p =>
    refine ⟨w1.setData a.swap (.raw bytes), ?_⟩
    unfold exec
    exact req_bind.2 ⟨hs, this⟩
  | linear a c =>
    refine ⟨w1.setData a.swap (.raw bytes), ?_⟩
    unfold exec
    exact req_bind.2 ⟨hs, this⟩

/-! ### The theorems on the sample ledger -/

/-- The sample ledger after both pools were initialised and traded on. -/
def live : World := match sampleWorld with
  | .ok w => w
  | .error _ => Sample.start

theorem live_reachable : Reachable Sample.env samplePools live := by
  have h : isOk sampleWorld = true := by decide +kernel
  obtain ⟨w, hw⟩ := of_isOk h
  have e : live = w := by unfold live; rw [hw]
  rw [e]
  refine ⟨_, sample_start, sample_steps _ _ _ ?_ hw⟩
  intro i hi
  simp only [List.mem_cons, List.not_mem_nil, or_false] at hi
  rcases hi with rfl | rfl | rfl | rfl | rfl
  · exact Or.inl rfl
  · exact Or.inr rfl
  · exact Or.inl rfl
  · exact Or.inr rfl
  · exact Or.inl rfl

/-- What the two pools store. -/
def pool1 : SwapV1 := ⟨true, 255, Sample.key 101, Sample.key 3, Sample.key 4, Sample.key 5,
  Sample.key 20, Sample.key 21, Sample.key 6, ⟨0, 1, 0, 1, 0, 1, 0, 1⟩, .linear Sample.lin⟩
def pool2 : SwapV1 := ⟨true, 255, Sample.key 101, Sample.key 13, Sample.key 14, Sample.key 15,
  Sample.key 20, Sample.key 21, Sample.key 16, Sample.fees, .constantPrice 7⟩

theorem live_pool {k : Pubkey} {s : SwapV1} (ho : (live k).owner = Sample.env.programId)
    (h : (match unpackSwap live k with
      | .ok s' => decide (s' = s)
      | .error _ => false) = true) : PoolAt Sample.env live k s := by
  cases e : unpackSwap live k with
  | error _ => rw [e] at h; cases h
  | ok s' =>
    rw [e] at h
    rw [← of_decide_eq_true h]
    exact poolAt_of ho e

theorem live_pool1 : PoolAt Sample.env live (Sample.key 1) pool1 :=
  live_pool (by decide +kernel) (by decide +kernel)
theorem live_pool2 : PoolAt Sample.env live (Sample.key 2) pool2 :=
  live_pool (by decide +kernel) (by decide +kernel)

/-- A plain token account. -/
def plain (mint owner : UInt8) (x : UInt64) : TokenAccount :=
  ⟨Sample.key mint, Sample.key owner, x, none, false, 0, none⟩

/-- Accounts of the sample ledger after the run. -/
def table : List (Pubkey × Account) := [
  (Sample.key 3, ⟨Sample.key 101, .token (plain 20 129 18)⟩),
  (Sample.key 4, ⟨Sample.key 101, .token (plain 21 129 98)⟩),
  (Sample.key 13, ⟨Sample.key 101, .token (plain 20 130 5995)⟩),
  (Sample.key 14, ⟨Sample.key 101, .token (plain 21 130 561)⟩),
  (Sample.key 15, ⟨Sample.key 101, .mint ⟨some (Sample.key 130), 1001914937, none⟩⟩),
  (Sample.key 16, ⟨Sample.key 101, .token (plain 15 60 1914937)⟩),
  (Sample.key 17, ⟨Sample.key 101, .token (plain 15 50 1000000000)⟩),
  (Sample.key 30, ⟨Sample.key 101, .token (plain 20 50 18987)⟩),
  (Sample.key 31, ⟨Sample.key 101, .token (plain 21 50 20141)⟩)]

theorem live_table : ∀ e ∈ table, live e.1 = e.2 := by decide +kernel

theorem live_tok {k m u : UInt8} {a : UInt64}
    (h : (Sample.key k, ⟨Sample.key 101, .token (plain m u a)⟩) ∈ table) :
    tokenAt live (Sample.key k) = some (plain m u a) :=
  tokenAt_some.2 (by rw [live_table _ h])

theorem live_mint {k : UInt8} {m : Mint} (h : (Sample.key k, ⟨Sample.key 101, .mint m⟩) ∈ table) :
    mintAt live (Sample.key k) = some m :=
  mintAt_some.2 (by rw [live_table _ h])

theorem pays {k m u : UInt8} {x : Nat} (a : UInt64)
    (h : (Sample.key k, ⟨Sample.key 101, .token (plain m u a)⟩) ∈ table) (hx : x ≤ a.toNat) :
    CanPay Sample.env live (Sample.key k) (Sample.key m) (Sample.key u) x :=
  ⟨by rw [live_table _ h]; rfl, _, live_tok h, rfl, rfl, nofun, rfl, hx⟩

theorem takes {k m : UInt8} {x : Nat} (u : UInt8) (a : UInt64)
    (h : (Sample.key k, ⟨Sample.key 101, .token (plain m u a)⟩) ∈ table)
    (hx : a.toNat + x < 2 ^ 64) : CanReceive Sample.env live (Sample.key k) (Sample.key m) x :=
  ⟨by rw [live_table _ h]; rfl, _, live_tok h, rfl, rfl, hx⟩

theorem takes0 {w : World} {k : Pubkey} {m : UInt8} {x : Nat} (u : UInt8) (a : UInt64)
    (ho : (w k).owner = Sample.key 101) (ht : tokenAt w k = some (plain m u a))
    (hx : a.toNat + x < 2 ^ 64) : CanReceive Sample.env w k (Sample.key m) x :=
  ⟨ho, _, ht, rfl, rfl, hx⟩

theorem user : ¬ IsPda Sample.env samplePools (Sample.key 50) := sample_signers _ (by decide)

/-- C52: user 50 offers 1000 A to the constant-price pool and asks for at least 139 B. -/
example : ∃ w', exec Sample.env [Sample.key 50] (.swap ⟨Sample.key 2, Sample.key 130, Sample.key 50,
    Sample.key 30, Sample.key 13, Sample.key 14, Sample.key 31, Sample.key 15, Sample.key 16,
    Sample.key 101⟩ 1000 139) live = .ok w' :=
  C52_swap _ _ sample_ok _ live_reachable _ _ live_pool2 _ (by decide) _ _ (by decide) user .AtoB _ _
    1000 139 (plain 20 130 5995) (plain 21 130 561) ⟨some (Sample.key 130), 1001914937, none⟩
    (live_tok (by decide +kernel)) (live_tok (by decide +kernel))
    (live_mint (by decide +kernel)) ⟨6990, 422, 995, 139, 2, 20⟩
    (by decide +kernel) (by decide +kernel)
    (pays 18987 (by decide +kernel) (by decide +kernel))
    (takes 130 5995 (by decide +kernel) (by decide +kernel))
    ⟨plain 21 130 561, live_tok (by decide +kernel), rfl⟩
    (takes 50 20141 (by decide +kernel) (by decide +kernel))
    (by decide) 1914359 (by decide +kernel)
    (fun _ => ⟨takes 60 1914937 (by decide +kernel) (by decide +kernel),
      by decide +kernel, by decide, by decide⟩)

/-- C52: user 50 offers 30 A to the linear pool and receives 2 B. -/
example : ∃ w', exec Sample.env [Sample.key 50] (.swap ⟨Sample.key 1, Sample.key 129, Sample.key 50,
    Sample.key 30, Sample.key 3, Sample.key 4, Sample.key 31, Sample.key 5, Sample.key 6,
    Sample.key 101⟩ 30 2) live = .ok w' := by
  obtain ⟨w', h, _⟩ := C52_linear _ _ sample_ok _ live_reachable _ _ live_pool1 Sample.lin rfl
    (Sample.key 129) (by decide) [Sample.key 50] _ (by decide) user .AtoB (Sample.key 30)
    (Sample.key 31) 30 2 (plain 20 129 18) (plain 21 129 98)
    (live_tok (by decide +kernel)) (live_tok (by decide +kernel)) ⟨30, 2⟩ (by decide +kernel) (by decide +kernel)
    (by decide +kernel)
    (pays 18987 (by decide +kernel) (by decide +kernel))
    (takes 129 18 (by decide +kernel) (by decide +kernel))
    ⟨plain 21 129 98, live_tok (by decide +kernel), rfl⟩
    (takes 50 20141 (by decide +kernel) (by decide +kernel))
    (by decide)
  exact ⟨w', h⟩

/-- C53: user 50 deposits both tokens for 100000000 pool tokens. -/
example : ∃ w', exec Sample.env [Sample.key 50] (.depositAll ⟨Sample.key 2, Sample.key 130,
    Sample.key 50, Sample.key 30, Sample.key 31, Sample.key 13, Sample.key 14, Sample.key 15,
    Sample.key 17, Sample.key 101⟩ 100000000 496 71) live = .ok w' :=
  C53_deposit_all _ _ sample_ok _ live_reachable _ _ live_pool2 _ (by decide) _ _ (by decide) user
    _ _ _ 100000000 496 71 (plain 20 130 5995) (plain 21 130 561)
    ⟨some (Sample.key 130), 1001914937, none⟩ (live_tok (by decide +kernel))
    (live_tok (by decide +kernel)) (live_mint (by decide +kernel)) (by decide +kernel)
    100000000 1001914937 496 71 (fun _ => ⟨rfl, rfl⟩)
    (fun h => absurd h (by decide)) (by decide +kernel) (by decide) (by decide +kernel) (by decide)
    (by decide +kernel)
    (pays 18987 (by decide +kernel) (by decide +kernel))
    (takes 130 5995 (by decide +kernel) (by decide +kernel))
    (pays 20141 (by decide +kernel) (by decide +kernel))
    (takes 130 561 (by decide +kernel) (by decide +kernel))
    (takes 50 1000000000 (by decide +kernel) (by decide +kernel))
    (by decide +kernel) (by decide) (by decide)

/-- C53: user 50 gives back 100000000 pool tokens, of which 1000000 are the fee. -/
example : ∃ w', exec Sample.env [Sample.key 50] (.withdrawAll ⟨Sample.key 2, Sample.key 130,
    Sample.key 50, Sample.key 15, Sample.key 17, Sample.key 13, Sample.key 14, Sample.key 30,
    Sample.key 31, Sample.key 16, Sample.key 101⟩ 100000000 490 70) live = .ok w' :=
  C53_withdraw_all _ _ sample_ok _ live_reachable _ _ live_pool2 _ (by decide) _ _ (by decide) user
    _ _ _ 100000000 490 70 (plain 20 130 5995) (plain 21 130 561)
    ⟨some (Sample.key 130), 1001914937, none⟩ (live_tok (by decide +kernel))
    (live_tok (by decide +kernel)) (live_mint (by decide +kernel)) 1000000 99000000
    (by decide +kernel) (by decide +kernel) ⟨490, 70⟩
    (by decide +kernel) (by decide +kernel) (by decide +kernel) (by decide +kernel)
    (fun h => absurd h (by decide)) (by decide +kernel) (fun h => absurd h (by decide))
    (pays 1000000000 (by decide +kernel) (by decide +kernel))
    (by decide +kernel)
    (fun _ => takes 60 1914937 (by decide +kernel) (by decide +kernel))
    ⟨plain 20 130 5995, live_tok (by decide +kernel), rfl⟩ ⟨plain 21 130 561, live_tok (by decide +kernel), rfl⟩
    (takes 50 18987 (by decide +kernel) (by decide +kernel))
    (takes 50 20141 (by decide +kernel) (by decide +kernel))
    (by decide) (by decide) (by decide) (by decide)

/-- C53: user 50 deposits 700 A. -/
example : ∃ w', exec Sample.env [Sample.key 50] (.depositSingle ⟨Sample.key 2, Sample.key 130,
    Sample.key 50, Sample.key 30, Sample.key 13, Sample.key 14, Sample.key 15, Sample.key 17,
    Sample.key 101⟩ 700 70584412) live = .ok w' :=
  C53_deposit_single _ _ sample_ok _ live_reachable _ _ live_pool2 _ (by decide) _ _ (by decide)
    user .AtoB _ _ 700 70584412 (plain 20 130 5995) (plain 21 130 561)
    ⟨some (Sample.key 130), 1001914937, none⟩ (live_tok (by decide +kernel))
    (live_tok (by decide +kernel)) (live_mint (by decide +kernel)) 70584412 (by decide +kernel) (by decide) (by decide +kernel)
    (pays 18987 (by decide +kernel) (by decide +kernel))
    (takes 130 5995 (by decide +kernel) (by decide +kernel))
    (takes 50 1000000000 (by decide +kernel) (by decide +kernel))
    (by decide +kernel) (by decide)

/-- C53: user 50 takes 700 A out. -/
example : ∃ w', exec Sample.env [Sample.key 50] (.withdrawSingle ⟨Sample.key 2, Sample.key 130,
    Sample.key 50, Sample.key 15, Sample.key 17, Sample.key 13, Sample.key 14, Sample.key 30,
    Sample.key 16, Sample.key 101⟩ 700 71290257) live = .ok w' :=
  C53_withdraw_single _ _ sample_ok _ live_reachable _ _ live_pool2 _ (by decide) _ _ (by decide)
    user .AtoB _ _ 700 71290257 (plain 20 130 5995) (plain 21 130 561)
    ⟨some (Sample.key 130), 1001914937, none⟩ (live_tok (by decide +kernel))
    (live_tok (by decide +kernel)) (live_mint (by decide +kernel)) 705844 70584413
    (by decide +kernel) (by decide +kernel) (by decide +kernel)
    (by decide +kernel)
    (pays 1000000000 (by decide +kernel) (by decide +kernel))
    (by decide +kernel)
    (fun _ => takes 60 1914937 (by decide +kernel) (by decide +kernel))
    ⟨plain 20 130 5995, live_tok (by decide +kernel), rfl⟩ (by decide +kernel)
    (takes 50 18987 (by decide +kernel) (by decide +kernel))
    (by decide) (by decide)

/-- C54: the sample's linear pool can be initialised. -/
example : ∃ w', exec Sample.env [Sample.key 1] Sample.initLinear Sample.start = .ok w' :=
  C54_initialize _ _ sample_ok _ _ Sample.init1 ⟨0, 1, 0, 1, 0, 1, 0, 1⟩ (.linear Sample.lin)
    (.linear _ _) (Or.inl rfl) (by decide) _ (List.replicate 324 0) (plain 20 129 0) (plain 21 129 100)
    (plain 5 60 0) (plain 5 50 0) ⟨some (Sample.key 129), 0, none⟩ (by decide) rfl (by decide)
    (by decide +kernel) (by decide +kernel) (sample_start _) ⟨by decide, _, rfl, rfl, rfl, rfl, rfl⟩
    (by decide +kernel) ⟨by decide, _, rfl, rfl, rfl, rfl, rfl⟩ (by decide +kernel) (by decide)
    ⟨by decide, by decide, by decide, by decide +kernel, rfl, by decide⟩
    ⟨by decide, _, rfl, rfl, rfl⟩ (by decide +kernel) rfl (by decide) (by decide +kernel) rfl
    (by decide) (by decide +kernel) (by decide)
    (takes0 50 0 (by decide +kernel) (by decide +kernel) (by decide +kernel)) nofun
    (by intro k; cases k <;> decide)

/-- C54: and the constant-price pool. -/
example : ∃ w', exec Sample.env [Sample.key 2] Sample.initPrice Sample.start = .ok w' :=
  C54_initialize _ _ sample_ok _ _ Sample.init2 Sample.fees (.constantPrice 7)
    (.price _ _ _) (Or.inr rfl) (by decide) _ (List.replicate 324 0) (plain 20 130 5000)
    (plain 21 130 700) (plain 15 60 0) (plain 15 50 0) ⟨some (Sample.key 130), 0, none⟩ (by decide)
    rfl (by decide) (by decide +kernel) (by decide +kernel) (sample_start _)
    ⟨by decide, _, rfl, rfl, rfl, rfl, rfl⟩ (by decide +kernel)
    ⟨by decide, _, rfl, rfl, rfl, rfl, rfl⟩ (by decide +kernel) (by decide)
    ⟨by decide, by decide⟩ ⟨by decide, _, rfl, rfl, rfl⟩ (by decide +kernel) rfl (by decide)
    (by decide +kernel) rfl (by decide) (by decide +kernel) (by decide)
    (takes0 50 0 (by decide +kernel) (by decide +kernel) (by decide +kernel)) nofun
    (by intro k; cases k <;> decide)

end Props
end Verif
