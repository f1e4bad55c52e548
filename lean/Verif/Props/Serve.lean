import Verif.Lemmas.Serve
import Verif.Props.Leave

/-
C81: exactly when a swap, a deposit or a withdrawal goes through.
-/

namespace Verif
namespace Props
open Spec Processor

theorem swapDirection_in {s : SwapV1} {a : SwapAccounts}
    (h1 : a.swapSource = s.token_a ∨ a.swapSource = s.token_b)
    (h2 : a.swapDestination = s.token_a ∨ a.swapDestination = s.token_b)
    (h3 : a.swapSource ≠ a.swapDestination) :
    a.swapSource = vaultIn s (swapDirection s a) ∧
      a.swapDestination = vaultOut s (swapDirection s a) := by
  unfold swapDirection
  by_cases h : a.swapSource = s.token_a
  · rw [if_pos h]
    refine ⟨h, ?_⟩
    rcases h2 with g | g
    · exact absurd (h.trans g.symm) h3
    · exact g
  · rw [if_neg h]
    have h1 := h1.resolve_left h
    refine ⟨h1, ?_⟩
    rcases h2 with g | g
    · exact g
    · exact absurd (h1.trans g.symm) h3

theorem ordinary_in {s : SwapV1} (h : Ordinary s) (dir : TradeDirection) :
    s.pool_mint ≠ mintIn s dir ∧ s.pool_mint ≠ mintOut s dir := by
  cases dir
  · exact h
  · exact h.symm

/-- On a linear pool there is no owner's fee. -/
theorem linear_no_fee {e : SplEnv} {c : LinearPriceCurve} {x p q : Nat} {dir : TradeDirection}
    {r : SwapResult}
    (h : (Curve.linear c).swap e x p q dir ⟨0, 1, 0, 1, 0, 1, 0, 1⟩ = .ok r) : r.owner_fee = 0 := by
  unfold Curve.swap at h
  rw [Res.bind_eq_ok] at h
  obtain ⟨tf, _, h⟩ := h
  rw [Res.bind_eq_ok] at h
  obtain ⟨of, hof, h⟩ := h
  have z2 : (⟨0, 1, 0, 1, 0, 1, 0, 1⟩ : Fees).ownerTradingFee x = .ok 0 := by
    unfold Fees.ownerTradingFee calculateFee
    simp only []
    rw [if_pos (Or.inl UInt64.toNat_zero)]
  rw [z2] at hof
  cases hof
  simp only [Res.bind_eq_ok] at h
  obtain ⟨_, _, _, _, _, _, _, _, _, _, _, _, h⟩ := h
  rw [← Res.ok.inj h]

/-- What a pool in a reachable ledger is known to be, in terms of the authority given. -/
theorem pool_facts {env : Env} {K : Pubkey → Prop} (he : EnvOk env K) {w : World}
    (hr : Reachable env K w) {k : Pubkey} {s : SwapV1} (hp : PoolAt env w k s) {pda : Pubkey}
    (hpda : env.createPda k s.bump_seed = some pda) :
    Custody env w k s pda ∧ Configured env s ∧ IsPda env K pda := by
  obtain ⟨w0, h0, hst⟩ := hr
  obtain ⟨hK, ⟨z, hc⟩, hcf⟩ := reachable_pool he h0 hst k s hp
  have ez : z = pda := by have := hc.derived; rw [hpda] at this; exact (Option.some.inj this).symm
  subst ez
  exact ⟨hc, hcf, k, _, hK, hpda⟩

/-- C81.  A swap goes through exactly if it is served. -/
theorem C81_swap (env : Env) (K : Pubkey → Prop) (he : EnvOk env K) (w : World)
    (hr : Reachable env K w) (signers : List Pubkey) (hs : ∀ u ∈ signers, ¬ IsPda env K u)
    (a : SwapAccounts) (x y : UInt64)
    (ho : ∀ s, PoolAt env w a.swap s → Ordinary s ∨ ∃ c, s.swap_curve = .linear c) :
    (∃ w', exec env signers (.swap a x y) w = .ok w') ↔ SwapServed env w signers a x y := by
  constructor
  · rintro ⟨w', hx⟩
    unfold exec at hx
    rw [req_bind] at hx
    obtain ⟨hu, hx⟩ := hx
    obtain ⟨s, tin, tout, pm, r, fee, xi, xo, w1, w2, run⟩ := processSwap_ok hx
    have hp : PoolAt env w a.swap s := poolAt_of run.owner run.state
    obtain ⟨hc, hcf, hpd⟩ := pool_facts he hr hp run.pda
    obtain ⟨e1, e2⟩ := swapDirection_in run.srcIs run.dstIs run.srcNeDst
    obtain ⟨dir, hdir⟩ : ∃ dir, swapDirection s a = dir := ⟨_, rfl⟩
    have hq := run.result
    have hfc := run.feeCalc
    rw [hdir] at e1 e2 hq hfc
    have cin := custody_in hc dir
    have cout := custody_out hc dir
    -- the user's payment
    obtain ⟨htp, _, m1, pay1, pay2⟩ := (tokenTransfer_ex run.pda run.srcNeUser.symm).1 ⟨w1, run.pay⟩
    obtain ⟨_, _, _, _, _, mv1⟩ := tokenTransfer_ok run.pay
    rw [run.amtInIs, e1] at pay2
    rw [run.amtInIs] at pay1
    have em1 : m1 = mintIn s dir := mintOf_unique pay2.mintOf cin.mint
    subst em1
    -- the pool's payment
    obtain ⟨_, _, m2, out1, out2⟩ := (tokenTransfer_ex run.pda run.dstNeUser).1 ⟨w', run.payOut⟩
    rw [run.amtOutIs] at out2
    rw [e2] at out1
    have step : Frame w1 w2 ∧ (mintOf w1 a.destination = some (mintOut s dir) →
        w2 a.destination = w1 a.destination) ∧
        (0 < fee → CanReceive env w s.pool_fee_account s.pool_mint fee ∧
          pm.supply.toNat + fee < 2 ^ 64) := by
      rcases ownerFeeStep_none run.mint with ⟨h1, h2⟩ | ⟨amt, h1, h2, h3⟩
      · subst h2
        exact ⟨Frame.refl _, fun _ => rfl, fun g => absurd g (by omega)⟩
      · obtain ⟨_, _, _, _, _, mt⟩ := tokenMintTo_ok h3
        obtain ⟨_, _, g1, g2, pm', g3, g4, g5⟩ := (tokenMintTo_ex run.pda).1 ⟨w2, h3⟩
        have hord : Ordinary s := by
          rcases ho s hp with g | ⟨c, hlin⟩
          · exact g
          · have hfees : s.fees = ⟨0, 1, 0, 1, 0, 1, 0, 1⟩ := by
              rcases hcf.kind with ⟨p, h1⟩ | ⟨l, _, h2⟩
              · rw [hlin] at h1; cases h1
              · exact h2
            rw [hlin, hfees] at hq hfc
            rw [linear_no_fee hq] at hfc
            unfold Curve.withdrawSingle at hfc
            rw [if_pos rfl] at hfc
            have := Res.ok.inj hfc
            omega
        obtain ⟨o1, o2⟩ := ordinary_in hord dir
        rw [h2, run.feeIs, run.mintIs] at g1
        rw [run.mintIs] at g3
        have fm : mintOf w s.pool_fee_account = some s.pool_mint :=
          (mv1.frame.mintOf _).symm.trans g1.mintOf
        have nfs : s.pool_fee_account ≠ a.source := ne_of_mint fm pay1.mintOf o1
        have nfi : s.pool_fee_account ≠ a.swapSource := by
          rw [e1]; exact ne_of_mint fm cin.mint o1
        have em := mv1.supply s.pool_mint
        have hpm := run.mintAcc.2
        rw [run.mintIs] at hpm
        rw [supply_mint (mintAt_some.1 g3), supply_mint hpm] at em
        refine ⟨mt.frame, fun hd => ?_, fun _ => ⟨?_, by omega⟩⟩
        · refine mt.same _ ?_ ?_
          · rw [run.mintIs]; exact mint_ne hd (mintAt_some.1 g3)
          · rw [run.feeIs]; exact ne_of_mint hd g1.mintOf o2.symm
        · exact (canReceive_congr (mv1.same _ nfs nfi)).1 g1
    obtain ⟨f2, same2, hfee⟩ := step
    have f12 := mv1.frame.trans f2
    have em2 : m2 = mintOut s dir :=
      mintOf_unique ((f12.mintOf _).symm.trans out1.mintOf) cout.mint
    subst em2
    have dm : mintOf w a.destination = some (mintOut s dir) :=
      (f12.mintOf _).symm.trans out2.mintOf
    have hd1 : w1 a.destination = w a.destination := by
      refine mv1.same _ (ne_of_mint dm pay1.mintOf (mints_ne hc dir).symm) ?_
      rw [e1]
      exact ne_of_mint dm cin.mint (mints_ne hc dir).symm
    have hd2 := same2 ((mv1.frame.mintOf _).trans dm)
    refine ⟨s, dir, tin, tout, pm, r, fee, hp, run.pda, hu, e1, e2, run.mintIs, run.feeIs, htp,
      ?_, ?_, ?_, hq, run.slippage, pay1, pay2, thawed_back out1.thawed f12,
      (canReceive_congr (hd2.trans hd1)).1 out2, ?_, ?_, hfee⟩
    · rw [← e1]; exact tokenAt_some.2 run.srcTok.2
    · rw [← e2]; exact tokenAt_some.2 run.dstTok.2
    · rw [← run.mintIs]; exact mintAt_some.2 run.mintAcc.2
    · rw [← e2]; exact run.dstNeUser.symm
    · cases dir
      · exact hfc
      · exact hfc
  · rintro ⟨s, dir, tin, tout, pm, r, fee, hp, hpda, hu, e1, e2, e3, e4, htp, hin, hout, hm, hq, hy,
      pay1, pay2, hth, out2, hdst, hfc, hfr⟩
    obtain ⟨hc, hcf, hpd⟩ := pool_facts he hr hp hpda
    have cin := custody_in hc dir
    have cout := custody_out hc dir
    have hb := C07_swap_bounds _ _ _ _ _ _ _ _ hq
    have hux : a.userAuthority ≠ a.authority := fun e => hs _ hu (e ▸ hpd)
    have hio : vaultIn s dir ≠ vaultOut s dir := ne_of_mint cin.mint cout.mint (mints_ne hc dir)
    have nsi : a.source ≠ vaultIn s dir := fun e => cin.not_maySpend hux (e ▸ pay1)
    have nso : a.source ≠ vaultOut s dir := fun e => cout.not_maySpend hux (e ▸ pay1)
    have htout := tout.amount.toNat_lt
    obtain ⟨xi, exi, hxi⟩ := toU64_of pay1.lt
    obtain ⟨xo, exo, hxo⟩ := toU64_of (n := r.destination_amount_swapped) (by omega)
    obtain ⟨w1, hw1⟩ := (tokenTransfer_ex (signers := signers) (x := xi) (w := w) hpda nsi).2
      ⟨htp, Or.inl hu, mintIn s dir, by rw [exi]; exact pay1, by rw [exi]; exact pay2⟩
    obtain ⟨_, _, _, _, _, mv1⟩ := tokenTransfer_ok hw1
    have step : ∃ w2, ownerFeeStep env signers s a none fee w1 = .ok w2 ∧ Frame w1 w2 ∧
        w2 a.destination = w1 a.destination ∧ w2 (vaultOut s dir) = w1 (vaultOut s dir) := by
      unfold ownerFeeStep
      by_cases h : fee > 0
      · rw [if_pos h]
        obtain ⟨h1, h2⟩ := hfr h
        have hord : Ordinary s := by
          rcases ho s hp with g | ⟨c, hlin⟩
          · exact g
          · have hfees : s.fees = ⟨0, 1, 0, 1, 0, 1, 0, 1⟩ := by
              rcases hcf.kind with ⟨p, h1⟩ | ⟨l, _, h2⟩
              · rw [hlin] at h1; cases h1
              · exact h2
            rw [hlin, hfees] at hq hfc
            rw [linear_no_fee hq] at hfc
            unfold Curve.withdrawSingle at hfc
            rw [if_pos rfl] at hfc
            have := Res.ok.inj hfc
            omega
        obtain ⟨o1, o2⟩ := ordinary_in hord dir
        obtain ⟨xf, exf, hxf⟩ := toU64_of (n := fee) (by omega)
        obtain ⟨mo, pm', hpm', hau, _⟩ := hc.minter.frame mv1.frame
        have em := mv1.supply s.pool_mint
        rw [supply_mint hpm', supply_mint (mintAt_some.1 hm)] at em
        have hsame := mv1.same s.pool_fee_account (ne_of_mint h1.mintOf pay1.mintOf o1)
          (ne_of_mint h1.mintOf cin.mint o1)
        obtain ⟨w2, hw2⟩ := (tokenMintTo_ex (signers := signers) (tp := a.tokenProgram)
          (a := a.authority) (x := xf) (w := w1) (mint := s.pool_mint)
          (dst := s.pool_fee_account) hpda).2
          ⟨htp, Or.inr rfl, by rw [exf]; exact (canReceive_congr hsame).2 h1, mo, pm',
            mintAt_some.2 hpm', hau, by omega⟩
        obtain ⟨_, _, _, _, _, mt⟩ := tokenMintTo_ok hw2
        refine ⟨w2, ?_, mt.frame, ?_, ?_⟩
        · rw [Except_bind_ok]
          refine ⟨(fee, w1), rfl, ?_⟩
          rw [Except_bind_ok, e3, e4]
          exact ⟨xf, hxf, hw2⟩
        · have hd := (mv1.frame.mintOf _).trans out2.mintOf
          exact mt.same _ (mint_ne hd hpm')
            (ne_of_mint hd ((mv1.frame.mintOf _).trans h1.mintOf) o2.symm)
        · have hd := (mv1.frame.mintOf _).trans cout.mint
          exact mt.same _ (mint_ne hd hpm')
            (ne_of_mint hd ((mv1.frame.mintOf _).trans h1.mintOf) o2.symm)
      · rw [if_neg h]
        exact ⟨w1, rfl, Frame.refl _, rfl, rfl⟩
    obtain ⟨w2, hw2, f2, d2, v2⟩ := step
    have d1 : w1 a.destination = w a.destination :=
      mv1.same _ (ne_of_mint out2.mintOf pay1.mintOf (mints_ne hc dir).symm)
        (ne_of_mint out2.mintOf cin.mint (mints_ne hc dir).symm)
    have v1 : w1 (vaultOut s dir) = w (vaultOut s dir) := mv1.same _ nso.symm hio.symm
    have hpo : MaySpend env w (vaultOut s dir) (mintOut s dir) a.authority xo.toNat := by
      refine (cout.canPay hth ?_).maySpend
      rw [bal_some hout, exo]
      have := hb.2.2.2.1
      omega
    obtain ⟨w3, hw3⟩ := (tokenTransfer_ex (signers := signers) (tp := a.tokenProgram) (x := xo)
      (w := w2) hpda hdst.symm).2 ⟨htp, Or.inr rfl, mintOut s dir,
        (maySpend_congr (v2.trans v1)).2 hpo,
        by rw [exo]; exact (canReceive_congr (d2.trans d1)).2 out2⟩
    have hdir : swapDirection s a = dir := by
      unfold swapDirection
      rw [e1]
      cases dir
      · exact if_pos rfl
      · exact if_neg hio
    refine ⟨w3, ?_⟩
    unfold exec
    rw [req_bind]
    refine ⟨hu, SwapRun.run (ts := s) (src := tin) (dst := tout) (pm := pm) (r := r) (pt := fee)
      (i := xi) (o := xo) (w1 := w1) (w2 := w2) ?_⟩
    refine ⟨hp.1, unpackSwap_of hp, hpda, ?_, ?_, by rw [e1, e2]; exact hio,
      by rw [e1]; exact nsi.symm, by rw [e2]; exact hdst.symm, e3, e4, htp.trans hcf.tp.symm,
      ?_, ?_, ?_, by rw [hdir]; exact hq, hy, exi, by rw [e1]; exact hw1, ?_, hw2, exo,
      by rw [e2]; exact hw3⟩
    · rw [e1]
      cases dir
      · exact Or.inl rfl
      · exact Or.inr rfl
    · rw [e2]
      cases dir
      · exact Or.inr rfl
      · exact Or.inl rfl
    · rw [e1]; exact ⟨cin.1.trans hcf.tp.symm, tokenAt_some.1 hin⟩
    · rw [e2]; exact ⟨cout.1.trans hcf.tp.symm, tokenAt_some.1 hout⟩
    · rw [e3]; exact ⟨hc.minter.1.trans hcf.tp.symm, mintAt_some.1 hm⟩
    · rw [hdir]
      cases dir
      · exact hfc
      · exact hfc

theorem supply_pos (m : Mint) : m.supply > 0 ↔ m.supply ≠ 0 := by
  rw [gt_iff_lt, UInt64.lt_iff_toNat_lt, Ne, ← UInt64.toNat_inj]
  change 0 < m.supply.toNat ↔ ¬ m.supply.toNat = 0
  omega

/-- C81.  A deposit of both tokens goes through exactly if it is served. -/
theorem C81_deposit_all (env : Env) (K : Pubkey → Prop) (he : EnvOk env K) (w : World)
    (hr : Reachable env K w) (signers : List Pubkey) (hs : ∀ u ∈ signers, ¬ IsPda env K u)
    (a : DepositAllAccounts) (p maxA maxB : UInt64)
    (ho : ∀ s, PoolAt env w a.swap s → Ordinary s) :
    (∃ w', exec env signers (.depositAll a p maxA maxB) w = .ok w') ↔
      DepositAllServed env w signers a p maxA maxB := by
  constructor
  · rintro ⟨w', hx⟩
    unfold exec at hx
    rw [req_bind] at hx
    obtain ⟨hu, hx⟩ := hx
    obtain ⟨s, tA, tB, pm, r, xa, xb, xp, w1, w2, run⟩ := processDepositAll_ok hx
    have ck := run.checked
    have hp : PoolAt env w a.swap s := poolAt_of ck.owner run.state
    obtain ⟨hc, hcf, hpd⟩ := pool_facts he hr hp ck.pda
    obtain ⟨o1, o2⟩ := ho s hp
    have nA : a.sourceA ≠ a.tokenA := fun e => ck.neA (congrArg some e)
    have nB : a.sourceB ≠ a.tokenB := fun e => ck.neB (congrArg some e)
    obtain ⟨htp, _, mA, a1, a2⟩ := (tokenTransfer_ex ck.pda nA).1 ⟨w1, run.payA⟩
    obtain ⟨_, _, _, _, _, mvA⟩ := tokenTransfer_ok run.payA
    obtain ⟨_, _, mB, b1, b2⟩ := (tokenTransfer_ex ck.pda nB).1 ⟨w2, run.payB⟩
    obtain ⟨_, _, _, _, _, mvB⟩ := tokenTransfer_ok run.payB
    obtain ⟨_, _, c1, _, pm', c2, _, c3⟩ := (tokenMintTo_ex ck.pda).1 ⟨w', run.mint⟩
    have f12 := mvA.frame.trans mvB.frame
    rw [ck.isA] at a2
    rw [ck.isB] at b2
    rw [ck.isMint] at c1 c2
    have emA : mA = s.token_a_mint := mintOf_unique a2.mintOf hc.vaultA.mint
    have emB : mB = s.token_b_mint :=
      mintOf_unique ((mvA.frame.mintOf _).symm.trans b2.mintOf) hc.vaultB.mint
    subst emA emB
    have bm : mintOf w a.sourceB = some s.token_b_mint := (mvA.frame.mintOf _).symm.trans b1.mintOf
    have cm : mintOf w a.destination = some s.pool_mint := (f12.mintOf _).symm.trans c1.mintOf
    have eB1 : w1 a.sourceB = w a.sourceB := by
      refine mvA.same _ (ne_of_mint bm a1.mintOf hc.mints.symm) ?_
      rw [ck.isA]; exact ne_of_mint bm hc.vaultA.mint hc.mints.symm
    have eB2 : w1 s.token_b = w s.token_b := by
      refine mvA.same _ (ne_of_mint hc.vaultB.mint a1.mintOf hc.mints.symm) ?_
      rw [ck.isA]; exact ne_of_mint hc.vaultB.mint hc.vaultA.mint hc.mints.symm
    have eD1 : w1 a.destination = w a.destination := by
      refine mvA.same _ (ne_of_mint cm a1.mintOf o1) ?_
      rw [ck.isA]; exact ne_of_mint cm hc.vaultA.mint o1
    have eD2 : w2 a.destination = w1 a.destination := by
      refine mvB.same _ (ne_of_mint ((mvA.frame.mintOf _).trans cm) b1.mintOf o2) ?_
      rw [ck.isB]; exact ne_of_mint cm hc.vaultB.mint o2
    have es := mvB.supply s.pool_mint
    rw [mvA.supply s.pool_mint] at es
    have hpm := run.mintAcc.2
    rw [ck.isMint] at hpm
    rw [supply_mint (mintAt_some.1 c2), supply_mint hpm] at es
    have hq := run.result
    have hxp := run.amtPIs
    have hmA := UInt64.le_iff_toNat_le.1 run.maxA
    have hmB := UInt64.le_iff_toNat_le.1 run.maxB
    rw [run.amtAIs] at a1 a2 hmA
    rw [run.amtBIs] at b1 b2 hmB
    have pos : ∀ z : UInt64, z ≠ 0 → 0 < z.toNat := fun z hz => by
      rcases Nat.eq_zero_or_pos z.toNat with g | g
      · exact absurd (UInt64.toNat_inj.1 g) hz
      · exact g
    have pA := pos _ run.posA
    have pB := pos _ run.posB
    rw [run.amtAIs] at pA
    rw [run.amtBIs] at pB
    refine ⟨s, tA, tB, pm, _, _, r.token_a_amount, r.token_b_amount, hp, ck.pda, hu, ck.isA, ck.isB,
      ck.isMint, htp, ?_, ?_, mintAt_some.2 hpm, run.allowed, ?_, ?_, hq, pA, hmA, pB, hmB, a1, a2,
      (maySpend_congr eB1).1 b1, (canReceive_congr eB2).1 b2, ?_, ?_⟩
    · rw [← ck.isA]; exact tokenAt_some.2 run.tokA.2
    · rw [← ck.isB]; exact tokenAt_some.2 run.tokB.2
    · intro h
      rw [if_pos ((supply_pos pm).2 h), if_pos ((supply_pos pm).2 h)]
      exact ⟨rfl, rfl⟩
    · intro h
      rw [if_neg (fun g => (supply_pos pm).1 g h), if_neg (fun g => (supply_pos pm).1 g h)]
      exact ⟨rfl, rfl⟩
    · rw [← hxp]; exact (canReceive_congr (eD2.trans eD1)).1 c1
    · rw [← hxp]; omega
  · rintro ⟨s, tA, tB, pm, pool, sup, amtA, amtB, hp, hpda, hu, e1, e2, e3, htp, hA, hB, hm, hal, hs1,
      hs0, hq, hA0, hAx, hB0, hBx, a1, a2, b1, b2, c1, hsup⟩
    obtain ⟨hc, hcf, hpd⟩ := pool_facts he hr hp hpda
    obtain ⟨o1, o2⟩ := ho s hp
    have hux : a.userAuthority ≠ a.authority := fun e => hs _ hu (e ▸ hpd)
    have nA : a.sourceA ≠ s.token_a := fun e => hc.vaultA.not_maySpend hux (e ▸ a1)
    have nB : a.sourceB ≠ s.token_b := fun e => hc.vaultB.not_maySpend hux (e ▸ b1)
    obtain ⟨xa, exa, _⟩ := toU64_of a1.lt
    obtain ⟨xb, exb, _⟩ := toU64_of b1.lt
    obtain ⟨xp, exp, _⟩ := toU64_of (n := pool) (by omega)
    obtain ⟨w1, hw1⟩ := (tokenTransfer_ex (signers := signers) (x := xa) (w := w) hpda nA).2
      ⟨htp, Or.inl hu, _, by rw [exa]; exact a1, by rw [exa]; exact a2⟩
    obtain ⟨_, _, _, _, _, mvA⟩ := tokenTransfer_ok hw1
    have eB1 : w1 a.sourceB = w a.sourceB :=
      mvA.same _ (ne_of_mint b1.mintOf a1.mintOf hc.mints.symm)
        (ne_of_mint b1.mintOf hc.vaultA.mint hc.mints.symm)
    have eB2 : w1 s.token_b = w s.token_b :=
      mvA.same _ (ne_of_mint hc.vaultB.mint a1.mintOf hc.mints.symm)
        (ne_of_mint hc.vaultB.mint hc.vaultA.mint hc.mints.symm)
    obtain ⟨w2, hw2⟩ := (tokenTransfer_ex (signers := signers) (x := xb) (w := w1) hpda nB).2
      ⟨htp, Or.inl hu, _, by rw [exb]; exact (maySpend_congr eB1).2 b1,
        by rw [exb]; exact (canReceive_congr eB2).2 b2⟩
    obtain ⟨_, _, _, _, _, mvB⟩ := tokenTransfer_ok hw2
    have eD1 : w1 a.destination = w a.destination :=
      mvA.same _ (ne_of_mint c1.mintOf a1.mintOf o1) (ne_of_mint c1.mintOf hc.vaultA.mint o1)
    have eD2 : w2 a.destination = w1 a.destination :=
      mvB.same _ (ne_of_mint c1.mintOf b1.mintOf o2) (ne_of_mint c1.mintOf hc.vaultB.mint o2)
    obtain ⟨mo, pm', hpm', hau, _⟩ := hc.minter.frame (mvA.frame.trans mvB.frame)
    have es := mvB.supply s.pool_mint
    rw [mvA.supply s.pool_mint, supply_mint hpm', supply_mint (mintAt_some.1 hm)] at es
    obtain ⟨w3, hw3⟩ := (tokenMintTo_ex (signers := signers) (tp := a.tokenProgram)
      (a := a.authority) (x := xp) (w := w2) hpda).2
      ⟨htp, Or.inr rfl, by rw [exp]; exact (canReceive_congr (eD2.trans eD1)).2 c1, mo, pm',
        mintAt_some.2 hpm', hau, by omega⟩
    have epool : (if pm.supply > 0 then p.toNat else s.swap_curve.newPoolSupply) = pool := by
      by_cases h : pm.supply = 0
      · rw [if_neg (fun g => (supply_pos pm).1 g h), (hs0 h).1]; rfl
      · rw [if_pos ((supply_pos pm).2 h), (hs1 h).1]
    have esup : (if pm.supply > 0 then pm.supply.toNat else s.swap_curve.newPoolSupply) = sup := by
      by_cases h : pm.supply = 0
      · rw [if_neg (fun g => (supply_pos pm).1 g h), (hs0 h).2]; rfl
      · rw [if_pos ((supply_pos pm).2 h), (hs1 h).2]
    refine ⟨w3, ?_⟩
    unfold exec
    rw [req_bind]
    refine ⟨hu, DepositAllRun.run (ts := s) (tA := tA) (tB := tB) (pm := pm) (r := ⟨amtA, amtB⟩)
      (xa := xa) (xb := xb) (xp := xp) (w1 := w1) (w2 := w2) ?_⟩
    refine ⟨unpackSwap_of hp, hal, ⟨hp.1, hpda, e1, e2, e3, htp.trans hcf.tp.symm, ?_, ?_,
      Or.inl rfl⟩, ?_, ?_, ?_, by rw [epool, esup]; exact hq, exa,
      UInt64.le_iff_toNat_le.2 (by omega), ?_, exb, UInt64.le_iff_toNat_le.2 (by omega), ?_,
      by rw [epool]; exact exp, by rw [e1]; exact hw1, by rw [e2]; exact hw2, by rw [e3]; exact hw3⟩
    · rw [e1]; exact fun h => nA (Option.some.inj h)
    · rw [e2]; exact fun h => nB (Option.some.inj h)
    · rw [e1]; exact ⟨hc.vaultA.1.trans hcf.tp.symm, tokenAt_some.1 hA⟩
    · rw [e2]; exact ⟨hc.vaultB.1.trans hcf.tp.symm, tokenAt_some.1 hB⟩
    · rw [e3]; exact ⟨hc.minter.1.trans hcf.tp.symm, mintAt_some.1 hm⟩
    · intro h; rw [h] at exa; change 0 = amtA at exa; omega
    · intro h; rw [h] at exb; change 0 = amtB at exb; omega

theorem vault_mints {env : Env} {w : World} {k pda : Pubkey} {s : SwapV1} (hc : Custody env w k s pda)
    {tA tB : TokenAccount} (hA : tokenAt w s.token_a = some tA) (hB : tokenAt w s.token_b = some tB) :
    tA.mint = s.token_a_mint ∧ tB.mint = s.token_b_mint := by
  have h1 := hc.vaultA.mint
  have h2 := hc.vaultB.mint
  unfold mintOf at h1 h2
  rw [hA] at h1
  rw [hB] at h2
  exact ⟨Option.some.inj h1, Option.some.inj h2⟩

theorem singleDirection_mint {m a b : Pubkey} {dir : TradeDirection}
    (h : singleDirection m a b = .ok dir) : m = sideOf dir a b := by
  unfold singleDirection at h
  split at h
  · rename_i g; cases h; exact g
  · split at h
    · rename_i g; cases h; exact g
    · cases h

/-- C81.  A deposit of one token goes through exactly if it is served. -/
theorem C81_deposit_single (env : Env) (K : Pubkey → Prop) (he : EnvOk env K) (w : World)
    (hr : Reachable env K w) (signers : List Pubkey) (hs : ∀ u ∈ signers, ¬ IsPda env K u)
    (a : DepositSingleAccounts) (x minPool : UInt64)
    (ho : ∀ s, PoolAt env w a.swap s → Ordinary s) :
    (∃ w', exec env signers (.depositSingle a x minPool) w = .ok w') ↔
      DepositSingleServed env w signers a x minPool := by
  constructor
  · rintro ⟨w', hx⟩
    unfold exec at hx
    rw [req_bind] at hx
    obtain ⟨hu, hx⟩ := hx
    obtain ⟨s, src, tA, tB, dir, pm, xp, w1, run⟩ := processDepositSingle_ok hx
    have ck := run.checked
    have hp : PoolAt env w a.swap s := poolAt_of ck.owner run.state
    obtain ⟨hc, hcf, hpd⟩ := pool_facts he hr hp ck.pda
    obtain ⟨o1, _⟩ := ordinary_in (ho s hp) dir
    have cin := custody_in hc dir
    have hA : tokenAt w s.token_a = some tA := by rw [← ck.isA]; exact tokenAt_some.2 run.tokA.2
    have hB : tokenAt w s.token_b = some tB := by rw [← ck.isB]; exact tokenAt_some.2 run.tokB.2
    have hside : sideOf dir a.tokenA a.tokenB = vaultIn s dir := by
      rw [ck.isA, ck.isB, sideOf_in]
    have hne : a.source ≠ vaultIn s dir := by
      intro e
      cases dir
      · exact ck.neA (by rw [if_pos rfl, ck.isA, e]; rfl)
      · exact ck.neB (by rw [if_pos rfl, ck.isB, e]; rfl)
    have hpay := run.pay
    rw [hside] at hpay
    obtain ⟨htp, _, m, a1, a2⟩ := (tokenTransfer_ex ck.pda hne).1 ⟨w1, hpay⟩
    obtain ⟨_, _, _, _, _, mv⟩ := tokenTransfer_ok hpay
    obtain ⟨_, _, c1, _, pm', c2, _, c3⟩ := (tokenMintTo_ex ck.pda).1 ⟨w', run.mint⟩
    have em : m = mintIn s dir := mintOf_unique a2.mintOf cin.mint
    subst em
    rw [ck.isMint] at c1 c2
    have cm : mintOf w a.destination = some s.pool_mint := (mv.frame.mintOf _).symm.trans c1.mintOf
    have eD : w1 a.destination = w a.destination :=
      mv.same _ (ne_of_mint cm a1.mintOf o1) (ne_of_mint cm cin.mint o1)
    have hpm := run.mintAcc.2
    rw [ck.isMint] at hpm
    have es := mv.supply s.pool_mint
    rw [supply_mint (mintAt_some.1 c2), supply_mint hpm] at es
    refine ⟨s, dir, tA, tB, pm, xp.toNat, hp, ck.pda, hu, ck.isA, ck.isB, ck.isMint, htp, hA, hB,
      mintAt_some.2 hpm, ?_, ?_, ?_, UInt64.le_iff_toNat_le.1 run.minP, a1, a2,
      (canReceive_congr eD).1 c1, by omega⟩
    · intro h
      rcases run.result with ⟨g, _⟩ | ⟨_, g⟩
      · exact absurd (UInt64.toNat_inj.1 g) h
      · exact g
    · intro h
      rcases run.result with ⟨_, g⟩ | ⟨g, _⟩
      · rw [g]; rfl
      · rw [h] at g; exact absurd g (Nat.lt_irrefl 0)
    · rcases Nat.eq_zero_or_pos xp.toNat with g | g
      · exact absurd (UInt64.toNat_inj.1 g) run.posP
      · exact g
  · rintro ⟨s, dir, tA, tB, pm, pool, hp, hpda, hu, e1, e2, e3, htp, hA, hB, hm, hq1, hq0, hp0, hpm,
      a1, a2, c1, hsup⟩
    obtain ⟨hc, hcf, hpd⟩ := pool_facts he hr hp hpda
    obtain ⟨o1, _⟩ := ordinary_in (ho s hp) dir
    have cin := custody_in hc dir
    have hux : a.userAuthority ≠ a.authority := fun e => hs _ hu (e ▸ hpd)
    have nA : a.source ≠ s.token_a := fun e => hc.vaultA.not_maySpend hux (e ▸ a1)
    have nB : a.source ≠ s.token_b := fun e => hc.vaultB.not_maySpend hux (e ▸ a1)
    have nin : a.source ≠ vaultIn s dir := fun e => cin.not_maySpend hux (e ▸ a1)
    obtain ⟨emA, emB⟩ := vault_mints hc hA hB
    obtain ⟨so, st, hst1, hsm, _⟩ := id a1
    obtain ⟨xp, exp, _⟩ := toU64_of (n := pool) (by omega)
    obtain ⟨w1, hw1⟩ := (tokenTransfer_ex (signers := signers) (w := w) hpda nin).2
      ⟨htp, Or.inl hu, _, a1, a2⟩
    obtain ⟨_, _, _, _, _, mv⟩ := tokenTransfer_ok hw1
    have eD : w1 a.destination = w a.destination :=
      mv.same _ (ne_of_mint c1.mintOf a1.mintOf o1) (ne_of_mint c1.mintOf cin.mint o1)
    obtain ⟨mo, pm', hpm', hau, _⟩ := hc.minter.frame mv.frame
    have es := mv.supply s.pool_mint
    rw [supply_mint hpm', supply_mint (mintAt_some.1 hm)] at es
    obtain ⟨w2, hw2⟩ := (tokenMintTo_ex (signers := signers) (tp := a.tokenProgram)
      (a := a.authority) (x := xp) (w := w1) hpda).2
      ⟨htp, Or.inr rfl, by rw [exp]; exact (canReceive_congr eD).2 c1, mo, pm', mintAt_some.2 hpm',
        hau, by omega⟩
    refine ⟨w2, ?_⟩
    unfold exec
    rw [req_bind]
    refine ⟨hu, DepositSingleRun.run (ts := s) (src := st) (tA := tA) (tB := tB) (dir := dir)
      (pm := pm) (xp := xp) (w1 := w1) ?_⟩
    refine ⟨unpackSwap_of hp, ⟨so.trans hcf.tp.symm, tokenAt_some.1 hst1⟩, ?_, ?_, ?_,
      ⟨hp.1, hpda, e1, e2, e3, htp.trans hcf.tp.symm, ?_, ?_, Or.inl rfl⟩, ?_, ?_,
      UInt64.le_iff_toNat_le.2 (by omega), ?_, by rw [e1, e2, sideOf_in]; exact hw1,
      by rw [e3]; exact hw2⟩
    · rw [e1]; exact ⟨hc.vaultA.1.trans hcf.tp.symm, tokenAt_some.1 hA⟩
    · rw [e2]; exact ⟨hc.vaultB.1.trans hcf.tp.symm, tokenAt_some.1 hB⟩
    · rw [emA, emB]
      refine singleDirection_of hc.mints ?_
      rw [hsm]
      cases dir <;> rfl
    · rw [e1]
      split
      · exact fun h => nA (Option.some.inj h)
      · exact nofun
    · rw [e2]
      split
      · exact fun h => nB (Option.some.inj h)
      · exact nofun
    · rw [e3]; exact ⟨hc.minter.1.trans hcf.tp.symm, mintAt_some.1 hm⟩
    · by_cases h : pm.supply = 0
      · refine Or.inl ⟨by rw [h]; rfl, ?_⟩
        rw [exp, hq0 h]; rfl
      · refine Or.inr ⟨?_, by rw [exp]; exact hq1 h⟩
        rcases Nat.eq_zero_or_pos pm.supply.toNat with h1 | h1
        · exact absurd (UInt64.toNat_inj.1 h1) h
        · exact h1
    · intro h; rw [h] at exp; change 0 = pool at exp; omega

theorem withdrawFee_iff {s : SwapV1} {fee source : Pubkey} {p x : Nat} (e : fee = s.pool_fee_account) :
    ((fee = source ∧ x = 0) ∨ (fee ≠ source ∧ s.fees.ownerWithdrawFee p = .ok x)) ↔
      WithdrawFee s source p x := by
  subst e
  unfold WithdrawFee
  constructor
  · rintro (⟨h1, h2⟩ | ⟨h1, h2⟩)
    · exact ⟨fun _ => h2, fun g => absurd h1.symm g⟩
    · exact ⟨fun g => absurd g.symm h1, fun _ => h2⟩
  · rintro ⟨h1, h2⟩
    by_cases g : s.pool_fee_account = source
    · exact Or.inl ⟨g, h1 g.symm⟩
    · exact Or.inr ⟨g, h2 (Ne.symm g)⟩

/-- What the fee and the burn of a withdrawal leave alone. -/
theorem feeBurn_same {env : Env} {signers : List Pubkey} {swap tp src fee mint a : Pubkey}
    {bump : UInt8} {x y : UInt64} {w w1 w2 : World}
    (h1 : tokenTransferIfPos env signers swap tp src fee a bump x w = .ok w1)
    (h2 : tokenBurn env signers swap tp src mint a bump y w1 = .ok w2) :
    Frame w w2 ∧ ∀ k n, mintOf w k = some n → k ≠ src → (0 < x.toNat → k ≠ fee) → w2 k = w k := by
  obtain ⟨f1, s1⟩ := ifPos_same h1
  obtain ⟨_, _, _, _, _, bt⟩ := tokenBurn_ok h2
  refine ⟨f1.trans bt.frame, fun k n hk hn hf => ?_⟩
  obtain ⟨pm, _, hpm⟩ := bt.mintAcc
  rw [bt.same k (mint_ne ((f1.mintOf k).trans hk) hpm) hn, s1 k hn hf]

/-- C81.  A withdrawal of both tokens goes through exactly if it is served. -/
theorem C81_withdraw_all (env : Env) (K : Pubkey → Prop) (he : EnvOk env K) (w : World)
    (hr : Reachable env K w) (signers : List Pubkey)
    (a : WithdrawAllAccounts) (p minA minB : UInt64)
    (ho : ∀ s, PoolAt env w a.swap s → Ordinary s) :
    (∃ w', exec env signers (.withdrawAll a p minA minB) w = .ok w') ↔
      WithdrawAllServed env w signers a p minA minB := by
  constructor
  · rintro ⟨w', hx⟩
    unfold exec at hx
    rw [req_bind] at hx
    obtain ⟨hu, hx⟩ := hx
    obtain ⟨s, tA, tB, pm, xf, xb, r, xA, xB, w1, w2, w3, run, hrA, hrB⟩ := processWithdrawAll_fits hx
    have ck := run.checked
    have hp : PoolAt env w a.swap s := poolAt_of ck.owner run.state
    obtain ⟨hc, hcf, hpd⟩ := pool_facts he hr hp ck.pda
    obtain ⟨o1, o2⟩ := ho s hp
    have hfee : a.fee = s.pool_fee_account := by
      rcases ck.isFee with g | g
      · cases g
      · exact Option.some.inj g
    have nA : s.token_a ≠ a.destA := fun e => ck.neA (by rw [ck.isA, e])
    have nB : s.token_b ≠ a.destB := fun e => ck.neB (by rw [ck.isB, e])
    have nf : 0 < xf.toNat → a.source ≠ a.fee := by
      intro g e
      rcases run.feeIs with ⟨_, h⟩ | ⟨h, _⟩
      · omega
      · exact h e.symm
    obtain ⟨htp, _, both, feeR, _, pm', m1, m2⟩ :=
      (feeBurn_ex ck.pda nf).1 ⟨w1, w2, run.payFee, run.burn⟩
    obtain ⟨f2, same2⟩ := feeBurn_same run.payFee run.burn
    have payA := run.payA
    have payB := run.payB
    rw [ck.isA] at payA
    rw [ck.isB] at payB
    obtain ⟨f3, same3⟩ := ifPos_same payA
    rw [ck.isMint] at both m1
    rw [ck.isMint] at feeR
    have hpm := run.mintAcc.2
    rw [ck.isMint] at hpm
    have epm : pm' = pm := by
      rw [mintAt_some] at m1
      rw [hpm] at m1
      cases m1
      rfl
    subst epm
    have nsA : ∀ k n, mintOf w k = some n → s.pool_mint ≠ n → w2 k = w k := by
      intro k n hk hn
      refine same2 k n hk (ne_of_mint hk both.mintOf hn.symm) (fun g => ?_)
      exact ne_of_mint hk (feeR g).mintOf hn.symm
    have rA : 0 < xA.toNat → Thawed w s.token_a ∧ CanReceive env w a.destA s.token_a_mint xA.toNat := by
      intro g
      obtain ⟨n, q1, q2⟩ := (ifPos_ex ck.pda nA htp (Or.inr rfl)).1 ⟨w3, payA⟩ g
      have en : n = s.token_a_mint :=
        mintOf_unique ((f2.mintOf _).symm.trans q1.mintOf) hc.vaultA.mint
      subst en
      exact ⟨thawed_back q1.thawed f2,
        (canReceive_congr (nsA _ _ ((f2.mintOf _).symm.trans q2.mintOf) o1)).1 q2⟩
    have rB : 0 < xB.toNat → Thawed w s.token_b ∧ CanReceive env w a.destB s.token_b_mint xB.toNat := by
      intro g
      obtain ⟨n, q1, q2⟩ := (ifPos_ex ck.pda nB htp (Or.inr rfl)).1 ⟨w', payB⟩ g
      have f23 := f2.trans f3
      have en : n = s.token_b_mint :=
        mintOf_unique ((f23.mintOf _).symm.trans q1.mintOf) hc.vaultB.mint
      subst en
      have hm2 := (f3.mintOf _).symm.trans q2.mintOf
      have hm := (f2.mintOf _).symm.trans hm2
      have e3 : w3 a.destB = w2 a.destB := by
        refine same3 _ (ne_of_mint hm hc.vaultA.mint hc.mints.symm) (fun g => ?_)
        exact ne_of_mint hm (rA g).2.mintOf hc.mints.symm
      exact ⟨thawed_back q1.thawed f23, (canReceive_congr (e3.trans (nsA _ _ hm o2))).1 q2⟩
    have zero : ∀ x t : UInt64, ¬ (x = 0 ∧ t ≠ 0) → x.toNat = 0 → t = 0 := by
      intro x t h g
      by_contra h2
      exact h ⟨UInt64.toNat_inj.1 g, h2⟩
    refine ⟨s, tA, tB, pm', xf.toNat, xb.toNat, r, xA.toNat, xB.toNat, hp, ck.pda, hu, ck.isA, ck.isB,
      ck.isMint, hfee, htp, ?_, ?_, mintAt_some.2 hpm, (withdrawFee_iff hfee).1 run.feeIs, run.burntIs,
      run.result, hrA, hrB, run.amtAIs, run.amtBIs, UInt64.le_iff_toNat_le.1 run.minA,
      UInt64.le_iff_toNat_le.1 run.minB, zero _ _ run.posA, zero _ _ run.posB, both, m2, ?_, nA.symm,
      nB.symm, rA, rB⟩
    · rw [← ck.isA]; exact tokenAt_some.2 run.tokA.2
    · rw [← ck.isB]; exact tokenAt_some.2 run.tokB.2
    · rw [← hfee]; exact feeR
  · rintro ⟨s, tA, tB, pm, fee, burnt, r, amtA, amtB, hp, hpda, hu, e1, e2, e3, e4, htp, hA, hB, hm,
      hfee, hsum, hq, hrA, hrB, hAe, hBe, hA1, hB1, hA2, hB2, both, hsup, feeR, nA, nB, rA, rB⟩
    obtain ⟨hc, hcf, hpd⟩ := pool_facts he hr hp hpda
    obtain ⟨o1, o2⟩ := ho s hp
    have hpl := p.toNat_lt
    have hAl := tA.amount.toNat_lt
    have hBl := tB.amount.toNat_lt
    obtain ⟨xf, exf, _⟩ := toU64_of (n := fee) (by omega)
    obtain ⟨xb, exb, _⟩ := toU64_of (n := burnt) (by omega)
    obtain ⟨xA, exA, _⟩ := toU64_of (n := amtA) (by omega)
    obtain ⟨xB, exB, _⟩ := toU64_of (n := amtB) (by omega)
    have nf : 0 < xf.toNat → a.source ≠ s.pool_fee_account := by
      intro g e
      have := hfee.1 e
      omega
    obtain ⟨w1, w2, hw1, hw2⟩ := (feeBurn_ex (signers := signers) (x := xf) (y := xb) (w := w)
      (mint := s.pool_mint) hpda nf).2
      ⟨htp, Or.inl hu, by rw [exf, exb]; exact both, by rw [exf]; exact feeR, hc.minter.1, pm, hm,
        by rw [exb]; exact hsup⟩
    obtain ⟨f2, same2⟩ := feeBurn_same hw1 hw2
    have nsA : ∀ k n, mintOf w k = some n → s.pool_mint ≠ n → w2 k = w k := by
      intro k n hk hn
      refine same2 k n hk (ne_of_mint hk both.mintOf hn.symm) (fun g => ?_)
      exact ne_of_mint hk (feeR (by omega)).mintOf hn.symm
    obtain ⟨w3, hw3⟩ := (ifPos_ex (signers := signers) (x := xA) (w := w2) (a := a.authority)
      hpda nA.symm htp (Or.inr rfl)).2 (by
        intro g
        rw [exA] at g ⊢
        obtain ⟨g1, g2⟩ := rA g
        refine ⟨s.token_a_mint, (maySpend_congr (nsA _ _ hc.vaultA.mint o1)).2
          (hc.vaultA.canPay g1 ?_).maySpend, (canReceive_congr (nsA _ _ g2.mintOf o1)).2 g2⟩
        rw [bal_some hA]
        omega)
    obtain ⟨f3, same3⟩ := ifPos_same hw3
    have nd : ∀ k, mintOf w k = some s.token_b_mint → w3 k = w k := by
      intro k hk
      rw [← nsA k _ hk o2]
      refine same3 k (ne_of_mint hk hc.vaultA.mint hc.mints.symm) (fun g => ?_)
      exact ne_of_mint hk (rA (by omega)).2.mintOf hc.mints.symm
    obtain ⟨w4, hw4⟩ := (ifPos_ex (signers := signers) (x := xB) (w := w3) (a := a.authority)
      hpda nB.symm htp (Or.inr rfl)).2 (by
        intro g
        rw [exB] at g ⊢
        obtain ⟨g1, g2⟩ := rB g
        refine ⟨s.token_b_mint, (maySpend_congr (nd _ hc.vaultB.mint)).2
          (hc.vaultB.canPay g1 ?_).maySpend, (canReceive_congr (nd _ g2.mintOf)).2 g2⟩
        rw [bal_some hB]
        omega)
    refine ⟨w4, ?_⟩
    unfold exec
    rw [req_bind]
    refine ⟨hu, WithdrawAllRun.run (ts := s) (tA := tA) (tB := tB) (pm := pm) (r := r) (fee := xf)
      (burnt := xb) (xa := xA) (xb := xB) (w1 := w1) (w2 := w2) (w3 := w3) ?_ hrA hrB⟩
    refine ⟨unpackSwap_of hp, ⟨hp.1, hpda, e1, e2, e3, htp.trans hcf.tp.symm, ?_, ?_,
      Or.inr (by rw [e4])⟩, ?_, ?_, ?_, ?_, by omega, by rw [exb]; exact hq, by omega,
      UInt64.le_iff_toNat_le.2 (by omega), ?_, by omega, UInt64.le_iff_toNat_le.2 (by omega), ?_,
      by rw [e4]; exact hw1, by rw [e3]; exact hw2, by rw [e1]; exact hw3, by rw [e2]; exact hw4⟩
    · rw [e1]; exact fun h => nA (Option.some.inj h)
    · rw [e2]; exact fun h => nB (Option.some.inj h)
    · rw [e1]; exact ⟨hc.vaultA.1.trans hcf.tp.symm, tokenAt_some.1 hA⟩
    · rw [e2]; exact ⟨hc.vaultB.1.trans hcf.tp.symm, tokenAt_some.1 hB⟩
    · rw [e3]; exact ⟨hc.minter.1.trans hcf.tp.symm, mintAt_some.1 hm⟩
    · rw [exf]; exact (withdrawFee_iff e4).2 hfee
    · rintro ⟨h1, h2⟩
      rw [h1] at exA
      exact h2 (hA2 exA.symm)
    · rintro ⟨h1, h2⟩
      rw [h1] at exB
      exact h2 (hB2 exB.symm)

/-- C81.  A withdrawal of one token goes through exactly if it is served. -/
theorem C81_withdraw_single (env : Env) (K : Pubkey → Prop) (he : EnvOk env K) (w : World)
    (hr : Reachable env K w) (signers : List Pubkey)
    (a : WithdrawSingleAccounts) (x maxPool : UInt64)
    (ho : ∀ s, PoolAt env w a.swap s → Ordinary s) :
    (∃ w', exec env signers (.withdrawSingle a x maxPool) w = .ok w') ↔
      WithdrawSingleServed env w signers a x maxPool := by
  constructor
  · rintro ⟨w', hx⟩
    unfold exec at hx
    rw [req_bind] at hx
    obtain ⟨hu, hx⟩ := hx
    obtain ⟨s, dt, tA, tB, dir, pm, xf, xb, w1, w2, run⟩ := processWithdrawSingle_ok hx
    have ck := run.checked
    have hp : PoolAt env w a.swap s := poolAt_of ck.owner run.state
    obtain ⟨hc, hcf, hpd⟩ := pool_facts he hr hp ck.pda
    obtain ⟨o1, _⟩ := ordinary_in (ho s hp) dir
    have cin := custody_in hc dir
    have hA : tokenAt w s.token_a = some tA := by rw [← ck.isA]; exact tokenAt_some.2 run.tokA.2
    have hB : tokenAt w s.token_b = some tB := by rw [← ck.isB]; exact tokenAt_some.2 run.tokB.2
    have hfee : a.fee = s.pool_fee_account := by
      rcases ck.isFee with g | g
      · cases g
      · exact Option.some.inj g
    have hne : vaultIn s dir ≠ a.destination := by
      intro e
      cases dir
      · exact ck.neA (by rw [if_pos rfl, ck.isA, ← e]; rfl)
      · exact ck.neB (by rw [if_pos rfl, ck.isB, ← e]; rfl)
    have nf : 0 < xf.toNat → a.source ≠ a.fee := by
      intro g e
      rcases run.feeIs with ⟨_, h⟩ | ⟨h, _⟩
      · omega
      · exact h e.symm
    obtain ⟨htp, _, both, feeR, _, pm', m1, m2⟩ :=
      (feeBurn_ex ck.pda nf).1 ⟨w1, w2, run.payFee, run.burn⟩
    obtain ⟨f2, same2⟩ := feeBurn_same run.payFee run.burn
    have pay := run.pay
    rw [ck.isA, ck.isB, sideOf_in] at pay
    rw [ck.isMint] at both m1
    rw [ck.isMint] at feeR
    have hpm := run.mintAcc.2
    rw [ck.isMint] at hpm
    have epm : pm' = pm := by
      rw [mintAt_some] at m1
      rw [hpm] at m1
      cases m1
      rfl
    subst epm
    have nsA : ∀ k, mintOf w k = some (mintIn s dir) → w2 k = w k := by
      intro k hk
      refine same2 k _ hk (ne_of_mint hk both.mintOf o1.symm) (fun g => ?_)
      exact ne_of_mint hk (feeR g).mintOf o1.symm
    obtain ⟨_, _, n, q1, q2⟩ := (tokenTransfer_ex ck.pda hne).1 ⟨w', pay⟩
    have en : n = mintIn s dir := mintOf_unique ((f2.mintOf _).symm.trans q1.mintOf) cin.mint
    subst en
    have q1' := (maySpend_congr (nsA _ cin.mint)).1 q1
    refine ⟨s, dir, tA, tB, pm', xf.toNat, xb.toNat, hp, ck.pda, hu, ck.isA, ck.isB, ck.isMint, hfee,
      htp, hA, hB, mintAt_some.2 hpm, run.result, (withdrawFee_iff hfee).1 run.feeIs,
      Nat.pos_of_ne_zero run.posP, run.maxP, both, m2, ?_, q1'.thawed, ?_,
      (canReceive_congr (nsA _ ((f2.mintOf _).symm.trans q2.mintOf))).1 q2, hne.symm⟩
    · rw [← hfee]; exact feeR
    · obtain ⟨_, t, ht, _, _, hx, _⟩ := q1'
      rw [bal_some ht]
      exact_mod_cast hx
  · rintro ⟨s, dir, tA, tB, pm, fee, burnt, hp, hpda, hu, e1, e2, e3, e4, htp, hA, hB, hm, hq, hfee,
      hpos, hmax, both, hsup, feeR, hth, hx, hrecv, hdst⟩
    obtain ⟨hc, hcf, hpd⟩ := pool_facts he hr hp hpda
    obtain ⟨o1, _⟩ := ordinary_in (ho s hp) dir
    have cin := custody_in hc dir
    have hml := maxPool.toNat_lt
    obtain ⟨emA, emB⟩ := vault_mints hc hA hB
    obtain ⟨dob, dt, hdt, hdm, _⟩ := id hrecv
    obtain ⟨xf, exf, _⟩ := toU64_of (n := fee) (by omega)
    obtain ⟨xb, exb, _⟩ := toU64_of (n := burnt) (by omega)
    have nf : 0 < xf.toNat → a.source ≠ s.pool_fee_account := by
      intro g e
      have := hfee.1 e
      omega
    obtain ⟨w1, w2, hw1, hw2⟩ := (feeBurn_ex (signers := signers) (x := xf) (y := xb) (w := w)
      (mint := s.pool_mint) hpda nf).2
      ⟨htp, Or.inl hu, by rw [exf, exb]; exact both, by rw [exf]; exact feeR, hc.minter.1, pm, hm,
        by rw [exb]; exact hsup⟩
    obtain ⟨f2, same2⟩ := feeBurn_same hw1 hw2
    have nsA : ∀ k, mintOf w k = some (mintIn s dir) → w2 k = w k := by
      intro k hk
      refine same2 k _ hk (ne_of_mint hk both.mintOf o1.symm) (fun g => ?_)
      exact ne_of_mint hk (feeR (by omega)).mintOf o1.symm
    obtain ⟨w3, hw3⟩ := (tokenTransfer_ex (signers := signers) (x := x) (w := w2) (a := a.authority)
      hpda hdst.symm).2 ⟨htp, Or.inr rfl, mintIn s dir,
        (maySpend_congr (nsA _ cin.mint)).2 (cin.canPay hth hx).maySpend,
        (canReceive_congr (nsA _ hrecv.mintOf)).2 hrecv⟩
    refine ⟨w3, ?_⟩
    unfold exec
    rw [req_bind]
    refine ⟨hu, WithdrawSingleRun.run (ts := s) (dst := dt) (tA := tA) (tB := tB) (dir := dir)
      (pm := pm) (fee := xf) (burnt := xb) (w1 := w1) (w2 := w2) ?_⟩
    refine ⟨unpackSwap_of hp, ⟨dob.trans hcf.tp.symm, tokenAt_some.1 hdt⟩, ?_, ?_, ?_,
      ⟨hp.1, hpda, e1, e2, e3, htp.trans hcf.tp.symm, ?_, ?_, Or.inr (by rw [e4])⟩, ?_,
      by rw [exb]; exact hq, ?_, by omega, by omega, by rw [e4]; exact hw1, by rw [e3]; exact hw2,
      by rw [e1, e2, sideOf_in]; exact hw3⟩
    · rw [e1]; exact ⟨hc.vaultA.1.trans hcf.tp.symm, tokenAt_some.1 hA⟩
    · rw [e2]; exact ⟨hc.vaultB.1.trans hcf.tp.symm, tokenAt_some.1 hB⟩
    · rw [emA, emB]
      refine singleDirection_of hc.mints ?_
      rw [hdm]
      cases dir <;> rfl
    · rw [e1]
      cases dir
      · exact fun h => hdst (Option.some.inj h)
      · exact nofun
    · rw [e2]
      cases dir
      · exact nofun
      · exact fun h => hdst (Option.some.inj h)
    · rw [e3]; exact ⟨hc.minter.1.trans hcf.tp.symm, mintAt_some.1 hm⟩
    · rw [exf, exb]; exact (withdrawFee_iff e4).2 hfee

/-! ### Examples -/

/-- The sample ledger after user 50 has approved 51 for `n` of their token A. -/
def helped (n : UInt64) : World := live.setData (Sample.key 30)
  (.token { plain 20 50 18987 with delegate := some (Sample.key 51), delegated_amount := n })

theorem helped_reachable (n : UInt64) : Reachable Sample.env samplePools (helped n) := by
  obtain ⟨w0, h0, hst⟩ := live_reachable
  have h30 : live (Sample.key 30) = ⟨Sample.key 101, .token (plain 20 50 18987)⟩ :=
    live_table (Sample.key 30, _) (by decide +kernel)
  have same : ∀ k, k ≠ Sample.key 30 → helped n k = live k := fun k hk => if_neg hk
  have own : ∀ k, (helped n k).owner = (live k).owner := fun k => setData_owner _ _ _ _
  refine ⟨w0, h0, hst.tail (.other ⟨?_, ?_, ?_, ?_⟩)⟩
  · intro k hk
    refine Or.inl (same k ?_)
    rintro rfl
    rw [h30] at hk
    exact absurd hk (by decide)
  · intro k h1 h2
    rw [own] at h2
    exact absurd h2 h1
  · intro k t h1 h2 h3 h4 h5
    have hk : k ≠ Sample.key 30 := by
      rintro rfl
      rw [h30] at h2
      cases h2
      exact user h3
    rw [same k hk]
    exact ⟨h1, t, h2, rfl, rfl, h4, h5, UInt64.le_refl _⟩
  · intro k m x h1 h2 h3 h4
    have hk : k ≠ Sample.key 30 := by
      rintro rfl
      rw [h30] at h2
      cases h2
    rw [same k hk]
    exact ⟨h1, m, h2, h3, UInt64.le_refl _, id⟩

theorem helped_same (n : UInt64) {k : Pubkey} (hk : k ≠ Sample.key 30) : helped n k = live k := by
  unfold helped World.setData
  rw [if_neg hk]

theorem helper : ∀ u ∈ [Sample.key 51], ¬ IsPda Sample.env samplePools u := by
  intro u hu
  rw [List.mem_singleton.1 hu]
  rintro ⟨k, b, hk, h⟩
  rcases hk with rfl | rfl <;>
  · unfold Sample.env at h
    simp only [] at h
    split at h
    · exact absurd (Option.some.inj h) (by decide)
    · cases h

/-- The delegate 51 offers 30 of user 50's token A to the linear pool, the proceeds going to 50. -/
def errand : SwapAccounts := ⟨Sample.key 1, Sample.key 129, Sample.key 51, Sample.key 30, Sample.key 3,
  Sample.key 4, Sample.key 31, Sample.key 5, Sample.key 6, Sample.key 101⟩

theorem helped_pool (n : UInt64) : PoolAt Sample.env (helped n) (Sample.key 1) pool1 :=
  by
  obtain ⟨h1, h2⟩ := live_pool1
  have e : helped n (Sample.key 1) = live (Sample.key 1) := helped_same n (by decide)
  unfold PoolAt
  rw [e]
  exact ⟨h1, h2⟩

theorem helped_linear (n : UInt64) : ∀ s, PoolAt Sample.env (helped n) errand.swap s →
    Ordinary s ∨ ∃ c, s.swap_curve = .linear c := by
  intro s hs
  have a1 := unpackSwap_of hs
  rw [show errand.swap = Sample.key 1 from rfl, unpackSwap_of (helped_pool n)] at a1
  exact Or.inr ⟨Sample.lin, by rw [← Except.ok.inj a1]; rfl⟩

/-- With an allowance of 30 they may, -/
example : ∃ w', exec Sample.env [Sample.key 51] (.swap errand 30 2) (helped 30) = .ok w' := by
  refine (C81_swap _ _ sample_ok _ (helped_reachable 30) _ helper errand 30 2 (helped_linear 30)).2 ?_
  have e : ∀ k, k ≠ Sample.key 30 → tokenAt (helped 30) k = tokenAt live k :=
    fun k hk => tokenAt_congr (helped_same 30 hk)
  refine ⟨pool1, .AtoB, plain 20 129 18, plain 21 129 98, ⟨some (Sample.key 129), 1000000000, none⟩,
    ⟨48, 96, 30, 2, 0, 0⟩, 0, helped_pool 30, by decide, by decide, rfl, rfl, rfl, rfl, rfl, ?_, ?_, ?_,
    by decide +kernel, by decide +kernel, ?_, ?_, ?_, ?_, by decide, by decide +kernel, nofun⟩
  · exact (e _ (by decide)).trans (live_tok (by decide +kernel))
  · exact (e _ (by decide)).trans (live_tok (by decide +kernel))
  · rw [show pool1.pool_mint = Sample.key 5 from rfl, mintAt_congr (helped_same 30 (by decide))]
    exact mintAt_some.2 (by decide +kernel)
  · exact ⟨by decide +kernel, ⟨Sample.key 20, Sample.key 50, 18987, some (Sample.key 51), false, 30,
      none⟩, by decide +kernel, rfl, rfl, by decide +kernel,
      fun _ => by decide +kernel, fun h => absurd rfl h⟩
  · exact (canReceive_congr (helped_same 30 (by decide))).2
      (takes 129 18 (by decide +kernel) (by decide +kernel))
  · exact ⟨plain 21 129 98, (e _ (by decide)).trans (live_tok (by decide +kernel)), rfl⟩
  · exact (canReceive_congr (helped_same 30 (by decide))).2
      (takes 50 20141 (by decide +kernel) (by decide +kernel))

/-- with an allowance of 29 not. -/
example : ¬ SwapServed Sample.env (helped 29) [Sample.key 51] errand 30 2 := by
  intro h
  obtain ⟨w', h⟩ := (C81_swap _ _ sample_ok _ (helped_reachable 29) _ helper errand 30 2
    (helped_linear 29)).2 h
  have : (match exec Sample.env [Sample.key 51] (.swap errand 30 2) (helped 29) with
    | .ok _ => false
    | .error _ => true) = true := by decide +kernel
  rw [h] at this
  cases this

theorem live_ordinary : ∀ s, PoolAt Sample.env live (Sample.key 2) s → Ordinary s := by
  intro s hs
  have a1 := unpackSwap_of hs
  rw [unpackSwap_of live_pool2] at a1
  rw [← Except.ok.inj a1]
  exact ⟨by decide, by decide⟩

/-- Deposits and withdrawals of the sample's user are served. -/
example : DepositAllServed Sample.env live [Sample.key 1, Sample.key 2, Sample.key 50] ⟨Sample.key 2,
    Sample.key 130, Sample.key 50, Sample.key 30, Sample.key 31, Sample.key 13, Sample.key 14,
    Sample.key 15, Sample.key 17, Sample.key 101⟩ 100000000 2000 2000 := by
  refine (C81_deposit_all _ _ sample_ok _ live_reachable _ sample_signers _ _ _ _ ?_).1 ⟨_, exec_ranTo (i := Sample.depAll) (by decide +kernel)⟩
  exact live_ordinary

example : WithdrawAllServed Sample.env live [Sample.key 1, Sample.key 2, Sample.key 50] ⟨Sample.key 2,
    Sample.key 130, Sample.key 50, Sample.key 15, Sample.key 17, Sample.key 13, Sample.key 14,
    Sample.key 30, Sample.key 31, Sample.key 16, Sample.key 101⟩ 100000000 1 1 := by
  refine (C81_withdraw_all _ _ sample_ok _ live_reachable _ _ _ _ _ ?_).1 ⟨_, exec_ranTo (i := Sample.wdAll) (by decide +kernel)⟩
  exact live_ordinary

example : DepositSingleServed Sample.env live [Sample.key 1, Sample.key 2, Sample.key 50]
    ⟨Sample.key 2, Sample.key 130, Sample.key 50, Sample.key 30, Sample.key 13, Sample.key 14,
      Sample.key 15, Sample.key 17, Sample.key 101⟩ 700 1 := by
  refine (C81_deposit_single _ _ sample_ok _ live_reachable _ sample_signers _ _ _ ?_).1 ⟨_, exec_ranTo (i := Sample.depOne) (by decide +kernel)⟩
  exact live_ordinary

example : WithdrawSingleServed Sample.env live [Sample.key 1, Sample.key 2, Sample.key 50]
    ⟨Sample.key 2, Sample.key 130, Sample.key 50, Sample.key 15, Sample.key 17, Sample.key 13,
      Sample.key 14, Sample.key 30, Sample.key 16, Sample.key 101⟩ 700 100000000 := by
  refine (C81_withdraw_single _ _ sample_ok _ live_reachable _ _ _ _ ?_).1 ⟨_, exec_ranTo (i := Sample.wdOne) (by decide +kernel)⟩
  exact live_ordinary

end Props
end Verif
