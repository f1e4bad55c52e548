import Verif.Spec.Block
import Verif.Props.Steady
import Verif.Props.Freeze

/-
C93: nobody else can hold up trades and withdrawals, except through the fee account.
-/

namespace Verif
namespace Props

open Spec Processor

section
variable {env : Env} {sys : Pubkey} {K S : Pubkey → Prop}

/-- Whatever others do, the pool remains and the ledger one the program can reach. -/
theorem without_keeps (he : EnvOk env K) (hst : sys ≠ env.tokenProgramId) (hsp : sys ≠ env.programId)
    {w w' : World} (hr : Reachable env K w) (hc : Clean env sys K w) {k : Pubkey} {s : SwapV1}
    (hp : PoolAt env w k s) (h : Relation.ReflTransGen (Without env sys K S) w w') :
    Reachable env K w' ∧ PoolAt env w' k s ∧ Moves env sys K w w' := by
  suffices hs : Reachable env K w' ∧ Clean env sys K w' ∧ PoolAt env w' k s ∧ Moves env sys K w w' from
    ⟨hs.1, hs.2.2⟩
  induction h with
  | refl => exact ⟨hr, hc, hp, .refl⟩
  | tail _ hm ih =>
    obtain ⟨⟨w0, h0, hst0⟩, i2, i3, i4⟩ := ih
    have hmv := C77_only_steps env sys K S _ _ hm
    obtain ⟨h1, h2⟩ := hmv.step he hst hsp i2
    have h3 := step_pool i3 h1
    exact ⟨⟨w0, h0, hst0.tail h1⟩, h2, poolAt_congr h3.1 h3.2 i3, i4.tail hmv⟩

/-- Nobody freezes an account in a mint nobody else can freeze. -/
theorem without_thawed (hst : sys ≠ env.tokenProgramId) {w w' : World} {k m : Pubkey}
    (hf : FrozenOnlyBy env w m S) (h : Relation.ReflTransGen (Without env sys K S) w w')
    (hz : Thawed w k) {t : TokenAccount} (ho : (w' k).owner = env.tokenProgramId)
    (ht : (w' k).data = .token t) (hm : t.mint = m) : t.frozen = false := by
  obtain ⟨f, h1, h2⟩ := hf
  cases e : t.frozen with
  | false => rfl
  | true =>
    obtain ⟨_, u, d1, _, d2⟩ := ((C86_consent env sys K S hst w w' m f h1 h2 h).2 k).1 ⟨ho, t, ht, hm, e⟩
    obtain ⟨v, e1, e2⟩ := hz
    rw [tokenAt_some.1 e1] at d1
    cases d1
    rw [e2] at d2; cases d2

theorem without_vault (hst : sys ≠ env.tokenProgramId) {w w' : World} {k m pda : Pubkey}
    (hf : FrozenOnlyBy env w m S) (h : Relation.ReflTransGen (Without env sys K S) w w')
    (hz : Thawed w k) (hc : SoleOwner env w' k m pda) : Thawed w' k := by
  obtain ⟨h1, t, h2, h3, _⟩ := hc
  exact ⟨t, tokenAt_some.2 h2, without_thawed hst hf h hz h1 h2 h3⟩

/-- An account to receive into remains one. -/
theorem without_dest (hst : sys ≠ env.tokenProgramId) (hS : ∀ x, S x → ¬ IsPda env K x) {w w' : World}
    {k m o : Pubkey} (ho : S o) (hf : FrozenOnlyBy env w m S)
    (h : Relation.ReflTransGen (Without env sys K S) w w') (hz : Thawed w k) (hk : OwnedBy env w k m o) :
    Thawed w' k ∧ OwnedBy env w' k m o := by
  obtain ⟨h1, t, h2, h3, h4, h5⟩ := hk
  obtain ⟨g1, t', g2, g3, g4, g5, _⟩ := respects_all hS (k := k) h t h1 (tokenAt_some.1 h2) (h4 ▸ ho) h5
  exact ⟨⟨t', tokenAt_some.2 g2, without_thawed hst hf h hz g1 g2 (g3.trans h3)⟩, g1, t',
    tokenAt_some.2 g2, g3.trans h3, g4.trans h4, g5⟩

/-- Money to pay with remains. -/
theorem without_pays (hst : sys ≠ env.tokenProgramId) (hS : ∀ x, S x → ¬ IsPda env K x) {w w' : World}
    {k m o : Pubkey} {n : Nat} (ho : S o) (hd : ∀ d, delegateOf w k = some d → S d)
    (hf : FrozenOnlyBy env w m S) (h : Relation.ReflTransGen (Without env sys K S) w w')
    (hk : OwnedBy env w k m o) (hn : CanPay env w k m o n) :
    CanPay env w' k m o n ∧ OwnedBy env w' k m o := by
  obtain ⟨hk', b1, b2, _⟩ := C77_untouched env sys K S w w' k m o hS ho hd hk h
  obtain ⟨a1, t', a2, a3, a4, _⟩ := id hk'
  obtain ⟨c1, t, c2, c3, c4, c5, c6, c7⟩ := hn
  refine ⟨⟨a1, t', a2, a3, a4, ?_,
    without_thawed hst hf h ⟨t, c2, c6⟩ a1 (tokenAt_some.1 a2) a3, ?_⟩, hk'⟩
  · unfold delegateOf at b2
    rw [a2, c2] at b2
    exact fun e => c5 (b2.symm.trans e)
  · rw [bal_token (tokenAt_some.1 a2), bal_token (tokenAt_some.1 c2)] at b1
    omega

theorem spend_of_pay {w : World} {k m u : Pubkey} {x y : Nat} (h : CanPay env w k m u x) (hy : y ≤ x) :
    MaySpend env w k m u y := by
  obtain ⟨h1, t, h2, h3, h4, h5, h6, h7⟩ := h
  exact ⟨h1, t, h2, h3, h6, hy.trans h7, fun e => absurd e h5, fun _ => h4⟩

theorem takes_of_owned {w : World} {k m o : Pubkey} (hz : Thawed w k) (h : OwnedBy env w k m o) :
    Takes env w k m := by
  obtain ⟨h1, t, h2, h3, _⟩ := h
  obtain ⟨u, e1, e2⟩ := hz
  rw [h2] at e1
  cases e1
  exact ⟨h1, t, h2, h3, e2⟩

theorem owned_ne {w : World} {j k m n o pda : Pubkey} (h : OwnedBy env w j m o)
    (hs : SoleOwner env w k n pda) (ho : o ≠ pda) : j ≠ k := by
  rintro rfl
  obtain ⟨_, t, h2, _, h3, _⟩ := h
  obtain ⟨_, t', g2, _, g3, _⟩ := hs
  rw [tokenAt_some.1 h2] at g2
  cases g2
  exact ho (h3.symm.trans g3)

end

/-- C93.  Whoever is ready to trade stays so, whatever happens that they, the owner of the account for the
proceeds, their delegates and those who can freeze the two tokens do not approve of. -/
theorem C93_ready (env : Env) (sys : Pubkey) (K S : Pubkey → Prop) (he : EnvOk env K)
    (hst : sys ≠ env.tokenProgramId) (hsp : sys ≠ env.programId) (w w' : World)
    (hr : Reachable env K w) (hc : Clean env sys K w) (signers : List Pubkey) (a : SwapAccounts) (x : Nat)
    (s : SwapV1) (hp : PoolAt env w a.swap s) (dir : TradeDirection) (o : Pubkey)
    (hS : ∀ x, S x → ¬ IsPda env K x) (hu : S a.userAuthority) (ho : S o)
    (hd : ∀ d, delegateOf w a.source = some d → S d) (hA : FrozenOnlyBy env w s.token_a_mint S)
    (hB : FrozenOnlyBy env w s.token_b_mint S) (hready : Ready env w signers a x s dir o)
    (h : Relation.ReflTransGen (Without env sys K S) w w') :
    Ready env w' signers a x s dir o := by
  obtain ⟨hr', hp', _⟩ := without_keeps he hst hsp hr hc hp h
  obtain ⟨hcu, _, _⟩ := pool_facts he hr' hp' hready.derived
  have hi : FrozenOnlyBy env w (mintIn s dir) S := by cases dir <;> assumption
  have hou : FrozenOnlyBy env w (mintOut s dir) S := by cases dir <;> assumption
  obtain ⟨p1, p2⟩ := without_pays hst hS hu hd hi h hready.source hready.pays
  obtain ⟨q1, q2⟩ := without_dest hst hS ho hou h hready.takes hready.dest
  exact ⟨hready.derived, hready.signs, hready.vin, hready.vout, hready.mint, hready.fee, hready.program,
    p1, p2, q1, q2, without_vault hst hi h hready.thawedIn (custody_in hcu dir),
    without_vault hst hou h hready.thawedOut (custody_out hcu dir)⟩

/-- C93.  On a linear pool nobody can hold up their trade: it goes through then exactly if the formula
quotes, for what the pool then holds, something it has and within the limit. -/
theorem C93_linear_partial (env : Env) (sys : Pubkey) (K S : Pubkey → Prop) (he : EnvOk env K)
    (hst : sys ≠ env.tokenProgramId) (hsp : sys ≠ env.programId) (w w' : World)
    (hr : Reachable env K w) (hc : Clean env sys K w) (signers : List Pubkey)
    (hs : ∀ u ∈ signers, ¬ IsPda env K u) (a : SwapAccounts) (x y : UInt64)
    (s : SwapV1) (hp : PoolAt env w a.swap s) (c : LinearPriceCurve) (hl : s.swap_curve = .linear c)
    (dir : TradeDirection) (o : Pubkey) (hS : ∀ x, S x → ¬ IsPda env K x) (hu : S a.userAuthority)
    (ho : S o) (hd : ∀ d, delegateOf w a.source = some d → S d)
    (hA : FrozenOnlyBy env w s.token_a_mint S) (hB : FrozenOnlyBy env w s.token_b_mint S)
    (hready : Ready env w signers a x.toNat s dir o)
    (h : Relation.ReflTransGen (Without env sys K S) w w')
    (hsA : Scarce env w' s.token_a_mint) (hsB : Scarce env w' s.token_b_mint) :
    (∃ w'', exec env signers (.swap a x y) w' = .ok w'') ↔
      ∃ t d, plainTrade c x.toNat (bal w' (vaultIn s dir)).toNat (bal w' (vaultOut s dir)).toNat dir =
        .trade t d ∧ (d : Int) ≤ bal w' (vaultOut s dir) ∧ y.toNat ≤ d := by
  have hR := C93_ready env sys K S he hst hsp w w' hr hc signers a x.toNat s hp dir o hS hu ho hd hA hB
    hready h
  obtain ⟨hr', hp', _⟩ := without_keeps he hst hsp hr hc hp h
  obtain ⟨hcu, hcf, hpd⟩ := pool_facts he hr' hp' hready.derived
  have hne : s.token_a ≠ s.token_b := ne_of_mint hcu.vaultA.mint hcu.vaultB.mint hcu.mints
  rw [C87_trade env K he w' hr' signers hs a x y s hp' c hl hsA hsB]
  constructor
  · rintro ⟨dir', t, d, _, _, h4, _, _, _, _, h9, h10, h11, _⟩
    have e : dir' = dir := vaultIn_inj hne (by rw [← h4, hR.vin])
    subst e
    exact ⟨t, d, h9, h10, h11⟩
  · rintro ⟨t, d, h9, h10, h11⟩
    have ht : t ≤ x.toNat := by
      have hv := valid_of hcf hl
      obtain ⟨_, tin, i2, _⟩ := id (custody_in hcu dir)
      obtain ⟨_, tout, o2, _⟩ := id (custody_out hcu dir)
      have h9' := h9
      rw [bal_token i2, bal_token o2, Int.toNat_natCast, Int.toNat_natCast] at h9'
      have hq := C84_trade c hv x.toNat tin.amount.toNat tout.amount.toNat x.toNat_lt tin.amount.toNat_lt
        tout.amount.toNat_lt dir
      rw [h9'] at hq
      exact Curve.source_le (e := env.spl) (c := .linear c) hq
    exact ⟨dir, t, d, hR.derived, hR.signs, hR.vin, hR.vout, hR.mint, hR.fee, hR.program, h9, h10, h11,
      spend_of_pay hR.pays ht, hR.thawedIn, hR.thawedOut, takes_of_owned hR.takes hR.dest,
      owned_ne hR.dest (custody_out hcu dir) fun e => hS o ho (e ▸ hpd)⟩

/-- C93.  Nor on a constant-price pool without an owner fee on trades: there it goes through exactly if the
quote, which nobody can change (C90), is within the limit and the pool has that much. -/
theorem C93_fixed_partial (env : Env) (sys : Pubkey) (K S : Pubkey → Prop) (he : EnvOk env K)
    (hst : sys ≠ env.tokenProgramId) (hsp : sys ≠ env.programId) (w w' : World)
    (hr : Reachable env K w) (hc : Clean env sys K w) (signers : List Pubkey)
    (hs : ∀ u ∈ signers, ¬ IsPda env K u) (a : SwapAccounts) (x y : UInt64)
    (s : SwapV1) (hp : PoolAt env w a.swap s) (hord : Ordinary s) (p : UInt64)
    (hl : s.swap_curve = .constantPrice p) (hz : s.fees.owner_trade_fee_numerator = 0)
    (dir : TradeDirection) (o : Pubkey) (hS : ∀ x, S x → ¬ IsPda env K x) (hu : S a.userAuthority)
    (ho : S o) (hd : ∀ d, delegateOf w a.source = some d → S d)
    (hA : FrozenOnlyBy env w s.token_a_mint S) (hB : FrozenOnlyBy env w s.token_b_mint S)
    (hready : Ready env w signers a x.toNat s dir o)
    (h : Relation.ReflTransGen (Without env sys K S) w w')
    (hsA : Scarce env w' s.token_a_mint) (hsB : Scarce env w' s.token_b_mint) :
    (∃ w'', exec env signers (.swap a x y) w' = .ok w'') ↔
      ∃ t d, fixedQuote p.toNat s.fees x.toNat dir = some (t, d) ∧
        (d : Int) ≤ bal w' (vaultOut s dir) ∧ y.toNat ≤ d := by
  have hR := C93_ready env sys K S he hst hsp w w' hr hc signers a x.toNat s hp dir o hS hu ho hd hA hB
    hready h
  obtain ⟨hr', hp', _⟩ := without_keeps he hst hsp hr hc hp h
  obtain ⟨hcu, hcf, hpd⟩ := pool_facts he hr' hp' hready.derived
  have hne : s.token_a ≠ s.token_b := ne_of_mint hcu.vaultA.mint hcu.vaultB.mint hcu.mints
  rw [C90_trade env K he w' hr' signers hs a x y s hp' hord p hl hz hsA hsB]
  constructor
  · rintro ⟨dir', t, d, _, _, h4, _, _, _, _, h9, h10, h11, _⟩
    have e : dir' = dir := vaultIn_inj hne (by rw [← h4, hR.vin])
    subst e
    exact ⟨t, d, h9, h10, h11⟩
  · rintro ⟨t, d, h9, h10, h11⟩
    have ht : t ≤ x.toNat := by
      obtain ⟨_, tin, i2, _⟩ := id (custody_in hcu dir)
      obtain ⟨r, g1, g2, _⟩ := (C90_quote env.spl p x.toNat tin.amount.toNat d dir s.fees hcf.fees
        x.toNat_lt tin.amount.toNat_lt t d).2 ⟨h9, le_rfl⟩
      rw [← g2]
      exact (C07_swap_bounds _ _ _ _ _ _ _ _ g1).1
    exact ⟨dir, t, d, hR.derived, hR.signs, hR.vin, hR.vout, hR.mint, hR.fee, hR.program, h9, h10, h11,
      spend_of_pay hR.pays ht, hR.thawedIn, hR.thawedOut, takes_of_owned hR.takes hR.dest,
      owned_ne hR.dest (custody_out hcu dir) fun e => hS o ho (e ▸ hpd)⟩

/-- C93.  Nor a withdrawal of both tokens from a pool without an owner fee on withdrawals: it goes through
exactly if what the pool tokens then stand for is within the limits and is not nothing. -/
theorem C93_withdraw_partial (env : Env) (sys : Pubkey) (K S : Pubkey → Prop) (he : EnvOk env K)
    (hst : sys ≠ env.tokenProgramId) (hsp : sys ≠ env.programId) (w w' : World)
    (hr : Reachable env K w) (hc : Clean env sys K w) (signers : List Pubkey)
    (a : WithdrawAllAccounts) (p minA minB : UInt64)
    (s : SwapV1) (hp : PoolAt env w a.swap s) (hord : Ordinary s)
    (hz : s.fees.owner_withdraw_fee_numerator = 0)
    (oA oB : Pubkey) (hS : ∀ x, S x → ¬ IsPda env K x) (hu : S a.userAuthority)
    (hoA : S oA) (hoB : S oB) (hd : ∀ d, delegateOf w a.source = some d → S d)
    (hA : FrozenOnlyBy env w s.token_a_mint S) (hB : FrozenOnlyBy env w s.token_b_mint S)
    (hready : ReadyToLeave env w signers a p.toNat s oA oB)
    (h : Relation.ReflTransGen (Without env sys K S) w w')
    (hsA : Scarce env w' s.token_a_mint) (hsB : Scarce env w' s.token_b_mint)
    (hP : Accounted env w' s.pool_mint) :
    (∃ w'', exec env signers (.withdrawAll a p minA minB) w' = .ok w'') ↔
      ∃ r, s.swap_curve.poolTokensToTradingTokens env.spl p.toNat (supply w' s.pool_mint).toNat
          (bal w' s.token_a).toNat (bal w' s.token_b).toNat .Floor = .ok r ∧
        r.token_a_amount < 2 ^ 64 ∧ r.token_b_amount < 2 ^ 64 ∧
        (minA.toNat : Int) ≤ min (bal w' s.token_a) r.token_a_amount ∧
        (minB.toNat : Int) ≤ min (bal w' s.token_b) r.token_b_amount ∧
        (r.token_a_amount = 0 → bal w' s.token_a = 0) ∧ (r.token_b_amount = 0 → bal w' s.token_b = 0) := by
  obtain ⟨hr', hp', _⟩ := without_keeps he hst hsp hr hc hp h
  obtain ⟨hcu, hcf, hpd⟩ := pool_facts he hr' hp' hready.derived
  have hM : FrozenOnlyBy env w s.pool_mint S := by
    obtain ⟨hcu0, _, _⟩ := pool_facts he hr hp hready.derived
    obtain ⟨g1, q, g2, _, g4⟩ := hcu0.minter
    exact ⟨none, ⟨g1, q, g2, g4⟩, fun a e => by cases e⟩
  obtain ⟨⟨y1, t, y2, y3, y4, y5, y6, y7⟩, _⟩ :=
    without_pays hst hS hu hd hM h hready.source hready.pays
  obtain ⟨qA1, qA2⟩ := without_dest hst hS hoA hA h hready.takesA hready.destA
  obtain ⟨qB1, qB2⟩ := without_dest hst hS hoB hB h hready.takesB hready.destB
  have vA := without_vault hst hA h hready.thawedA hcu.vaultA
  have vB := without_vault hst hB h hready.thawedB hcu.vaultB
  have bA : 0 ≤ bal w' s.token_a := by
    obtain ⟨_, u, i2, _⟩ := hcu.vaultA
    rw [bal_token i2]; exact Int.natCast_nonneg _
  have bB : 0 ≤ bal w' s.token_b := by
    obtain ⟨_, u, i2, _⟩ := hcu.vaultB
    rw [bal_token i2]; exact Int.natCast_nonneg _
  have hfee : ∀ n, n < 2 ^ 64 → s.fees.ownerWithdrawFee n = .ok 0 := by
    intro n hn
    obtain ⟨fee, e1, e2, _⟩ := C15_fee s.fees hcf.fees .ownerWithdraw n hn
    have e3 : fee = 0 := e2.2 (Or.inl (by
      show s.fees.owner_withdraw_fee_numerator.toNat = 0
      rw [hz]; rfl))
    subst e3
    exact e1
  rw [C87_withdraw_all env K he w' hr' signers a p minA minB s hp' hord hsA hsB hP]
  constructor
  · rintro ⟨fee, burnt, r, amtA, amtB, h2, h3, h4, h5, h6, h7, h8, h12, h13, h14, h15, h16, h17, h18,
      h19, h20, h21, h22, _⟩
    have h0 : fee = 0 := by
      by_cases e : a.source = s.pool_fee_account
      · exact h12.1 e
      · have := h12.2 e
        rw [hfee _ p.toNat_lt] at this
        cases this; rfl
    subst h0
    rw [Nat.add_zero] at h13
    subst h13
    exact ⟨r, h14, h15, h16, by omega, by omega, fun e => h21 (by omega), fun e => h22 (by omega)⟩
  · rintro ⟨r, h14, h15, h16, h19, h20, h21, h22⟩
    refine ⟨0, p.toNat, r, (min (bal w' s.token_a) r.token_a_amount).toNat,
      (min (bal w' s.token_b) r.token_b_amount).toNat, hready.derived, hready.signs, hready.isA, hready.isB,
      hready.mint, hready.fee, hready.program, ⟨fun _ => rfl, fun _ => hfee _ p.toNat_lt⟩, Nat.add_zero _,
      h14, h15, h16, by omega, by omega, by omega, by omega, ?_, ?_, ?_, fun e => absurd e (by decide),
      owned_ne qA2 hcu.vaultA fun e => hS oA hoA (e ▸ hpd),
      owned_ne qB2 hcu.vaultB fun e => hS oB hoB (e ▸ hpd),
      fun _ => ⟨vA, takes_of_owned qA1 qA2⟩, fun _ => ⟨vB, takes_of_owned qB1 qB2⟩⟩
    · intro e
      rcases Nat.eq_zero_or_pos r.token_a_amount with g | g
      · exact h21 g
      · omega
    · intro e
      rcases Nat.eq_zero_or_pos r.token_b_amount with g | g
      · exact h22 g
      · omega
    · exact ⟨y1, t, y2, y3, y6, by omega, fun _ e => absurd e.1 (by decide), fun e => absurd e y5,
        fun _ => y4⟩

/-- C93.  Nor a withdrawal of one token from such a pool: it goes through exactly if the pool has that much
and the pool tokens it then takes, and takes at all, are within the limit. -/
theorem C93_single_partial (env : Env) (sys : Pubkey) (K S : Pubkey → Prop) (he : EnvOk env K)
    (hst : sys ≠ env.tokenProgramId) (hsp : sys ≠ env.programId) (w w' : World)
    (hr : Reachable env K w) (hc : Clean env sys K w) (signers : List Pubkey)
    (a : WithdrawSingleAccounts) (x maxPool : UInt64)
    (s : SwapV1) (hp : PoolAt env w a.swap s) (hord : Ordinary s)
    (hz : s.fees.owner_withdraw_fee_numerator = 0) (dir : TradeDirection)
    (o : Pubkey) (hS : ∀ x, S x → ¬ IsPda env K x) (hu : S a.userAuthority)
    (ho : S o) (hd : ∀ d, delegateOf w a.source = some d → S d)
    (hA : FrozenOnlyBy env w s.token_a_mint S) (hB : FrozenOnlyBy env w s.token_b_mint S)
    (hready : ReadyForOne env w signers a maxPool.toNat s dir o)
    (h : Relation.ReflTransGen (Without env sys K S) w w')
    (hsA : Scarce env w' s.token_a_mint) (hsB : Scarce env w' s.token_b_mint)
    (hP : Accounted env w' s.pool_mint) :
    (∃ w'', exec env signers (.withdrawSingle a x maxPool) w' = .ok w'') ↔
      (x.toNat : Int) ≤ bal w' (vaultIn s dir) ∧
      ∃ burnt, s.swap_curve.withdrawSingle env.spl x.toNat (bal w' s.token_a).toNat
          (bal w' s.token_b).toNat (supply w' s.pool_mint).toNat dir s.fees = .ok burnt ∧
        0 < burnt ∧ burnt ≤ maxPool.toNat := by
  obtain ⟨hr', hp', _⟩ := without_keeps he hst hsp hr hc hp h
  obtain ⟨hcu, hcf, hpd⟩ := pool_facts he hr' hp' hready.derived
  have hM : FrozenOnlyBy env w s.pool_mint S := by
    obtain ⟨hcu0, _, _⟩ := pool_facts he hr hp hready.derived
    obtain ⟨g1, q, g2, _, g4⟩ := hcu0.minter
    exact ⟨none, ⟨g1, q, g2, g4⟩, fun a e => by cases e⟩
  have hi : FrozenOnlyBy env w (mintIn s dir) S := by cases dir <;> assumption
  obtain ⟨⟨y1, t, y2, y3, y4, y5, y6, y7⟩, _⟩ :=
    without_pays hst hS hu hd hM h hready.source hready.pays
  obtain ⟨q1, q2⟩ := without_dest hst hS ho hi h hready.takes hready.dest
  have v := without_vault hst hi h hready.thawed (custody_in hcu dir)
  have hfee : ∀ n, n < 2 ^ 64 → s.fees.ownerWithdrawFee n = .ok 0 := by
    intro n hn
    obtain ⟨fee, e1, e2, _⟩ := C15_fee s.fees hcf.fees .ownerWithdraw n hn
    have e3 : fee = 0 := e2.2 (Or.inl (by
      show s.fees.owner_withdraw_fee_numerator.toNat = 0
      rw [hz]; rfl))
    subst e3
    exact e1
  rw [C87_withdraw_single env K he w' hr' signers a x maxPool s hp' hord hsA hsB hP]
  constructor
  · rintro ⟨dir', fee, burnt, h2, h3, h4, h5, h6, h7, h8, h9, h10, h11, h12, _, _, _, h16, h17, _⟩
    have e : dir' = dir := by
      obtain ⟨_, t1, g1, g2, _⟩ := h17
      obtain ⟨_, t2, g3, g4, _⟩ := q2
      rw [g1] at g3
      cases g3
      have g5 : mintIn s dir' = mintIn s dir := g2.symm.trans g4
      have hm := hcu.mints
      cases dir <;> cases dir'
      · rfl
      · exact absurd g5.symm hm
      · exact absurd g5 hm
      · rfl
    subst e
    have hb : burnt < 2 ^ 64 := lt_of_le_of_lt (by omega) maxPool.toNat_lt
    have h0 : fee = 0 := by
      by_cases e : a.source = s.pool_fee_account
      · exact h10.1 e
      · have := h10.2 e
        rw [hfee _ hb] at this
        cases this; rfl
    subst h0
    exact ⟨h16, burnt, h9, by omega, by omega⟩
  · rintro ⟨h16, burnt, h9, h11, h12⟩
    have hb : burnt < 2 ^ 64 := lt_of_le_of_lt h12 maxPool.toNat_lt
    refine ⟨dir, 0, burnt, hready.derived, hready.signs, hready.isA, hready.isB,
      hready.mint, hready.fee, hready.program, h9, ⟨fun _ => rfl, fun _ => hfee _ hb⟩, by omega, by omega,
      ?_, fun e => absurd e (by decide), v, h16, takes_of_owned q1 q2,
      owned_ne q2 (custody_in hcu dir) fun e => hS o ho (e ▸ hpd)⟩
    exact ⟨y1, t, y2, y3, y6, by omega, fun _ e => absurd e.1 (by decide), fun e => absurd e y5,
        fun _ => y4⟩

/-- C93 with an owner fee on withdrawals: if the owner of the fee account is among those who have to approve,
again nobody else can hold up a withdrawal of both tokens. -/
theorem C93_withdraw_owner_partial (env : Env) (sys : Pubkey) (K S : Pubkey → Prop) (he : EnvOk env K)
    (hst : sys ≠ env.tokenProgramId) (hsp : sys ≠ env.programId) (w w' : World)
    (hr : Reachable env K w) (hc : Clean env sys K w) (signers : List Pubkey)
    (a : WithdrawAllAccounts) (p minA minB : UInt64)
    (s : SwapV1) (hp : PoolAt env w a.swap s) (hord : Ordinary s)
    (oA oB oF : Pubkey) (hS : ∀ x, S x → ¬ IsPda env K x) (hu : S a.userAuthority)
    (hoA : S oA) (hoB : S oB) (hoF : S oF) (hd : ∀ d, delegateOf w a.source = some d → S d)
    (hA : FrozenOnlyBy env w s.token_a_mint S) (hB : FrozenOnlyBy env w s.token_b_mint S)
    (hready : ReadyToLeave env w signers a p.toNat s oA oB)
    (hF : Thawed w s.pool_fee_account) (hFo : OwnedBy env w s.pool_fee_account s.pool_mint oF)
    (h : Relation.ReflTransGen (Without env sys K S) w w')
    (hsA : Scarce env w' s.token_a_mint) (hsB : Scarce env w' s.token_b_mint)
    (hP : Accounted env w' s.pool_mint) :
    (∃ w'', exec env signers (.withdrawAll a p minA minB) w' = .ok w'') ↔
      ∃ fee burnt r, WithdrawFee s a.source p.toNat fee ∧ burnt + fee = p.toNat ∧
        s.swap_curve.poolTokensToTradingTokens env.spl burnt (supply w' s.pool_mint).toNat
          (bal w' s.token_a).toNat (bal w' s.token_b).toNat .Floor = .ok r ∧
        r.token_a_amount < 2 ^ 64 ∧ r.token_b_amount < 2 ^ 64 ∧
        (minA.toNat : Int) ≤ min (bal w' s.token_a) r.token_a_amount ∧
        (minB.toNat : Int) ≤ min (bal w' s.token_b) r.token_b_amount ∧
        (r.token_a_amount = 0 → bal w' s.token_a = 0) ∧ (r.token_b_amount = 0 → bal w' s.token_b = 0) := by
  obtain ⟨hr', hp', _⟩ := without_keeps he hst hsp hr hc hp h
  obtain ⟨hcu, hcf, hpd⟩ := pool_facts he hr' hp' hready.derived
  have hM : FrozenOnlyBy env w s.pool_mint S := by
    obtain ⟨hcu0, _, _⟩ := pool_facts he hr hp hready.derived
    obtain ⟨g1, q, g2, _, g4⟩ := hcu0.minter
    exact ⟨none, ⟨g1, q, g2, g4⟩, fun a e => by cases e⟩
  obtain ⟨⟨y1, t, y2, y3, y4, y5, y6, y7⟩, _⟩ :=
    without_pays hst hS hu hd hM h hready.source hready.pays
  obtain ⟨qA1, qA2⟩ := without_dest hst hS hoA hA h hready.takesA hready.destA
  obtain ⟨qB1, qB2⟩ := without_dest hst hS hoB hB h hready.takesB hready.destB
  obtain ⟨qF1, qF2⟩ := without_dest hst hS hoF hM h hF hFo
  have vA := without_vault hst hA h hready.thawedA hcu.vaultA
  have vB := without_vault hst hB h hready.thawedB hcu.vaultB
  have bA : 0 ≤ bal w' s.token_a := by
    obtain ⟨_, u, i2, _⟩ := hcu.vaultA
    rw [bal_token i2]; exact Int.natCast_nonneg _
  have bB : 0 ≤ bal w' s.token_b := by
    obtain ⟨_, u, i2, _⟩ := hcu.vaultB
    rw [bal_token i2]; exact Int.natCast_nonneg _
  rw [C87_withdraw_all env K he w' hr' signers a p minA minB s hp' hord hsA hsB hP]
  constructor
  · rintro ⟨fee, burnt, r, amtA, amtB, h2, h3, h4, h5, h6, h7, h8, h12, h13, h14, h15, h16, h17, h18,
      h19, h20, h21, h22, _⟩
    exact ⟨fee, burnt, r, h12, h13, h14, h15, h16, by omega, by omega, fun e => h21 (by omega),
      fun e => h22 (by omega)⟩
  · rintro ⟨fee, burnt, r, h12, h13, h14, h15, h16, h19, h20, h21, h22⟩
    refine ⟨fee, burnt, r, (min (bal w' s.token_a) r.token_a_amount).toNat,
      (min (bal w' s.token_b) r.token_b_amount).toNat, hready.derived, hready.signs, hready.isA, hready.isB,
      hready.mint, hready.fee, hready.program, h12, h13,
      h14, h15, h16, by omega, by omega, by omega, by omega, ?_, ?_, ?_, fun _ => takes_of_owned qF1 qF2,
      owned_ne qA2 hcu.vaultA fun e => hS oA hoA (e ▸ hpd),
      owned_ne qB2 hcu.vaultB fun e => hS oB hoB (e ▸ hpd),
      fun _ => ⟨vA, takes_of_owned qA1 qA2⟩, fun _ => ⟨vB, takes_of_owned qB1 qB2⟩⟩
    · intro e
      rcases Nat.eq_zero_or_pos r.token_a_amount with g | g
      · exact h21 g
      · omega
    · intro e
      rcases Nat.eq_zero_or_pos r.token_b_amount with g | g
      · exact h22 g
      · omega
    · exact ⟨y1, t, y2, y3, y6, by omega, fun e _ => absurd e y5, fun e => absurd e y5,
        fun _ => y4⟩

/-- C93 with an owner fee on withdrawals, withdrawals of one token. -/
theorem C93_single_owner_partial (env : Env) (sys : Pubkey) (K S : Pubkey → Prop) (he : EnvOk env K)
    (hst : sys ≠ env.tokenProgramId) (hsp : sys ≠ env.programId) (w w' : World)
    (hr : Reachable env K w) (hc : Clean env sys K w) (signers : List Pubkey)
    (a : WithdrawSingleAccounts) (x maxPool : UInt64)
    (s : SwapV1) (hp : PoolAt env w a.swap s) (hord : Ordinary s) (dir : TradeDirection)
    (o oF : Pubkey) (hS : ∀ x, S x → ¬ IsPda env K x) (hu : S a.userAuthority)
    (ho : S o) (hoF : S oF) (hd : ∀ d, delegateOf w a.source = some d → S d)
    (hA : FrozenOnlyBy env w s.token_a_mint S) (hB : FrozenOnlyBy env w s.token_b_mint S)
    (hready : ReadyForOne env w signers a maxPool.toNat s dir o)
    (hF : Thawed w s.pool_fee_account) (hFo : OwnedBy env w s.pool_fee_account s.pool_mint oF)
    (h : Relation.ReflTransGen (Without env sys K S) w w')
    (hsA : Scarce env w' s.token_a_mint) (hsB : Scarce env w' s.token_b_mint)
    (hP : Accounted env w' s.pool_mint) :
    (∃ w'', exec env signers (.withdrawSingle a x maxPool) w' = .ok w'') ↔
      (x.toNat : Int) ≤ bal w' (vaultIn s dir) ∧
      ∃ fee burnt, s.swap_curve.withdrawSingle env.spl x.toNat (bal w' s.token_a).toNat
          (bal w' s.token_b).toNat (supply w' s.pool_mint).toNat dir s.fees = .ok burnt ∧
        WithdrawFee s a.source burnt fee ∧ 0 < burnt + fee ∧ burnt + fee ≤ maxPool.toNat := by
  obtain ⟨hr', hp', _⟩ := without_keeps he hst hsp hr hc hp h
  obtain ⟨hcu, hcf, hpd⟩ := pool_facts he hr' hp' hready.derived
  have hM : FrozenOnlyBy env w s.pool_mint S := by
    obtain ⟨hcu0, _, _⟩ := pool_facts he hr hp hready.derived
    obtain ⟨g1, q, g2, _, g4⟩ := hcu0.minter
    exact ⟨none, ⟨g1, q, g2, g4⟩, fun a e => by cases e⟩
  have hi : FrozenOnlyBy env w (mintIn s dir) S := by cases dir <;> assumption
  obtain ⟨⟨y1, t, y2, y3, y4, y5, y6, y7⟩, _⟩ :=
    without_pays hst hS hu hd hM h hready.source hready.pays
  obtain ⟨q1, q2⟩ := without_dest hst hS ho hi h hready.takes hready.dest
  obtain ⟨qF1, qF2⟩ := without_dest hst hS hoF hM h hF hFo
  have v := without_vault hst hi h hready.thawed (custody_in hcu dir)
  rw [C87_withdraw_single env K he w' hr' signers a x maxPool s hp' hord hsA hsB hP]
  constructor
  · rintro ⟨dir', fee, burnt, h2, h3, h4, h5, h6, h7, h8, h9, h10, h11, h12, _, _, _, h16, h17, _⟩
    have e : dir' = dir := by
      obtain ⟨_, t1, g1, g2, _⟩ := h17
      obtain ⟨_, t2, g3, g4, _⟩ := q2
      rw [g1] at g3
      cases g3
      have g5 : mintIn s dir' = mintIn s dir := g2.symm.trans g4
      have hm := hcu.mints
      cases dir <;> cases dir'
      · rfl
      · exact absurd g5.symm hm
      · exact absurd g5 hm
      · rfl
    subst e
    exact ⟨h16, fee, burnt, h9, h10, h11, h12⟩
  · rintro ⟨h16, fee, burnt, h9, h10, h11, h12⟩
    refine ⟨dir, fee, burnt, hready.derived, hready.signs, hready.isA, hready.isB,
      hready.mint, hready.fee, hready.program, h9, h10, h11, h12,
      ?_, fun _ => takes_of_owned qF1 qF2, v, h16, takes_of_owned q1 q2,
      owned_ne q2 (custody_in hcu dir) fun e => hS o ho (e ▸ hpd)⟩
    exact ⟨y1, t, y2, y3, y6, by omega, fun e _ => absurd e y5, fun e => absurd e y5,
        fun _ => y4⟩

/-- C93 with an owner fee on trades, on every curve of the crate: if the owner of the fee account is among
those who have to approve, the trade goes through exactly if the curve quotes, for what the pool then holds,
something within the limit, and the number of pool tokens for the owner's fee can still be issued. -/
theorem C93_trade_owner_partial (env : Env) (sys : Pubkey) (K S : Pubkey → Prop) (he : EnvOk env K)
    (hst : sys ≠ env.tokenProgramId) (hsp : sys ≠ env.programId) (w w' : World)
    (hr : Reachable env K w) (hc : Clean env sys K w) (signers : List Pubkey)
    (hs : ∀ u ∈ signers, ¬ IsPda env K u) (a : SwapAccounts) (x y : UInt64)
    (s : SwapV1) (hp : PoolAt env w a.swap s) (hord : Ordinary s)
    (dir : TradeDirection) (o oF : Pubkey) (hS : ∀ x, S x → ¬ IsPda env K x) (hu : S a.userAuthority)
    (ho : S o) (hoF : S oF) (hd : ∀ d, delegateOf w a.source = some d → S d)
    (hA : FrozenOnlyBy env w s.token_a_mint S) (hB : FrozenOnlyBy env w s.token_b_mint S)
    (hready : Ready env w signers a x.toNat s dir o)
    (hF : Thawed w s.pool_fee_account) (hFo : OwnedBy env w s.pool_fee_account s.pool_mint oF)
    (h : Relation.ReflTransGen (Without env sys K S) w w')
    (hsA : Scarce env w' s.token_a_mint) (hsB : Scarce env w' s.token_b_mint)
    (hP : Accounted env w' s.pool_mint) :
    (∃ w'', exec env signers (.swap a x y) w' = .ok w'') ↔
      ∃ r fee, s.swap_curve.swap env.spl x.toNat (bal w' (vaultIn s dir)).toNat
          (bal w' (vaultOut s dir)).toNat dir s.fees = .ok r ∧
        y.toNat ≤ r.destination_amount_swapped ∧
        s.swap_curve.withdrawSingle env.spl r.owner_fee (afterA r dir) (afterB r dir)
          (supply w' s.pool_mint).toNat dir s.fees = .ok fee ∧
        (0 < fee → supply w' s.pool_mint + fee < 2 ^ 64) := by
  have hR := C93_ready env sys K S he hst hsp w w' hr hc signers a x.toNat s hp dir o hS hu ho hd hA hB
    hready h
  obtain ⟨hr', hp', _⟩ := without_keeps he hst hsp hr hc hp h
  obtain ⟨hcu, hcf, hpd⟩ := pool_facts he hr' hp' hready.derived
  have hne : s.token_a ≠ s.token_b := ne_of_mint hcu.vaultA.mint hcu.vaultB.mint hcu.mints
  have hM : FrozenOnlyBy env w s.pool_mint S := by
    obtain ⟨hcu0, _, _⟩ := pool_facts he hr hp hready.derived
    obtain ⟨g1, q, g2, _, g4⟩ := hcu0.minter
    exact ⟨none, ⟨g1, q, g2, g4⟩, fun a e => by cases e⟩
  obtain ⟨qF1, qF2⟩ := without_dest hst hS hoF hM h hF hFo
  have hMs : Scarce env w' (mintIn s dir) ∧ Scarce env w' (mintOut s dir) := by
    cases dir
    · exact ⟨hsA, hsB⟩
    · exact ⟨hsB, hsA⟩
  have uniq : ∀ s', PoolAt env w' a.swap s' → s' = s := fun s' h =>
    Except.ok.inj ((unpackSwap_of h).symm.trans (unpackSwap_of hp'))
  have cin := custody_in hcu dir
  have cout := custody_out hcu dir
  obtain ⟨_, tin, i2, _⟩ := id cin
  obtain ⟨_, tout, o2, _⟩ := id cout
  obtain ⟨m1, m, m2, _⟩ := id hcu.minter
  have b1 := bal_token i2
  have b2 := bal_token o2
  have bm := supply_mint m2
  rw [b1, b2, bm, Int.toNat_natCast, Int.toNat_natCast, Int.toNat_natCast,
    C81_swap env K he w' hr' signers hs a x y fun s' h => Or.inl (by rw [uniq s' h]; exact hord)]
  constructor
  · rintro ⟨s', dir', tin', tout', m', r, fee, h1, h2, h3, h4, h5, h6, h7, h8, h9, h10, h11, h12, h13, h14,
      h15, h16, h17, h18, h19, h20⟩
    rw [uniq s' h1] at *
    have e : dir' = dir := vaultIn_inj hne (by rw [← h4, hR.vin])
    subst e
    rw [tokenAt_some.2 i2] at h9
    rw [tokenAt_some.2 o2] at h10
    rw [mintAt_some.2 m2] at h11
    cases h9
    cases h10
    cases h11
    exact ⟨r, fee, h12, h13, h19, fun g => by exact_mod_cast (h20 g).2⟩
  · rintro ⟨r, fee, h12, h13, h19, h20⟩
    obtain ⟨l1, l2, _⟩ := C07_swap_bounds _ _ _ _ _ _ _ _ h12
    have hux : a.userAuthority ≠ a.authority := fun e => hs _ hR.signs (e ▸ hpd)
    have hsp' := spend_of_pay hR.pays l1
    have h18 : a.destination ≠ vaultOut s dir :=
      owned_ne hR.dest (custody_out hcu dir) fun e => hS o ho (e ▸ hpd)
    refine ⟨s, dir, tin, tout, m, r, fee, hp', hR.derived, hR.signs, hR.vin, hR.vout, hR.mint, hR.fee,
      hR.program, tokenAt_some.2 i2, tokenAt_some.2 o2, mintAt_some.2 m2, h12, h13, hsp', ?_, hR.thawedOut,
      ?_, h18, h19, fun g => ?_⟩
    · exact C87_room env w' _ hMs.1 _ _ (spend_ne hsp' cin hux) _ (spend_held hsp')
        (sole_takes cin hR.thawedIn)
    · refine C87_room env w' _ hMs.2 _ _ (fun e => h18 e.symm) _ ?_ (takes_of_owned hR.takes hR.dest)
      have := sole_held cout
      rw [b2] at this
      omega
    · have g20 : m.supply.toNat + fee < 2 ^ 64 := by exact_mod_cast h20 g
      obtain ⟨z1, t, z2, z3, z4⟩ := takes_of_owned qF1 qF2
      have hc1 := C73_covered env w' s.pool_mint hP {s.pool_fee_account}
      rw [Finset.sum_singleton, held_token z1 z2 z3] at hc1
      have : issued env (w' s.pool_mint) = m.supply.toNat := by
        unfold issued
        rw [m2]
        exact if_pos m1
      exact ⟨⟨z1, t, z2, z3, z4, by omega⟩, g20⟩

/-- C93, what is missing above: if the pool's fee account is gone, which takes nobody but its owner, then no
withdrawal from a pool with an owner fee on withdrawals goes through, whoever makes it, and no trade that
would issue pool tokens to the owner. -/
theorem C93_closed (env : Env) (K : Pubkey → Prop) (he : EnvOk env K) (w : World)
    (hr : Reachable env K w) (k : Pubkey) (s : SwapV1) (hp : PoolAt env w k s)
    (hgone : tokenAt w s.pool_fee_account = none) (signers : List Pubkey) (w' : World) :
    (s.fees.owner_withdraw_fee_numerator ≠ 0 →
      (∀ a p minA minB, a.swap = k → p ≠ 0 → exec env signers (.withdrawAll a p minA minB) w ≠ .ok w') ∧
      (∀ a x maxPool, a.swap = k → exec env signers (.withdrawSingle a x maxPool) w ≠ .ok w')) ∧
    (∀ a x y, a.swap = k → exec env signers (.swap a x y) w = .ok w' →
      supply w' s.pool_mint = supply w s.pool_mint) := by
  have hcf : Configured env s := by
    obtain ⟨w0, h0, hst⟩ := hr
    exact (reachable_pool he h0 hst k s hp).2.2
  have uniq : ∀ ts, unpackSwap w k = .ok ts → ts = s := fun ts h =>
    Except.ok.inj (h.symm.trans (unpackSwap_of hp))
  have hno : ∀ t, (w s.pool_fee_account).data ≠ .token t := fun t e => by
    rw [tokenAt_some.2 e] at hgone; cases hgone
  have hpos : s.fees.owner_withdraw_fee_numerator ≠ 0 → ∀ n, n < 2 ^ 64 → n ≠ 0 →
      s.fees.ownerWithdrawFee n ≠ .ok 0 := by
    intro hnum n hn h0 h
    obtain ⟨fee, e1, e2, _⟩ := C15_fee s.fees hcf.fees .ownerWithdraw n hn
    have e1' : s.fees.ownerWithdrawFee n = .ok fee := e1
    rw [h] at e1'
    cases e1'
    rcases e2.1 rfl with e | e
    · exact hnum (UInt64.toNat_inj.1 e)
    · exact h0 e
  refine ⟨fun hnum => ⟨?_, ?_⟩, ?_⟩
  · rintro a p minA minB rfl hp0 hx
    unfold exec at hx
    rw [req_bind] at hx
    obtain ⟨ts, tA, tB, pm, fee, burnt, r, amtA, amtB, w1, w2, w3, hrun⟩ := processWithdrawAll_ok hx.2
    have e := uniq ts hrun.state
    subst e
    have ef : a.fee = ts.pool_fee_account := by
      rcases hrun.checked.isFee with e | e
      · cases e
      · exact Option.some.inj e
    rcases tokenTransferIfPos_ok hrun.payFee with ⟨z1, z2⟩ | ⟨z1, z2⟩
    · subst z2
      obtain ⟨_, _, _, _, _, hb⟩ := tokenBurn_ok hrun.burn
      rcases hrun.feeIs with ⟨g1, _⟩ | ⟨_, g2⟩
      · obtain ⟨t, _, g3, _⟩ := hb.srcTok
        exact hno t (by rw [← ef, g1]; exact g3)
      · rw [z1] at g2
        exact hpos hnum _ p.toNat_lt (fun e => hp0 (UInt64.toNat_inj.1 e)) g2
    · obtain ⟨_, _, _, _, _, hm⟩ := tokenTransfer_ok z2
      obtain ⟨t, _, g3⟩ := hm.dstTok
      exact hno t (by rw [← ef]; exact g3)
  · rintro a x maxPool rfl hx
    unfold exec at hx
    rw [req_bind] at hx
    obtain ⟨ts, dst, tA, tB, dir, pm, fee, burnt, w1, w2, hrun⟩ := processWithdrawSingle_ok hx.2
    have e := uniq ts hrun.state
    subst e
    have ef : a.fee = ts.pool_fee_account := by
      rcases hrun.checked.isFee with e | e
      · cases e
      · exact Option.some.inj e
    rcases tokenTransferIfPos_ok hrun.payFee with ⟨z1, z2⟩ | ⟨z1, z2⟩
    · subst z2
      obtain ⟨_, _, _, _, _, hb⟩ := tokenBurn_ok hrun.burn
      rcases hrun.feeIs with ⟨g1, _⟩ | ⟨_, g2⟩
      · obtain ⟨t, _, g3, _⟩ := hb.srcTok
        exact hno t (by rw [← ef, g1]; exact g3)
      · rw [z1] at g2
        have := hrun.posP
        exact hpos hnum _ burnt.toNat_lt (by omega) g2
    · obtain ⟨_, _, _, _, _, hm⟩ := tokenTransfer_ok z2
      obtain ⟨t, _, g3⟩ := hm.dstTok
      exact hno t (by rw [← ef]; exact g3)
  · rintro a x y rfl hx
    unfold exec at hx
    rw [req_bind] at hx
    obtain ⟨ts, src, dst, pm, r, pt, ai, ao, w1, w2, hrun⟩ := processSwap_ok hx.2
    have e := uniq ts hrun.state
    subst e
    obtain ⟨_, _, _, _, _, m1⟩ := tokenTransfer_ok hrun.pay
    obtain ⟨_, _, _, _, _, m2⟩ := tokenTransfer_ok hrun.payOut
    rcases ownerFeeStep_none hrun.mint with ⟨_, z⟩ | ⟨amt, _, _, z⟩
    · subst z
      rw [m2.supply, m1.supply]
    · exfalso
      obtain ⟨_, _, _, _, _, hm⟩ := tokenMintTo_ok z
      obtain ⟨t, _, g2, _⟩ := hm.dstTok
      rw [hrun.feeIs] at g2
      obtain ⟨t1, _, q1, _⟩ := m1.srcTok
      obtain ⟨t2, _, q2⟩ := m1.dstTok
      rw [m1.same ts.pool_fee_account (fun e => hno t1 (by rw [e]; exact q1))
        (fun e => hno t2 (by rw [e]; exact q2))] at g2
      exact hno t g2

/-! ### The hypotheses are met -/

theorem user60 : ∀ x ∈ [Sample.key 60], ¬ IsPda Sample.env samplePools x := by
  rintro x hx ⟨k, b, hk, h⟩
  rw [List.mem_singleton.1 hx] at h
  unfold Sample.env at h
  simp only [] at h
  split at h
  · have h := Option.some.inj h
    rcases hk with rfl | rfl <;> revert h <;> decide +kernel
  · cases h

/-- 60 moves the fees of the second pool elsewhere and closes its fee account. -/
def emptied : World := match (Token.TokenInstr.transfer (Sample.key 16) (Sample.key 17) (Sample.key 60)
    1914937).exec Sample.env.tokenProgramId [Sample.key 60] live with
  | .ok w => w
  | .error _ => live
def shut : World := match (Token.TokenInstr.closeAccount (Sample.key 16) (Sample.key 60)
    (Sample.key 60)).exec Sample.env.tokenProgramId [Sample.key 60] emptied with
  | .ok w => w
  | .error _ => emptied

theorem shut_without : Relation.ReflTransGen
    (Without Sample.env (Sample.key 0) samplePools (· = Sample.key 50)) live shut := by
  obtain ⟨w, hw⟩ := of_isOk (x := (Token.TokenInstr.transfer (Sample.key 16) (Sample.key 17)
    (Sample.key 60) 1914937).exec Sample.env.tokenProgramId [Sample.key 60] live) (by decide +kernel)
  have e : emptied = w := by unfold emptied; rw [hw]
  rw [← e] at hw
  obtain ⟨v, hv⟩ := of_isOk (x := (Token.TokenInstr.closeAccount (Sample.key 16) (Sample.key 60)
    (Sample.key 60)).exec Sample.env.tokenProgramId [Sample.key 60] emptied) (by decide +kernel)
  have e' : shut = v := by unfold shut; rw [hv]
  rw [← e'] at hv
  refine .tail (.single (.token _ _ user60 ?_ hw)) (.token _ _ user60 ?_ hv)
  · rintro x rfl (⟨b, h, _⟩ | ⟨_, h⟩)
    · exact absurd h.1 (by decide +kernel)
    · revert h; decide
  · rintro x rfl (⟨b, h, _⟩ | ⟨_, h⟩)
    · exact absurd h.1 (by decide +kernel)
    · revert h; decide

theorem shut_moves : Moves Sample.env (Sample.key 0) samplePools live shut :=
  (without_keeps sample_ok (by decide) (by decide) live_reachable live_clean live_pool2 shut_without).2.2

theorem shut_tokens : Accounted Sample.env shut (Sample.key 20) ∧
    Accounted Sample.env shut (Sample.key 21) :=
  ⟨C73_accounted Sample.env (Sample.key 0) samplePools sample_ok (by decide) _ _ shut_moves _
      (by decide) live_tokens.1,
    C73_accounted Sample.env (Sample.key 0) samplePools sample_ok (by decide) _ _ shut_moves _
      (by decide) live_tokens.2⟩

theorem live_freezers : FrozenOnlyBy Sample.env live (Sample.key 20) (· = Sample.key 50) ∧
    FrozenOnlyBy Sample.env live (Sample.key 21) (· = Sample.key 50) :=
  ⟨⟨none, ⟨by decide +kernel, ⟨some (Sample.key 61), 25000, none⟩, by decide +kernel, rfl⟩, nofun⟩,
    ⟨none, ⟨by decide +kernel, ⟨some (Sample.key 61), 20800, none⟩, by decide +kernel, rfl⟩, nofun⟩⟩

/-- 50 is ready to buy from the second pool. -/
theorem live_ready : Ready Sample.env live [Sample.key 50] fixedIn 1000 pool2 .AtoB (Sample.key 50) :=
  ⟨by decide +kernel, by decide, rfl, rfl, rfl, rfl, rfl,
    pays (k := 30) (m := 20) (u := 50) 18987 (by decide +kernel) (by decide +kernel),
    ⟨by decide +kernel, plain 20 50 18987, live_tok (by decide +kernel), rfl, rfl, rfl⟩,
    ⟨plain 21 50 20141, live_tok (by decide +kernel), rfl⟩,
    ⟨by decide +kernel, plain 21 50 20141, live_tok (by decide +kernel), rfl, rfl, rfl⟩,
    ⟨plain 20 130 5995, live_tok (by decide +kernel), rfl⟩,
    ⟨plain 21 130 561, live_tok (by decide +kernel), rfl⟩⟩

/-- C93.  With an owner fee it is false.  50 is ready to buy from the second pool, nobody else can freeze
anything, the purchase goes through, and so does a withdrawal.  Then 60 alone, who owns the fee account,
closes it: the quote is still within the limit, the pool still has that much, nothing overflows, but the
purchase fails, and no withdrawal goes through any more. -/
theorem C93_false :
    Ready Sample.env live [Sample.key 50] fixedIn 1000 pool2 .AtoB (Sample.key 50) ∧
    FrozenOnlyBy Sample.env live pool2.token_a_mint (· = Sample.key 50) ∧
    FrozenOnlyBy Sample.env live pool2.token_b_mint (· = Sample.key 50) ∧
    isOk (exec Sample.env [Sample.key 50] (.swap fixedIn 1000 139) live) = true ∧
    isOk (exec Sample.env [Sample.key 1, Sample.key 2, Sample.key 50] Sample.wdAll live) = true ∧
    ∃ w', Relation.ReflTransGen (Without Sample.env (Sample.key 0) samplePools (· = Sample.key 50)) live
        w' ∧
      Scarce Sample.env w' pool2.token_a_mint ∧ Scarce Sample.env w' pool2.token_b_mint ∧
      fixedQuote 7 pool2.fees 1000 .AtoB = some (995, 139) ∧ 139 ≤ bal w' (vaultOut pool2 .AtoB) ∧
      isOk (exec Sample.env [Sample.key 50] (.swap fixedIn 1000 139) w') = false ∧
      (∀ signers a p minA minB w'', a.swap = Sample.key 2 → p ≠ 0 →
        exec Sample.env signers (.withdrawAll a p minA minB) w' ≠ .ok w'') ∧
      (∀ signers a x maxPool w'', a.swap = Sample.key 2 →
        exec Sample.env signers (.withdrawSingle a x maxPool) w' ≠ .ok w'') := by
  have e1 : pool2.token_a_mint = Sample.key 20 := by decide
  have e2 : pool2.token_b_mint = Sample.key 21 := by decide
  obtain ⟨g1, g2, _⟩ := without_keeps sample_ok (by decide) (by decide) live_reachable live_clean
    live_pool2 shut_without
  have key := fun signers w'' => (C93_closed Sample.env samplePools sample_ok shut g1 (Sample.key 2) pool2
    g2 (by decide +kernel) signers w'').1 (by decide)
  refine ⟨live_ready, e1 ▸ live_freezers.1, e2 ▸ live_freezers.2, by decide +kernel, by decide +kernel,
    shut, shut_without, ?_, ?_, by decide +kernel, by decide +kernel, by decide +kernel,
    fun signers a p minA minB w'' => (key signers w'').1 a p minA minB,
    fun signers a x maxPool w'' => (key signers w'').2 a x maxPool⟩
  · rw [e1]; exact C87_scarce _ _ _ shut_tokens.1
  · rw [e2]; exact C87_scarce _ _ _ shut_tokens.2

/-- Two token B for the first, linear, pool. -/
def linearIn : SwapAccounts := ⟨Sample.key 1, Sample.key 129, Sample.key 50, Sample.key 31, Sample.key 4,
  Sample.key 3, Sample.key 30, Sample.key 5, Sample.key 6, Sample.key 101⟩

/-- There 60 cannot hold up 50's sale. -/
example (y : UInt64) : (∃ w, exec Sample.env [Sample.key 50] (.swap linearIn 2 y) shut = .ok w) ↔
    y.toNat ≤ 14 := by
  have e1 : pool1.token_a_mint = Sample.key 20 := by decide
  have e2 : pool1.token_b_mint = Sample.key 21 := by decide
  rw [C93_linear_partial Sample.env (Sample.key 0) samplePools (· = Sample.key 50) sample_ok (by decide)
    (by decide) live shut live_reachable live_clean _ user50 linearIn 2 y pool1 live_pool1 Sample.lin rfl
    .BtoA (Sample.key 50) (fun x hx => hx ▸ user50 _ (List.mem_singleton.2 rfl)) rfl rfl
    (fun d h => absurd h (by
      rw [show delegateOf live linearIn.source = none by decide +kernel]; nofun))
    (e1 ▸ live_freezers.1) (e2 ▸ live_freezers.2)
    ⟨by decide +kernel, by decide, rfl, rfl, rfl, rfl, rfl,
      pays (k := 31) (m := 21) (u := 50) 20141 (by decide +kernel) (by decide +kernel),
      ⟨by decide +kernel, plain 21 50 20141, live_tok (by decide +kernel), rfl, rfl, rfl⟩,
      ⟨plain 20 50 18987, live_tok (by decide +kernel), rfl⟩,
      ⟨by decide +kernel, plain 20 50 18987, live_tok (by decide +kernel), rfl, rfl, rfl⟩,
      ⟨plain 21 129 98, live_tok (by decide +kernel), rfl⟩,
      ⟨plain 20 129 18, live_tok (by decide +kernel), rfl⟩⟩ shut_without
    (by rw [e1]; exact C87_scarce _ _ _ shut_tokens.1) (by rw [e2]; exact C87_scarce _ _ _ shut_tokens.2)]
  have e : plainTrade Sample.lin (2 : UInt64).toNat (bal shut (vaultIn pool1 .BtoA)).toNat
    (bal shut (vaultOut pool1 .BtoA)).toNat .BtoA = .trade 2 14 := by decide +kernel
  have e' : bal shut (vaultOut pool1 .BtoA) = 18 := by decide +kernel
  rw [e, e']
  constructor
  · rintro ⟨t, d, h, _, h'⟩
    cases h
    exact h'
  · intro h
    exact ⟨2, 14, rfl, by decide, h⟩

theorem tradedFree_without : Relation.ReflTransGen
      (Without Sample.env (Sample.key 0) samplePools (· = Sample.key 50)) lentFree tradedFree ∧
    Moves Sample.env (Sample.key 0) samplePools Sample.start tradedFree := by
  obtain ⟨_, _, _, j4, j5⟩ := away_keeps sample_ok (by decide) (by decide) lentFree_facts.1
    lentFree_facts.2 (pool_of (s := poolFree) (by decide +kernel) (by decide +kernel))
    (lentFree_away (fun _ => True) trivial)
  exact ⟨j5, lentFree_moves.trans j4⟩

theorem tradedFree_accounted : Accounted Sample.env tradedFree (Sample.key 20) ∧
    Accounted Sample.env tradedFree (Sample.key 21) ∧ Accounted Sample.env tradedFree (Sample.key 15) :=
  ⟨C73_accounted Sample.env (Sample.key 0) samplePools sample_ok (by decide) _ _
      tradedFree_without.2 _ (by decide) (ledger_accounted (n := 25000)
        {Sample.key 3, Sample.key 13, Sample.key 30} (by decide +kernel) (by decide +kernel)
        (by decide +kernel)),
    C73_accounted Sample.env (Sample.key 0) samplePools sample_ok (by decide) _ _
      tradedFree_without.2 _ (by decide) (ledger_accounted (n := 20800)
        {Sample.key 4, Sample.key 14, Sample.key 31} (by decide +kernel) (by decide +kernel)
        (by decide +kernel)),
    C73_accounted Sample.env (Sample.key 0) samplePools sample_ok (by decide) _ _
      tradedFree_without.2 _ (by decide) start_accounted⟩

theorem lentFree_freezers : FrozenOnlyBy Sample.env lentFree (Sample.key 20) (· = Sample.key 50) ∧
    FrozenOnlyBy Sample.env lentFree (Sample.key 21) (· = Sample.key 50) :=
  ⟨⟨none, ⟨by decide +kernel, ⟨some (Sample.key 61), 25000, none⟩, by decide +kernel, rfl⟩, nofun⟩,
    ⟨none, ⟨by decide +kernel, ⟨some (Sample.key 61), 20800, none⟩, by decide +kernel, rfl⟩, nofun⟩⟩

/-- Ten token B for the pool without fees. -/
def fixedOut : SwapAccounts := ⟨Sample.key 2, Sample.key 130, Sample.key 50, Sample.key 31,
  Sample.key 14, Sample.key 13, Sample.key 30, Sample.key 15, Sample.key 16, Sample.key 101⟩

/-- On the pool without fees 62's trade does not hold up 50's. -/
example (y : UInt64) : (∃ w, exec Sample.env [Sample.key 50] (.swap fixedOut 10 y) tradedFree = .ok w) ↔
    y.toNat ≤ 70 := by
  have e1 : poolFree.token_a_mint = Sample.key 20 := by decide
  have e2 : poolFree.token_b_mint = Sample.key 21 := by decide
  rw [C93_fixed_partial Sample.env (Sample.key 0) samplePools (· = Sample.key 50) sample_ok (by decide)
    (by decide) lentFree tradedFree lentFree_facts.1 lentFree_facts.2 _ user50 fixedOut 10 y poolFree
    (pool_of (by decide +kernel) (by decide +kernel)) ⟨by decide, by decide⟩ 7 rfl rfl
    .BtoA (Sample.key 50) (fun x hx => hx ▸ user50 _ (List.mem_singleton.2 rfl)) rfl rfl
    (fun d h => absurd h (by
      rw [show delegateOf lentFree fixedOut.source = none by decide +kernel]; nofun))
    (e1 ▸ lentFree_freezers.1) (e2 ▸ lentFree_freezers.2)
    ⟨by decide +kernel, by decide, rfl, rfl, rfl, rfl, rfl,
      ⟨by decide +kernel, plain 21 50 20000, by decide +kernel, rfl, rfl, by decide, rfl, by decide⟩,
      ⟨by decide +kernel, plain 21 50 20000, by decide +kernel, rfl, rfl, rfl⟩,
      ⟨⟨Sample.key 20, Sample.key 50, 20000, some (Sample.key 62), false, 1500, none⟩,
        by decide +kernel, rfl⟩,
      ⟨by decide +kernel, ⟨Sample.key 20, Sample.key 50, 20000, some (Sample.key 62), false, 1500, none⟩,
        by decide +kernel, rfl, rfl, rfl⟩,
      ⟨plain 21 130 700, by decide +kernel, rfl⟩,
      ⟨plain 20 130 5000, by decide +kernel, rfl⟩⟩ tradedFree_without.1
    (by rw [e1]; exact C87_scarce _ _ _ tradedFree_accounted.1)
    (by rw [e2]; exact C87_scarce _ _ _ tradedFree_accounted.2.1)]
  have e : fixedQuote (7 : UInt64).toNat poolFree.fees (10 : UInt64).toNat .BtoA = some (10, 70) := by
    decide +kernel
  have e' : 70 ≤ bal tradedFree (vaultOut poolFree .BtoA) := by decide +kernel
  rw [e]
  constructor
  · rintro ⟨t, d, h, _, h'⟩
    cases h
    exact h'
  · intro h
    exact ⟨10, 70, rfl, e', h⟩

/-- Nor a withdrawal of theirs. -/
example : ∃ w, exec Sample.env [Sample.key 50] (.withdrawAll ⟨Sample.key 2, Sample.key 130,
      Sample.key 50, Sample.key 15, Sample.key 17, Sample.key 13, Sample.key 14, Sample.key 30,
      Sample.key 31, Sample.key 16, Sample.key 101⟩ 500000000 1 1) tradedFree = .ok w := by
  have e1 : poolFree.token_a_mint = Sample.key 20 := by decide
  have e2 : poolFree.token_b_mint = Sample.key 21 := by decide
  have e3 : poolFree.pool_mint = Sample.key 15 := by decide
  refine (C93_withdraw_partial Sample.env (Sample.key 0) samplePools (· = Sample.key 50) sample_ok
    (by decide) (by decide) lentFree tradedFree lentFree_facts.1 lentFree_facts.2 [Sample.key 50]
    ⟨Sample.key 2, Sample.key 130,
      Sample.key 50, Sample.key 15, Sample.key 17, Sample.key 13, Sample.key 14, Sample.key 30,
      Sample.key 31, Sample.key 16, Sample.key 101⟩ 500000000 1 1 poolFree
    (pool_of (by decide +kernel) (by decide +kernel)) ⟨by decide, by decide⟩ rfl
    (Sample.key 50) (Sample.key 50) (fun x hx => hx ▸ user50 _ (List.mem_singleton.2 rfl)) rfl rfl rfl
    (fun d h => absurd h (by
      rw [show delegateOf lentFree (Sample.key 17) = none by decide +kernel]; nofun))
    (e1 ▸ lentFree_freezers.1) (e2 ▸ lentFree_freezers.2)
    ⟨by decide +kernel, by decide, rfl, rfl, rfl, rfl, rfl,
      ⟨by decide +kernel, plain 15 50 1000000000, by decide +kernel, rfl, rfl, by decide, rfl,
        by decide⟩, lentFree_owned,
      ⟨⟨Sample.key 20, Sample.key 50, 20000, some (Sample.key 62), false, 1500, none⟩,
        by decide +kernel, rfl⟩,
      ⟨by decide +kernel, ⟨Sample.key 20, Sample.key 50, 20000, some (Sample.key 62), false, 1500, none⟩,
        by decide +kernel, rfl, rfl, rfl⟩,
      ⟨plain 21 50 20000, by decide +kernel, rfl⟩,
      ⟨by decide +kernel, plain 21 50 20000, by decide +kernel, rfl, rfl, rfl⟩,
      ⟨plain 20 130 5000, by decide +kernel, rfl⟩,
      ⟨plain 21 130 700, by decide +kernel, rfl⟩⟩ tradedFree_without.1
    (by rw [e1]; exact C87_scarce _ _ _ tradedFree_accounted.1)
    (by rw [e2]; exact C87_scarce _ _ _ tradedFree_accounted.2.1)
    (by rw [e3]; exact tradedFree_accounted.2.2)).2 ⟨⟨2475, 353⟩, by decide +kernel, by decide, by decide,
      by decide +kernel, by decide +kernel, by decide, by decide⟩

/-- Nor a withdrawal of 300 token B of theirs for at most a billion pool tokens. -/
example : ∃ w, exec Sample.env [Sample.key 50] (.withdrawSingle ⟨Sample.key 2, Sample.key 130,
      Sample.key 50, Sample.key 15, Sample.key 17, Sample.key 13, Sample.key 14, Sample.key 31,
      Sample.key 16, Sample.key 101⟩ 300 1000000000) tradedFree = .ok w := by
  have e1 : poolFree.token_a_mint = Sample.key 20 := by decide
  have e2 : poolFree.token_b_mint = Sample.key 21 := by decide
  have e3 : poolFree.pool_mint = Sample.key 15 := by decide
  refine (C93_single_partial Sample.env (Sample.key 0) samplePools (· = Sample.key 50) sample_ok
    (by decide) (by decide) lentFree tradedFree lentFree_facts.1 lentFree_facts.2 [Sample.key 50]
    ⟨Sample.key 2, Sample.key 130,
      Sample.key 50, Sample.key 15, Sample.key 17, Sample.key 13, Sample.key 14, Sample.key 31,
      Sample.key 16, Sample.key 101⟩ 300 1000000000 poolFree
    (pool_of (by decide +kernel) (by decide +kernel)) ⟨by decide, by decide⟩ rfl .BtoA
    (Sample.key 50) (fun x hx => hx ▸ user50 _ (List.mem_singleton.2 rfl)) rfl rfl
    (fun d h => absurd h (by
      rw [show delegateOf lentFree (Sample.key 17) = none by decide +kernel]; nofun))
    (e1 ▸ lentFree_freezers.1) (e2 ▸ lentFree_freezers.2)
    ⟨by decide +kernel, by decide, rfl, rfl, rfl, rfl, rfl,
      ⟨by decide +kernel, plain 15 50 1000000000, by decide +kernel, rfl, rfl, by decide, rfl,
        by decide⟩, lentFree_owned,
      ⟨plain 21 50 20000, by decide +kernel, rfl⟩,
      ⟨by decide +kernel, plain 21 50 20000, by decide +kernel, rfl, rfl, rfl⟩,
      ⟨plain 21 130 700, by decide +kernel, rfl⟩⟩ tradedFree_without.1
    (by rw [e1]; exact C87_scarce _ _ _ tradedFree_accounted.1)
    (by rw [e2]; exact C87_scarce _ _ _ tradedFree_accounted.2.1)
    (by rw [e3]; exact tradedFree_accounted.2.2)).2 ⟨by decide +kernel, 212121213, by decide +kernel, by decide,
      by decide⟩

theorem user61 : ∀ x ∈ [Sample.key 61], ¬ IsPda Sample.env samplePools x := by
  rintro x hx ⟨k, b, hk, h⟩
  rw [List.mem_singleton.1 hx] at h
  unfold Sample.env at h
  simp only [] at h
  split at h
  · have h := Option.some.inj h
    rcases hk with rfl | rfl <;> revert h <;> decide +kernel
  · cases h

/-- 61, who issues token A, puts a hundred of it into the vault of the second pool. -/
def minted : World := match (Token.TokenInstr.mintTo (Sample.key 20) (Sample.key 13) (Sample.key 61)
    100).exec Sample.env.tokenProgramId [Sample.key 61] live with
  | .ok w => w
  | .error _ => live

theorem minted_without : Relation.ReflTransGen (Without Sample.env (Sample.key 0) samplePools
    (fun x => x = Sample.key 50 ∨ x = Sample.key 60)) live minted := by
  obtain ⟨w, hw⟩ := of_isOk (x := (Token.TokenInstr.mintTo (Sample.key 20) (Sample.key 13)
    (Sample.key 61) 100).exec Sample.env.tokenProgramId [Sample.key 61] live) (by decide +kernel)
  have e : minted = w := by unfold minted; rw [hw]
  rw [← e] at hw
  refine .single (.token _ _ user61 ?_ hw)
  rintro x (rfl | rfl) (⟨b, h, _⟩ | ⟨_, h⟩)
  · exact absurd h.1 (by decide +kernel)
  · revert h; decide
  · exact absurd h.1 (by decide +kernel)
  · revert h; decide

theorem minted_accounted : Accounted Sample.env minted (Sample.key 20) ∧
    Accounted Sample.env minted (Sample.key 21) ∧ Accounted Sample.env minted (Sample.key 15) := by
  have h := (without_keeps sample_ok (by decide) (by decide) live_reachable live_clean live_pool2
    minted_without).2.2
  exact ⟨C73_accounted Sample.env (Sample.key 0) samplePools sample_ok (by decide) _ _ h _
      (by decide) live_tokens.1,
    C73_accounted Sample.env (Sample.key 0) samplePools sample_ok (by decide) _ _ h _
      (by decide) live_tokens.2,
    C73_accounted Sample.env (Sample.key 0) samplePools sample_ok (by decide) _ _ h _
      (by decide) live_accounted⟩

theorem both_users : ∀ x, x = Sample.key 50 ∨ x = Sample.key 60 → ¬ IsPda Sample.env samplePools x := by
  rintro x (rfl | rfl)
  · exact user50 _ (List.mem_singleton.2 rfl)
  · exact user60 _ (List.mem_singleton.2 rfl)

theorem widen {w : World} {m : Pubkey} {S T : Pubkey → Prop} (h : FrozenOnlyBy Sample.env w m S)
    (hST : ∀ x, S x → T x) : FrozenOnlyBy Sample.env w m T := by
  obtain ⟨f, h1, h2⟩ := h
  exact ⟨f, h1, fun a e => hST a (h2 a e)⟩

/-- If 60, who owns the fee account of the second pool, does nothing, 50 can leave. -/
example : ∃ w, exec Sample.env [Sample.key 50] (.withdrawAll ⟨Sample.key 2, Sample.key 130,
      Sample.key 50, Sample.key 15, Sample.key 17, Sample.key 13, Sample.key 14, Sample.key 30,
      Sample.key 31, Sample.key 16, Sample.key 101⟩ 500000000 1 1) minted = .ok w := by
  have e1 : pool2.token_a_mint = Sample.key 20 := by decide
  have e2 : pool2.token_b_mint = Sample.key 21 := by decide
  have e3 : pool2.pool_mint = Sample.key 15 := by decide
  refine (C93_withdraw_owner_partial Sample.env (Sample.key 0) samplePools
    (fun x => x = Sample.key 50 ∨ x = Sample.key 60) sample_ok
    (by decide) (by decide) live minted live_reachable live_clean [Sample.key 50]
    ⟨Sample.key 2, Sample.key 130,
      Sample.key 50, Sample.key 15, Sample.key 17, Sample.key 13, Sample.key 14, Sample.key 30,
      Sample.key 31, Sample.key 16, Sample.key 101⟩ 500000000 1 1 pool2
    live_pool2 ⟨by decide, by decide⟩
    (Sample.key 50) (Sample.key 50) (Sample.key 60) both_users (.inl rfl) (.inl rfl) (.inl rfl) (.inr rfl)
    (fun d h => absurd h (by
      rw [show delegateOf live (Sample.key 17) = none by decide +kernel]; nofun))
    (e1 ▸ widen live_freezers.1 fun _ => .inl) (e2 ▸ widen live_freezers.2 fun _ => .inl)
    ⟨by decide +kernel, by decide, rfl, rfl, rfl, rfl, rfl,
      ⟨by decide +kernel, plain 15 50 1000000000, live_tok (by decide +kernel), rfl, rfl, by decide, rfl,
        by decide⟩,
      ⟨by decide +kernel, plain 15 50 1000000000, live_tok (by decide +kernel), rfl, rfl, rfl⟩,
      ⟨plain 20 50 18987, live_tok (by decide +kernel), rfl⟩,
      ⟨by decide +kernel, plain 20 50 18987, live_tok (by decide +kernel), rfl, rfl, rfl⟩,
      ⟨plain 21 50 20141, live_tok (by decide +kernel), rfl⟩,
      ⟨by decide +kernel, plain 21 50 20141, live_tok (by decide +kernel), rfl, rfl, rfl⟩,
      ⟨plain 20 130 5995, live_tok (by decide +kernel), rfl⟩,
      ⟨plain 21 130 561, live_tok (by decide +kernel), rfl⟩⟩
    ⟨plain 15 60 1914937, live_tok (by decide +kernel), rfl⟩
    ⟨by decide +kernel, plain 15 60 1914937, live_tok (by decide +kernel), rfl, rfl, rfl⟩ minted_without
    (by rw [e1]; exact C87_scarce _ _ _ minted_accounted.1)
    (by rw [e2]; exact C87_scarce _ _ _ minted_accounted.2.1)
    (by rw [e3]; exact minted_accounted.2.2)).2 ⟨5000000, 495000000, ⟨2475, 353⟩, ?_, by decide,
      by decide +kernel, by decide, by decide,
      by decide +kernel, by decide +kernel, by decide, by decide⟩
  exact ⟨fun e => absurd e (by decide), fun _ => by decide +kernel⟩

/-- With 300 token B, too. -/
example : ∃ w, exec Sample.env [Sample.key 50] (.withdrawSingle ⟨Sample.key 2, Sample.key 130,
      Sample.key 50, Sample.key 15, Sample.key 17, Sample.key 13, Sample.key 14, Sample.key 31,
      Sample.key 16, Sample.key 101⟩ 300 1000000000) minted = .ok w := by
  have e1 : pool2.token_a_mint = Sample.key 20 := by decide
  have e2 : pool2.token_b_mint = Sample.key 21 := by decide
  have e3 : pool2.pool_mint = Sample.key 15 := by decide
  refine (C93_single_owner_partial Sample.env (Sample.key 0) samplePools
    (fun x => x = Sample.key 50 ∨ x = Sample.key 60) sample_ok
    (by decide) (by decide) live minted live_reachable live_clean [Sample.key 50]
    ⟨Sample.key 2, Sample.key 130,
      Sample.key 50, Sample.key 15, Sample.key 17, Sample.key 13, Sample.key 14, Sample.key 31,
      Sample.key 16, Sample.key 101⟩ 300 1000000000 pool2
    live_pool2 ⟨by decide, by decide⟩ .BtoA
    (Sample.key 50) (Sample.key 60) both_users (.inl rfl) (.inl rfl) (.inr rfl)
    (fun d h => absurd h (by
      rw [show delegateOf live (Sample.key 17) = none by decide +kernel]; nofun))
    (e1 ▸ widen live_freezers.1 fun _ => .inl) (e2 ▸ widen live_freezers.2 fun _ => .inl)
    ⟨by decide +kernel, by decide, rfl, rfl, rfl, rfl, rfl,
      ⟨by decide +kernel, plain 15 50 1000000000, live_tok (by decide +kernel), rfl, rfl, by decide, rfl,
        by decide⟩,
      ⟨by decide +kernel, plain 15 50 1000000000, live_tok (by decide +kernel), rfl, rfl, rfl⟩,
      ⟨plain 21 50 20141, live_tok (by decide +kernel), rfl⟩,
      ⟨by decide +kernel, plain 21 50 20141, live_tok (by decide +kernel), rfl, rfl, rfl⟩,
      ⟨plain 21 130 561, live_tok (by decide +kernel), rfl⟩⟩
    ⟨plain 15 60 1914937, live_tok (by decide +kernel), rfl⟩
    ⟨by decide +kernel, plain 15 60 1914937, live_tok (by decide +kernel), rfl, rfl, rfl⟩ minted_without
    (by rw [e1]; exact C87_scarce _ _ _ minted_accounted.1)
    (by rw [e2]; exact C87_scarce _ _ _ minted_accounted.2.1)
    (by rw [e3]; exact minted_accounted.2.2)).2 ⟨by decide +kernel, 2092404, 209240468,
      by decide +kernel, ?_, by decide, by decide⟩
  exact ⟨fun e => absurd e (by decide), fun _ => by decide +kernel⟩

/-- And buy. -/
example : ∃ w, exec Sample.env [Sample.key 50] (.swap fixedIn 1000 139) minted = .ok w := by
  have e1 : pool2.token_a_mint = Sample.key 20 := by decide
  have e2 : pool2.token_b_mint = Sample.key 21 := by decide
  have e3 : pool2.pool_mint = Sample.key 15 := by decide
  exact (C93_trade_owner_partial Sample.env (Sample.key 0) samplePools
    (fun x => x = Sample.key 50 ∨ x = Sample.key 60) sample_ok
    (by decide) (by decide) live minted live_reachable live_clean _ user50 fixedIn 1000 139 pool2
    live_pool2 ⟨by decide, by decide⟩ .AtoB
    (Sample.key 50) (Sample.key 60) both_users (.inl rfl) (.inl rfl) (.inr rfl)
    (fun d h => absurd h (by
      rw [show delegateOf live fixedIn.source = none by decide +kernel]; nofun))
    (e1 ▸ widen live_freezers.1 fun _ => .inl) (e2 ▸ widen live_freezers.2 fun _ => .inl)
    live_ready
    ⟨plain 15 60 1914937, live_tok (by decide +kernel), rfl⟩
    ⟨by decide +kernel, plain 15 60 1914937, live_tok (by decide +kernel), rfl, rfl, rfl⟩ minted_without
    (by rw [e1]; exact C87_scarce _ _ _ minted_accounted.1)
    (by rw [e2]; exact C87_scarce _ _ _ minted_accounted.2.1)
    (by rw [e3]; exact minted_accounted.2.2)).2 ⟨⟨7090, 422, 995, 139, 2, 20⟩, 1895300,
      by decide +kernel, by decide, by decide +kernel, fun _ => by decide +kernel⟩

end Props
end Verif
