import Verif.Spec.Room
import Verif.Props.Supply
import Verif.Props.Amount
import Verif.Props.Plain

/-
C87: where tokens add up, receivers never lack room.
-/

namespace Verif
namespace Props
open Spec Processor Linear

/-- C87.  Tokens that add up to the supply on record never overflow an account.  (By C73 they go on
adding up.) -/
theorem C87_scarce (env : Env) (w : World) (m : Pubkey) (h : Accounted env w m) : Scarce env w m := by
  intro j k hjk
  have h1 := C73_covered env w m h {j, k}
  rw [Finset.sum_pair hjk] at h1
  have h2 : issued env (w m) < 2 ^ 64 := by
    unfold issued
    split
    · split
      · exact UInt64.toNat_lt _
      · decide
    · decide
  omega

theorem held_token {env : Env} {w : World} {k m : Pubkey} {t : TokenAccount}
    (h1 : (w k).owner = env.tokenProgramId) (h2 : tokenAt w k = some t) (h3 : t.mint = m) :
    held env m (w k) = t.amount.toNat := by
  unfold held
  rw [tokenAt_some.1 h2]
  exact if_pos ⟨h1, h3⟩

/-- C87.  So whatever one account holds another one can take. -/
theorem C87_room (env : Env) (w : World) (m : Pubkey) (h : Scarce env w m) (src dst : Pubkey)
    (hne : src ≠ dst) (x : Nat) (hx : x ≤ held env m (w src)) (hd : Takes env w dst m) :
    CanReceive env w dst m x := by
  obtain ⟨h1, t, h2, h3, h4⟩ := hd
  have := h src dst hne
  rw [held_token h1 h2 h3] at this
  exact ⟨h1, t, h2, h3, h4, by omega⟩

theorem takes_of {env : Env} {w : World} {k m : Pubkey} {x : Nat} (h : CanReceive env w k m x) :
    Takes env w k m := by
  obtain ⟨h1, t, h2, h3, h4, _⟩ := h
  exact ⟨h1, t, h2, h3, h4⟩

theorem spend_held {env : Env} {w : World} {k m u : Pubkey} {x : Nat} (h : MaySpend env w k m u x) :
    x ≤ held env m (w k) := by
  obtain ⟨h1, t, h2, h3, _, h4, _⟩ := h
  rw [held_token h1 h2 h3]; exact h4

theorem both_held {env : Env} {w : World} {k m u : Pubkey} {x y : Nat}
    (h : MaySpendBoth env w k m u x y) : x + y ≤ held env m (w k) := by
  obtain ⟨h1, t, h2, h3, _, h4, _⟩ := h
  rw [held_token h1 h2 h3]; exact h4

theorem sole_held {env : Env} {w : World} {k m u : Pubkey} (h : SoleOwner env w k m u) :
    (held env m (w k) : Int) = bal w k := by
  obtain ⟨h1, t, h2, h3, _⟩ := h
  rw [held_token h1 (tokenAt_some.2 h2) h3, bal_token h2]

/-- A vault is not spent from by a user. -/
theorem spend_ne {env : Env} {w : World} {j k m n u pda : Pubkey} {x : Nat}
    (h : MaySpend env w j m u x) (hs : SoleOwner env w k n pda) (hu : u ≠ pda) : j ≠ k := by
  rintro rfl
  obtain ⟨_, t, h2, _, _, _, _, h6⟩ := h
  obtain ⟨_, t', g2, _, g3, g4, _⟩ := hs
  rw [tokenAt_some.1 h2] at g2
  cases g2
  exact hu ((h6 (by rw [g4]; nofun)).symm.trans g3)

theorem sole_takes {env : Env} {w : World} {k m u : Pubkey} (h : SoleOwner env w k m u)
    (hz : Thawed w k) : Takes env w k m := (h.owns hz).takes

theorem valid_of {env : Env} {s : SwapV1} {c : LinearPriceCurve} (hcf : Configured env s)
    (hl : s.swap_curve = .linear c) : isCurveParamValid c = .ok () := by
  have hcv := hcf.curve
  rw [hl] at hcv
  unfold Curve.validate at hcv
  simp only [] at hcv
  split at hcv
  · assumption
  · cases hcv

theorem free_of {env : Env} {s : SwapV1} {c : LinearPriceCurve} (hcf : Configured env s)
    (hl : s.swap_curve = .linear c) : s.fees = ⟨0, 1, 0, 1, 0, 1, 0, 1⟩ := by
  rcases hcf.kind with ⟨p, h1⟩ | ⟨l, _, h2⟩
  · rw [hl] at h1; cases h1
  · exact h2

/-- The quote of a linear pool, in plain numbers. -/
theorem linear_quote {e : SplEnv} {c : LinearPriceCurve} (hv : isCurveParamValid c = .ok ())
    {x p q : Nat} (hx : x < 2 ^ 64) (hp : p < 2 ^ 64) (hq : q < 2 ^ 64) {dir : TradeDirection}
    {r : SwapResult} :
    (Curve.linear c).swap e x p q dir ⟨0, 1, 0, 1, 0, 1, 0, 1⟩ = .ok r ↔
      ∃ t d, plainTrade c x p q dir = .trade t d ∧ d ≤ q ∧ r = settled p q t d 0 0 := by
  rw [C84_fees e c hv x p q dir ⟨0, 1, 0, 1, 0, 1, 0, 1⟩ (by decide) hx hp hq]
  have z : feeOf 0 1 x = 0 := if_pos (Or.inl rfl)
  constructor
  · rintro ⟨tf, of, t, d, h1, h2, _, h4, h5, h6⟩
    have h1 : tf = 0 := h1.trans z
    have h2 : of = 0 := h2.trans z
    subst h1 h2
    exact ⟨t, d, h4, h5, h6⟩
  · rintro ⟨t, d, h4, h5, h6⟩
    exact ⟨0, 0, t, d, z.symm, z.symm, Nat.zero_le _, h4, h5, h6⟩

/-- C87.  Exactly when a trade with a linear pool goes through, in plain numbers. -/
theorem C87_trade (env : Env) (K : Pubkey → Prop) (he : EnvOk env K) (w : World)
    (hr : Reachable env K w) (signers : List Pubkey) (hs : ∀ u ∈ signers, ¬ IsPda env K u)
    (a : SwapAccounts) (x y : UInt64) (s : SwapV1) (hp : PoolAt env w a.swap s)
    (c : LinearPriceCurve) (hl : s.swap_curve = .linear c) (hA : Scarce env w s.token_a_mint)
    (hB : Scarce env w s.token_b_mint) :
    (∃ w', exec env signers (.swap a x y) w = .ok w') ↔ TradeDue env w signers a x y s c := by
  have uniq : ∀ s', PoolAt env w a.swap s' → s' = s := fun s' h =>
    Except.ok.inj ((unpackSwap_of h).symm.trans (unpackSwap_of hp))
  have hM : ∀ dir, Scarce env w (mintIn s dir) ∧ Scarce env w (mintOut s dir) := by
    intro dir
    cases dir
    · exact ⟨hA, hB⟩
    · exact ⟨hB, hA⟩
  rw [C81_swap env K he w hr signers hs a x y fun s' h => Or.inr ⟨c, by rw [uniq s' h, hl]⟩]
  constructor
  · rintro ⟨s', dir, tin, tout, m, r, fee, h1, h2, h3, h4, h5, h6, h7, h8, h9, h10, h11, h12, h13, h14,
      h15, h16, h17, h18, _, _⟩
    rw [uniq s' h1] at *
    obtain ⟨hc, hcf, hpd⟩ := pool_facts he hr hp h2
    rw [hl, free_of hcf hl] at h12
    obtain ⟨t, d, q1, q2, q3⟩ := (linear_quote (valid_of hcf hl) x.toNat_lt tin.amount.toNat_lt
      tout.amount.toNat_lt).1 h12
    have b1 := bal_token (tokenAt_some.1 h9)
    have b2 := bal_token (tokenAt_some.1 h10)
    subst q3
    refine ⟨dir, t, d, h2, h3, h4, h5, h6, h7, h8, ?_, ?_, h13, h14, ?_, h16, takes_of h17, h18⟩
    · rw [b1, b2, Int.toNat_natCast, Int.toNat_natCast]; exact q1
    · rw [b2]; exact_mod_cast q2
    · obtain ⟨_, t', g1, _, g2, _⟩ := h15
      exact ⟨t', g1, g2⟩
  · rintro ⟨dir, t, d, h2, h3, h4, h5, h6, h7, h8, h9, h10, h11, h12, h13, h14, h15, h16⟩
    obtain ⟨hc, hcf, hpd⟩ := pool_facts he hr hp h2
    have hux : a.userAuthority ≠ a.authority := fun e => hs _ h3 (e ▸ hpd)
    have cin := custody_in hc dir
    have cout := custody_out hc dir
    obtain ⟨_, tin, i2, _⟩ := id cin
    obtain ⟨_, tout, o2, _⟩ := id cout
    obtain ⟨_, m, m2, _⟩ := id hc.minter
    have b1 := bal_token i2
    have b2 := bal_token o2
    rw [b1, b2, Int.toNat_natCast, Int.toNat_natCast] at h9
    rw [b2] at h10
    have hq := (linear_quote (e := env.spl) (valid_of hcf hl) x.toNat_lt tin.amount.toNat_lt
      tout.amount.toNat_lt).2 ⟨t, d, h9, by exact_mod_cast h10, rfl⟩
    refine ⟨s, dir, tin, tout, m, _, 0, hp, h2, h3, h4, h5, h6, h7, h8, tokenAt_some.2 i2,
      tokenAt_some.2 o2, mintAt_some.2 m2, by rw [hl, free_of hcf hl]; exact hq, h11, h12, ?_, h14,
      ?_, h16, ?_, fun h => absurd h (by decide)⟩
    · exact C87_room env w _ (hM dir).1 _ _ (spend_ne h12 cin hux) _ (spend_held h12)
        (sole_takes cin h13)
    · refine C87_room env w _ (hM dir).2 _ _ (fun e => h16 e.symm) d ?_ h15
      have := sole_held cout
      rw [b2] at this
      omega
    · unfold Curve.withdrawSingle
      exact if_pos rfl

/-- C87.  Exactly when a withdrawal of both tokens goes through: also the supply is never too small. -/
theorem C87_withdraw_all (env : Env) (K : Pubkey → Prop) (he : EnvOk env K) (w : World)
    (hr : Reachable env K w) (signers : List Pubkey) (a : WithdrawAllAccounts) (p minA minB : UInt64)
    (s : SwapV1) (hp : PoolAt env w a.swap s) (ho : Ordinary s)
    (hA : Scarce env w s.token_a_mint) (hB : Scarce env w s.token_b_mint)
    (hP : Accounted env w s.pool_mint) :
    (∃ w', exec env signers (.withdrawAll a p minA minB) w = .ok w') ↔
      WithdrawAllDue env w signers a p minA minB s := by
  have uniq : ∀ s', PoolAt env w a.swap s' → s' = s := fun s' h =>
    Except.ok.inj ((unpackSwap_of h).symm.trans (unpackSwap_of hp))
  rw [C81_withdraw_all env K he w hr signers a p minA minB fun s' h => by rw [uniq s' h]; exact ho]
  constructor
  · rintro ⟨s', tA, tB, m, fee, burnt, r, amtA, amtB, h1, h2, h3, h4, h5, h6, h7, h8, h9, h10, h11, h12,
      h13, h14, h15, h16, h17, h18, h19, h20, h21, h22, h23, _, h25, h26, h27, h28, h29⟩
    rw [uniq s' h1] at *
    have b1 := bal_token (tokenAt_some.1 h9)
    have b2 := bal_token (tokenAt_some.1 h10)
    have b3 := supply_mint (mintAt_some.1 h11)
    refine ⟨fee, burnt, r, amtA, amtB, h2, h3, h4, h5, h6, h7, h8, h12, h13, ?_, h15, h16, ?_, ?_, h19,
      h20, fun h => ?_, fun h => ?_, h23, fun h => takes_of (h25 h), h26, h27,
      fun h => ⟨(h28 h).1, takes_of (h28 h).2⟩, fun h => ⟨(h29 h).1, takes_of (h29 h).2⟩⟩
    · rw [b1, b2, b3, Int.toNat_natCast, Int.toNat_natCast, Int.toNat_natCast]; exact h14
    · omega
    · omega
    · rw [b1, h21 h]; rfl
    · rw [b2, h22 h]; rfl
  · rintro ⟨fee, burnt, r, amtA, amtB, h2, h3, h4, h5, h6, h7, h8, h12, h13, h14, h15, h16, h17, h18,
      h19, h20, h21, h22, h23, h25, h26, h27, h28, h29⟩
    obtain ⟨hc, hcf, hpd⟩ := pool_facts he hr hp h2
    obtain ⟨_, tA, i2, _⟩ := id hc.vaultA
    obtain ⟨_, tB, o2, _⟩ := id hc.vaultB
    obtain ⟨m1, m, m2, _⟩ := id hc.minter
    have b1 := bal_token i2
    have b2 := bal_token o2
    have b3 := supply_mint m2
    have c1 := sole_held hc.vaultA
    have c2 := sole_held hc.vaultB
    rw [b1, b2, b3, Int.toNat_natCast, Int.toNat_natCast, Int.toNat_natCast] at h14
    rw [b1] at h17 h21 c1
    rw [b2] at h18 h22 c2
    have hbs : fee + burnt ≤ m.supply.toNat := by
      have g1 := C73_covered env w _ hP {a.source}
      rw [Finset.sum_singleton] at g1
      have g2 := issued_int (env := env) w s.pool_mint
      rw [if_pos m1, b3] at g2
      have g3 := both_held h23
      omega
    refine ⟨s, tA, tB, m, fee, burnt, r, amtA, amtB, hp, h2, h3, h4, h5, h6, h7, h8, tokenAt_some.2 i2,
      tokenAt_some.2 o2, mintAt_some.2 m2, h12, h13, h14, h15, h16, by omega, by omega, h19, h20,
      fun h => ?_, fun h => ?_, h23, by omega, fun h => ?_, h26, h27, fun h => ⟨(h28 h).1, ?_⟩,
      fun h => ⟨(h29 h).1, ?_⟩⟩
    · exact UInt64.toNat_inj.1 (by have := h21 h; rw [UInt64.toNat_zero]; omega)
    · exact UInt64.toNat_inj.1 (by have := h22 h; rw [UInt64.toNat_zero]; omega)
    · refine C87_room env w _ (C87_scarce env w _ hP) a.source _ (fun e => ?_) _ ?_ (h25 h)
      · have := h12.1 e
        omega
      · have := both_held h23
        omega
    · exact C87_room env w _ hA s.token_a _ (fun e => h26 e.symm) _ (by omega) (h28 h).2
    · exact C87_room env w _ hB s.token_b _ (fun e => h27 e.symm) _ (by omega) (h29 h).2

theorem scarce_in {env : Env} {w : World} {s : SwapV1} (hA : Scarce env w s.token_a_mint)
    (hB : Scarce env w s.token_b_mint) (dir : TradeDirection) : Scarce env w (mintIn s dir) := by
  cases dir
  · exact hA
  · exact hB

/-- C87.  The same for one token. -/
theorem C87_withdraw_single (env : Env) (K : Pubkey → Prop) (he : EnvOk env K) (w : World)
    (hr : Reachable env K w) (signers : List Pubkey) (a : WithdrawSingleAccounts) (x maxPool : UInt64)
    (s : SwapV1) (hp : PoolAt env w a.swap s) (ho : Ordinary s)
    (hA : Scarce env w s.token_a_mint) (hB : Scarce env w s.token_b_mint)
    (hP : Accounted env w s.pool_mint) :
    (∃ w', exec env signers (.withdrawSingle a x maxPool) w = .ok w') ↔
      WithdrawSingleDue env w signers a x maxPool s := by
  have uniq : ∀ s', PoolAt env w a.swap s' → s' = s := fun s' h =>
    Except.ok.inj ((unpackSwap_of h).symm.trans (unpackSwap_of hp))
  rw [C81_withdraw_single env K he w hr signers a x maxPool fun s' h => by rw [uniq s' h]; exact ho]
  constructor
  · rintro ⟨s', dir, tA, tB, m, fee, burnt, h1, h2, h3, h4, h5, h6, h7, h8, h9, h10, h11, h12,
      h13, h14, h15, h16, _, h18, h19, h20, h21, h22⟩
    rw [uniq s' h1] at *
    have b1 := bal_token (tokenAt_some.1 h9)
    have b2 := bal_token (tokenAt_some.1 h10)
    have b3 := supply_mint (mintAt_some.1 h11)
    refine ⟨dir, fee, burnt, h2, h3, h4, h5, h6, h7, h8, ?_, h13, h14, h15, h16,
      fun h => takes_of (h18 h), h19, h20, takes_of h21, h22⟩
    rw [b1, b2, b3, Int.toNat_natCast, Int.toNat_natCast, Int.toNat_natCast]; exact h12
  · rintro ⟨dir, fee, burnt, h2, h3, h4, h5, h6, h7, h8, h12, h13, h14, h15, h16, h18, h19, h20, h21,
      h22⟩
    obtain ⟨hc, hcf, hpd⟩ := pool_facts he hr hp h2
    obtain ⟨_, tA, i2, _⟩ := id hc.vaultA
    obtain ⟨_, tB, o2, _⟩ := id hc.vaultB
    obtain ⟨m1, m, m2, _⟩ := id hc.minter
    have b1 := bal_token i2
    have b2 := bal_token o2
    have b3 := supply_mint m2
    have cin := sole_held (custody_in hc dir)
    rw [b1, b2, b3, Int.toNat_natCast, Int.toNat_natCast, Int.toNat_natCast] at h12
    have hbs : fee + burnt ≤ m.supply.toNat := by
      have g1 := C73_covered env w _ hP {a.source}
      rw [Finset.sum_singleton] at g1
      have g2 := issued_int (env := env) w s.pool_mint
      rw [if_pos m1, b3] at g2
      have g3 := both_held h16
      omega
    refine ⟨s, dir, tA, tB, m, fee, burnt, hp, h2, h3, h4, h5, h6, h7, h8, tokenAt_some.2 i2,
      tokenAt_some.2 o2, mintAt_some.2 m2, h12, h13, h14, h15, h16, by omega, fun h => ?_, h19, h20,
      ?_, h22⟩
    · refine C87_room env w _ (C87_scarce env w _ hP) a.source _ (fun e => ?_) _ ?_ (h18 h)
      · have := h13.1 e
        omega
      · have := both_held h16
        omega
    · exact C87_room env w _ (scarce_in hA hB dir) _ _ (fun e => h22 e.symm) _ (by omega) h21

/-! ### The hypotheses are met -/

theorem ledger_each {P : Pubkey → Account → Prop} (hd : ∀ j, P j ⟨Sample.key 0, .raw []⟩) :
    ∀ l : List (Pubkey × Account), (∀ x ∈ l, P x.1 x.2) → ∀ j, P j (Sample.ledger l j)
  | [], _, _ => hd _
  | (k, a) :: rest, h, j => by
    unfold Sample.ledger
    split
    · rename_i e; rw [e]; exact h _ (List.mem_cons_self ..)
    · exact ledger_each hd rest (fun x hx => h x (List.mem_cons_of_mem _ hx)) j

theorem ledger_accounted {l : List (Pubkey × Account)} {m : Pubkey} {n : Nat} (F0 : Finset Pubkey)
    (h1 : ∀ x ∈ l, x.1 ∈ F0 ∨ held Sample.env m x.2 = 0)
    (h2 : issued Sample.env (Sample.ledger l m) = n)
    (h3 : ∑ k ∈ F0, held Sample.env m (Sample.ledger l k) = n) :
    Accounted Sample.env (Sample.ledger l) m := by
  refine ⟨F0, fun F hF => ?_⟩
  rw [h2, ← h3]
  refine (Finset.sum_subset hF fun k _ hk => ?_).symm
  exact (ledger_each (P := fun k a => k ∈ F0 ∨ held Sample.env m a = 0) (fun _ => Or.inr rfl) l h1
    k).resolve_left hk

/-- On the sample ledger both trading tokens are accounted for, -/
theorem live_tokens : Accounted Sample.env live (Sample.key 20) ∧
    Accounted Sample.env live (Sample.key 21) :=
  ⟨C73_accounted Sample.env (Sample.key 0) samplePools sample_ok (by decide) _ _ live_moves _
      (by decide) (ledger_accounted (n := 25000) {Sample.key 3, Sample.key 13, Sample.key 30}
        (by decide +kernel) (by decide +kernel) (by decide +kernel)),
    C73_accounted Sample.env (Sample.key 0) samplePools sample_ok (by decide) _ _ live_moves _
      (by decide) (ledger_accounted (n := 20800) {Sample.key 4, Sample.key 14, Sample.key 31}
        (by decide +kernel) (by decide +kernel) (by decide +kernel))⟩

theorem live_scarce1 : Scarce Sample.env live pool1.token_a_mint ∧
    Scarce Sample.env live pool1.token_b_mint := by
  have e1 : pool1.token_a_mint = Sample.key 20 := by decide
  have e2 : pool1.token_b_mint = Sample.key 21 := by decide
  rw [e1, e2]
  exact ⟨C87_scarce _ _ _ live_tokens.1, C87_scarce _ _ _ live_tokens.2⟩
theorem live_scarce2 : Scarce Sample.env live pool2.token_a_mint ∧
    Scarce Sample.env live pool2.token_b_mint := by
  have e1 : pool2.token_a_mint = Sample.key 20 := by decide
  have e2 : pool2.token_b_mint = Sample.key 21 := by decide
  rw [e1, e2]
  exact ⟨C87_scarce _ _ _ live_tokens.1, C87_scarce _ _ _ live_tokens.2⟩
theorem live_poolMint : Accounted Sample.env live pool2.pool_mint := by
  have e : pool2.pool_mint = Sample.key 15 := by decide
  rw [e]
  exact live_accounted

/-- so a trade there goes through exactly if it is due: selling two token B is, for at most 14, -/
example (x y : UInt64) : (∃ w', exec Sample.env [Sample.key 50] (.swap ⟨Sample.key 1, Sample.key 129,
      Sample.key 50, Sample.key 31, Sample.key 4, Sample.key 3, Sample.key 30, Sample.key 5,
      Sample.key 6, Sample.key 101⟩ x y) live = .ok w') ↔
    TradeDue Sample.env live [Sample.key 50] ⟨Sample.key 1, Sample.key 129,
      Sample.key 50, Sample.key 31, Sample.key 4, Sample.key 3, Sample.key 30, Sample.key 5,
      Sample.key 6, Sample.key 101⟩ x y pool1 Sample.lin :=
  C87_trade Sample.env samplePools sample_ok live live_reachable _ user50
    ⟨Sample.key 1, Sample.key 129, Sample.key 50,
      Sample.key 31, Sample.key 4, Sample.key 3, Sample.key 30, Sample.key 5, Sample.key 6,
      Sample.key 101⟩ x y pool1 live_pool1
    Sample.lin rfl live_scarce1.1 live_scarce1.2
example : isOk (exec Sample.env [Sample.key 50] (.swap ⟨Sample.key 1, Sample.key 129,
      Sample.key 50, Sample.key 31, Sample.key 4, Sample.key 3, Sample.key 30, Sample.key 5,
      Sample.key 6, Sample.key 101⟩ 2 14) live) = true ∧
    isOk (exec Sample.env [Sample.key 50] (.swap ⟨Sample.key 1, Sample.key 129,
      Sample.key 50, Sample.key 31, Sample.key 4, Sample.key 3, Sample.key 30, Sample.key 5,
      Sample.key 6, Sample.key 101⟩ 2 15) live) = false := by decide +kernel

/-- and so it is with withdrawals from the constant-price pool. -/
example : WithdrawAllDue Sample.env live [Sample.key 1, Sample.key 2, Sample.key 50] ⟨Sample.key 2,
    Sample.key 130, Sample.key 50, Sample.key 15, Sample.key 17, Sample.key 13, Sample.key 14,
    Sample.key 30, Sample.key 31, Sample.key 16, Sample.key 101⟩ 100000000 1 1 pool2 :=
  (C87_withdraw_all Sample.env samplePools sample_ok live live_reachable _ ⟨Sample.key 2,
      Sample.key 130, Sample.key 50, Sample.key 15, Sample.key 17, Sample.key 13, Sample.key 14,
      Sample.key 30, Sample.key 31, Sample.key 16, Sample.key 101⟩ 100000000 1 1 pool2
    live_pool2 ⟨by decide, by decide⟩ live_scarce2.1 live_scarce2.2
    live_poolMint).1 ⟨_, exec_ranTo (i := Sample.wdAll) (by decide +kernel)⟩
example : WithdrawSingleDue Sample.env live [Sample.key 1, Sample.key 2, Sample.key 50]
    ⟨Sample.key 2, Sample.key 130, Sample.key 50, Sample.key 15, Sample.key 17, Sample.key 13,
      Sample.key 14, Sample.key 30, Sample.key 16, Sample.key 101⟩ 700 100000000 pool2 :=
  (C87_withdraw_single Sample.env samplePools sample_ok live live_reachable _ ⟨Sample.key 2,
      Sample.key 130, Sample.key 50, Sample.key 15, Sample.key 17, Sample.key 13, Sample.key 14,
      Sample.key 30, Sample.key 16, Sample.key 101⟩ 700 100000000 pool2
    live_pool2 ⟨by decide, by decide⟩ live_scarce2.1 live_scarce2.2
    live_poolMint).1 ⟨_, exec_ranTo (i := Sample.wdOne) (by decide +kernel)⟩

end Props
end Verif
