import Verif.Props.Room
import Verif.Props.Serve
import Verif.Props.Issue

/-
C101: a pool does not trade its own pool tokens.  False of the code; proved for the side that has to
be funded at creation.
-/

namespace Verif
namespace Props
open Spec Processor

theorem own_empty {env : Env} {w : World} {m k : Pubkey} {pm : Mint} {t : TokenAccount}
    (ha : Accounted env w m) (hm : (w m).data = .mint pm) (h0 : pm.supply = 0)
    (ho : (w k).owner = env.tokenProgramId) (ht : (w k).data = .token t) (he : t.mint = m) :
    t.amount = 0 := by
  have h1 := C73_covered env w m ha {k}
  rw [Finset.sum_singleton, held_token ho (tokenAt_some.2 ht) he] at h1
  have h2 : issued env (w m) = 0 := by
    unfold issued
    rw [hm]
    simp only [h0]
    split <;> rfl
  rw [h2] at h1
  exact UInt64.toNat_inj.1 (by simpa using h1)

/-- C101.  When a pool is created in a ledger where the tokens of its mint add up, a vault that holds
anything does not hold pool tokens. -/
theorem C101_creation_partial (env : Env) (signers : List Pubkey) (i : Instr) (a : InitAccounts)
    (f : Fees) (c : Curve) (w w' : World) (hi : InitOf i a f c)
    (h : exec env signers i w = .ok w') (ha : Accounted env w a.poolMint) :
    (0 < bal w a.tokenA → mintOf w a.tokenA ≠ some a.poolMint) ∧
      (0 < bal w a.tokenB → mintOf w a.tokenB ≠ some a.poolMint) := by
  obtain ⟨_, hpr⟩ := exec_init hi h
  obtain ⟨tA, tB, fa, de, pm, bytes, old, w1, r⟩ := processInitialize_ok hpr
  obtain ⟨htp, _⟩ := tokenMintTo_ok r.mint
  have side : ∀ k t, (w k).owner = a.tokenProgram ∧ (w k).data = .token t → 0 < bal w k →
      mintOf w k ≠ some a.poolMint := by
    intro k t hk hb he
    have e : tokenAt w k = some t := tokenAt_some.2 hk.2
    unfold mintOf at he
    rw [e] at he
    have h0 := own_empty ha r.mintAcc.2 r.supply0 (hk.1.trans htp) hk.2 (Option.some.inj he)
    have : bal w k = 0 := by unfold bal; rw [e]; simp only [h0]; rfl
    omega
  exact ⟨side _ _ r.tokA, side _ _ r.tokB⟩

/-- C101.  Over every execution, the token A of a constant-price pool and the token B of a linear
pool are not its own pool tokens, if the tokens of its mint added up in the beginning. -/
theorem C101_side_partial (env : Env) (sys : Pubkey) (K : Pubkey → Prop) (he : EnvOk env K)
    (hst : sys ≠ env.tokenProgramId) (hsp : sys ≠ env.programId) (w0 w : World)
    (h0 : NoPools env w0) (hc : Clean env sys K w0) (h : Moves env sys K w0 w) (k : Pubkey)
    (s : SwapV1) (hp : PoolAt env w k s) (hn : s.pool_mint ≠ Token.nativeMint)
    (hm : Accounted env w0 s.pool_mint) :
    (∀ p, s.swap_curve = .constantPrice p → s.token_a_mint ≠ s.pool_mint) ∧
      (∀ c, s.swap_curve = .linear c → s.token_b_mint ≠ s.pool_mint) := by
  suffices hs : Clean env sys K w ∧ (PoolAt env w k s →
      (∀ p, s.swap_curve = .constantPrice p → s.token_a_mint ≠ s.pool_mint) ∧
      (∀ c, s.swap_curve = .linear c → s.token_b_mint ≠ s.pool_mint)) from hs.2 hp
  clear hp
  induction h with
  | refl => exact ⟨hc, fun hp => absurd hp (h0 k s)⟩
  | tail hpre hmv ih =>
    rename_i u v
    obtain ⟨hs, hcv⟩ := hmv.step he hst hsp ih.1
    refine ⟨hcv, fun hp => ?_⟩
    rcases step_pool_back hp hs with hq | ⟨signers, i, a, f, c, _, _, hi, hx, rfl⟩
    · exact ih.2 hq
    · obtain ⟨_, hpr⟩ := exec_init hi hx
      obtain ⟨tA, tB, fa, de, pm, bytes, old, w1, r⟩ := processInitialize_ok hpr
      obtain ⟨htp, _⟩ := tokenMintTo_ok r.mint
      have es := (unpackSwap_of hp).symm.trans (unpackSwap_of (show PoolAt env v a.swap _ from r.after))
      cases es
      have hacc := C73_accounted env sys K he hst w0 u hpre _ hn hm
      have hsup := r.supply
      refine ⟨fun p hl e => ?_, fun l hl e => ?_⟩
      · have h1 := own_empty hacc r.mintAcc.2 r.supply0 (r.tokA.1.trans htp) r.tokA.2 e
        simp only at hl
        rw [hl, h1] at hsup
        cases hsup
      · have h1 := own_empty hacc r.mintAcc.2 r.supply0 (r.tokB.1.trans htp) r.tokB.2 e
        simp only at hl
        rw [hl, h1] at hsup
        cases hsup

/-- The hypotheses are met by the two sample pools. -/
example : pool2.token_a_mint ≠ pool2.pool_mint :=
  (C101_side_partial Sample.env (Sample.key 0) samplePools sample_ok (by decide) (by decide) _ _
    sample_start sample_clean live_moves _ _ live_pool2 (by decide) start_accounted).1 7 rfl
example : pool1.token_b_mint ≠ pool1.pool_mint :=
  (C101_side_partial Sample.env (Sample.key 0) samplePools sample_ok (by decide) (by decide) _ _
    sample_start sample_clean live_moves _ _ live_pool1 (by decide)
    (C73_fresh _ _ _ (by decide +kernel) (ledger_all
      (P := fun a => held Sample.env (Sample.key 5) a = 0) rfl Sample.accounts
      (by decide +kernel)))).2 Sample.lin rfl
example : mintOf Sample.start (Sample.key 14) ≠ some (Sample.key 15) := by
  obtain ⟨w, hw⟩ := of_isOk (x := exec Sample.env [Sample.key 2]
    (.initConstantPrice Sample.init2 Sample.fees 7) Sample.start) (by decide +kernel)
  exact (C101_creation_partial Sample.env _ _ _ _ _ _ _ (.price Sample.init2 Sample.fees 7) hw
    start_accounted).2 (by decide +kernel)

/-! ### The other side -/

/-- Pool 2 with its own mint as token B.  User 50 is going to create it; 62 holds 10000 token A. -/
def ownAccounts : List (Pubkey × Account) := [
  (Sample.key 2, ⟨Sample.key 100, .raw (List.replicate 324 0)⟩),
  (Sample.key 13, Sample.tok (Sample.key 20) (Sample.key 130) 5000),
  (Sample.key 14, Sample.tok (Sample.key 15) (Sample.key 130) 0),
  (Sample.key 15, Sample.mnt (Sample.key 130) 0),
  (Sample.key 16, Sample.tok (Sample.key 15) (Sample.key 60) 0),
  (Sample.key 17, Sample.tok (Sample.key 15) (Sample.key 50) 0),
  (Sample.key 20, Sample.mnt (Sample.key 61) 15000),
  (Sample.key 30, Sample.tok (Sample.key 20) (Sample.key 50) 0),
  (Sample.key 32, Sample.tok (Sample.key 20) (Sample.key 62) 10000),
  (Sample.key 33, Sample.tok (Sample.key 15) (Sample.key 62) 0)]

def ownStart : World := Sample.ledger ownAccounts

def ownPool : SwapV1 :=
  { is_initialized := true, bump_seed := 255, token_program_id := Sample.key 101,
    token_a := Sample.key 13, token_b := Sample.key 14, pool_mint := Sample.key 15,
    token_a_mint := Sample.key 20, token_b_mint := Sample.key 15,
    pool_fee_account := Sample.key 16, fees := ⟨0, 1, 0, 1, 0, 1, 0, 1⟩,
    swap_curve := .constantPrice 7 }

def ownJoin : DepositSingleAccounts := ⟨Sample.key 2, Sample.key 130, Sample.key 62, Sample.key 32,
  Sample.key 13, Sample.key 14, Sample.key 15, Sample.key 33, Sample.key 101⟩
def ownSell : SwapAccounts := ⟨Sample.key 2, Sample.key 130, Sample.key 50, Sample.key 17,
  Sample.key 14, Sample.key 13, Sample.key 30, Sample.key 15, Sample.key 16, Sample.key 101⟩
def ownLeave : WithdrawAllAccounts := ⟨Sample.key 2, Sample.key 130, Sample.key 62, Sample.key 15,
  Sample.key 33, Sample.key 13, Sample.key 14, Sample.key 32, Sample.key 33, Sample.key 16,
  Sample.key 101⟩

theorem own_nopools : NoPools Sample.env ownStart := by
  intro k s h
  by_cases h4 : k = Sample.key 2
  · obtain ⟨_, l, h2, h3⟩ := h
    rw [h4] at h2
    rw [← Data.raw.inj (show Data.raw (List.replicate 324 0) = Data.raw l from h2)] at h3
    exact unpack_zeros _ _ h3
  · have ho := h.1
    have e : ownStart k = Sample.ledger (ownAccounts.drop 1) k := by
      unfold ownStart ownAccounts
      simp only [Sample.ledger, if_neg h4, List.drop_succ_cons, List.drop_zero]
    rw [e] at ho
    exact sample_owner _ (by decide) k ho

theorem own_accounted : Accounted Sample.env ownStart (Sample.key 15) ∧
    Accounted Sample.env ownStart (Sample.key 20) :=
  ⟨ledger_accounted (n := 0) ∅ (by decide +kernel) (by decide +kernel) (by decide +kernel),
    ledger_accounted (n := 15000) {Sample.key 13, Sample.key 30, Sample.key 32}
      (by decide +kernel) (by decide +kernel) (by decide +kernel)⟩

/-- C101 is false.  The tokens of both mints add up and there is no pool.  50 creates a pool that
trades its own pool tokens, and gets the first thousand million of them; 62 puts in 4000 token A;
50 sells 1285 pool tokens to the pool for 8995 of the 9000 token A in it; and 62, withdrawing
everything, gets 5 token A back. -/
theorem C101_false : ∃ w1 w2 w3 w4,
    NoPools Sample.env ownStart ∧ Accounted Sample.env ownStart (Sample.key 15) ∧
    Accounted Sample.env ownStart (Sample.key 20) ∧
    exec Sample.env [Sample.key 2] (.initConstantPrice Sample.init2 ⟨0, 1, 0, 1, 0, 1, 0, 1⟩ 7)
      ownStart = .ok w1 ∧
    PoolAt Sample.env w1 (Sample.key 2) ownPool ∧ ¬ Ordinary ownPool ∧
    exec Sample.env [Sample.key 62] (.depositSingle ownJoin 4000 800000000) w1 = .ok w2 ∧
    exec Sample.env [Sample.key 50] (.swap ownSell 1285 8995) w2 = .ok w3 ∧
    exec Sample.env [Sample.key 62] (.withdrawAll ownLeave 800000000 0 0) w3 = .ok w4 ∧
    Sample.bals [13, 17, 30, 32, 33] w2 = [9000, 1000000000, 0, 6000, 800000000] ∧
    Sample.bals [13, 17, 30, 32, 33] w3 = [5, 999998715, 8995, 6000, 800000000] ∧
    Sample.bals [13, 17, 30, 32, 33] w4 = [0, 999998715, 8995, 6005, 285] := by
  obtain ⟨w1, h1⟩ := of_isOk (x := exec Sample.env [Sample.key 2]
    (.initConstantPrice Sample.init2 ⟨0, 1, 0, 1, 0, 1, 0, 1⟩ 7) ownStart) (by decide +kernel)
  obtain ⟨w2, h2⟩ := of_isOk (x := exec Sample.env [Sample.key 2]
    (.initConstantPrice Sample.init2 ⟨0, 1, 0, 1, 0, 1, 0, 1⟩ 7) ownStart >>=
    exec Sample.env [Sample.key 62] (.depositSingle ownJoin 4000 800000000)) (by decide +kernel)
  obtain ⟨w3, h3⟩ := of_isOk (x := (exec Sample.env [Sample.key 2]
    (.initConstantPrice Sample.init2 ⟨0, 1, 0, 1, 0, 1, 0, 1⟩ 7) ownStart >>=
    exec Sample.env [Sample.key 62] (.depositSingle ownJoin 4000 800000000)) >>=
    exec Sample.env [Sample.key 50] (.swap ownSell 1285 8995)) (by decide +kernel)
  obtain ⟨w4, h4⟩ := of_isOk (x := ((exec Sample.env [Sample.key 2]
    (.initConstantPrice Sample.init2 ⟨0, 1, 0, 1, 0, 1, 0, 1⟩ 7) ownStart >>=
    exec Sample.env [Sample.key 62] (.depositSingle ownJoin 4000 800000000)) >>=
    exec Sample.env [Sample.key 50] (.swap ownSell 1285 8995)) >>=
    exec Sample.env [Sample.key 62] (.withdrawAll ownLeave 800000000 0 0)) (by decide +kernel)
  have b2 : Sample.after ((exec Sample.env [Sample.key 2]
    (.initConstantPrice Sample.init2 ⟨0, 1, 0, 1, 0, 1, 0, 1⟩ 7) ownStart >>=
    exec Sample.env [Sample.key 62] (.depositSingle ownJoin 4000 800000000)))
      (Sample.bals [13, 17, 30, 32, 33]) = .ok [9000, 1000000000, 0, 6000, 800000000] := by
    decide +kernel
  have b3 : Sample.after ((exec Sample.env [Sample.key 2]
    (.initConstantPrice Sample.init2 ⟨0, 1, 0, 1, 0, 1, 0, 1⟩ 7) ownStart >>=
    exec Sample.env [Sample.key 62] (.depositSingle ownJoin 4000 800000000)) >>=
    exec Sample.env [Sample.key 50] (.swap ownSell 1285 8995))
      (Sample.bals [13, 17, 30, 32, 33]) = .ok [5, 999998715, 8995, 6000, 800000000] := by
    decide +kernel
  have b4 : Sample.after (((exec Sample.env [Sample.key 2]
    (.initConstantPrice Sample.init2 ⟨0, 1, 0, 1, 0, 1, 0, 1⟩ 7) ownStart >>=
    exec Sample.env [Sample.key 62] (.depositSingle ownJoin 4000 800000000)) >>=
    exec Sample.env [Sample.key 50] (.swap ownSell 1285 8995)) >>=
    exec Sample.env [Sample.key 62] (.withdrawAll ownLeave 800000000 0 0))
      (Sample.bals [13, 17, 30, 32, 33]) = .ok [0, 999998715, 8995, 6005, 285] := by
    decide +kernel
  have hp : PoolAt Sample.env w1 (Sample.key 2) ownPool := by
    obtain ⟨_, hpr⟩ := exec_init (.price Sample.init2 ⟨0, 1, 0, 1, 0, 1, 0, 1⟩ 7) h1
    obtain ⟨tA, tB, fa, de, pm, bytes, old, u, r⟩ := processInitialize_ok hpr
    have eA : Data.token tA = (ownStart (Sample.key 13)).data := r.tokA.2.symm
    have eB : Data.token tB = (ownStart (Sample.key 14)).data := r.tokB.2.symm
    have eA' := Data.token.inj (eA.trans (show (ownStart (Sample.key 13)).data = .token
      ⟨Sample.key 20, Sample.key 130, 5000, none, false, 0, none⟩ by decide +kernel))
    have eB' := Data.token.inj (eB.trans (show (ownStart (Sample.key 14)).data = .token
      ⟨Sample.key 15, Sample.key 130, 0, none, false, 0, none⟩ by decide +kernel))
    have := r.after
    rw [eA', eB'] at this
    exact this
  rw [h4] at b4
  rw [h3] at b3 h4
  rw [h2] at b2 h3
  rw [h1] at h2
  exact ⟨w1, w2, w3, w4, own_nopools, own_accounted.1, own_accounted.2, h1, hp,
    fun h => h.2 (by decide), h2, h3, h4, Except.ok.inj b2, Except.ok.inj b3, Except.ok.inj b4⟩

/-- Pool 1 with its own mint as token A. -/
def ownLinear : World := Sample.ledger ((Sample.key 3, Sample.tok (Sample.key 5) (Sample.key 129) 0) ::
  Sample.accounts)

/-- C101 is false of linear pools too: one that is paid in its own pool tokens, all of which its
creator has. -/
theorem C101_false_linear : Accounted Sample.env ownLinear (Sample.key 5) ∧
    ∃ w' s, exec Sample.env [Sample.key 1] (.initLinearPrice Sample.init1 Sample.lin) ownLinear =
        .ok w' ∧
      PoolAt Sample.env w' (Sample.key 1) s ∧ s.swap_curve = .linear Sample.lin ∧
      s.token_a_mint = s.pool_mint ∧ bal w' (Sample.key 7) = 1000000000 := by
  obtain ⟨w', h⟩ := of_isOk (x := exec Sample.env [Sample.key 1]
    (.initLinearPrice Sample.init1 Sample.lin) ownLinear) (by decide +kernel)
  have b : Sample.after (exec Sample.env [Sample.key 1]
    (.initLinearPrice Sample.init1 Sample.lin) ownLinear) (fun w => bal w (Sample.key 7)) =
      .ok 1000000000 := by decide +kernel
  rw [h] at b
  obtain ⟨_, hpr⟩ := exec_init (.linear Sample.init1 Sample.lin) h
  obtain ⟨tA, tB, fa, de, pm, bytes, old, u, r⟩ := processInitialize_ok hpr
  have eA : Data.token tA = (ownLinear (Sample.key 3)).data := r.tokA.2.symm
  have eA' := Data.token.inj (eA.trans (show (ownLinear (Sample.key 3)).data = .token
    ⟨Sample.key 5, Sample.key 129, 0, none, false, 0, none⟩ by decide +kernel))
  refine ⟨ledger_accounted (n := 0) ∅ (by decide +kernel) (by decide +kernel) (by decide +kernel),
    w', _, h, r.after, rfl, ?_, Except.ok.inj b⟩
  rw [eA']
  rfl

end Props
end Verif
