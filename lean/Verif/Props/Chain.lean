import Verif.Lemmas.ChainLinear
import Verif.Lemmas.EnvStep
import Verif.Props.Linear

/-
Properties of whole executions: C26, C28, C34, C35, C37 (refutation), C38, C41.
-/

namespace Verif
namespace Props
open Spec Processor

/-! ### A concrete execution used in the examples -/

/-- Pool addresses of the sample execution. -/
def samplePools (k : Pubkey) : Prop := k = Sample.key 1 ∨ k = Sample.key 2

theorem sample_ok : EnvOk Sample.env samplePools := by
  refine ⟨fun k _ => rfl, ?_, by decide⟩
  intro k b k' b' x hk hk' h h'
  unfold Sample.env at h h'
  simp only [] at h h'
  split at h
  · split at h'
    · rw [← Option.some.inj h] at h'
      have := Option.some.inj h'
      rcases hk with rfl | rfl <;> rcases hk' with rfl | rfl
      · rfl
      · exact absurd this (by decide)
      · exact absurd this (by decide)
      · rfl
    · cases h'
  · cases h

/-- The sample's signers are ordinary keys. -/
theorem sample_signers : ∀ x ∈ [Sample.key 1, Sample.key 2, Sample.key 50],
    ¬ IsPda Sample.env samplePools x := by
  rintro x hx ⟨k, b, hk, h⟩
  unfold Sample.env at h
  simp only [] at h
  split at h
  · have h := Option.some.inj h
    simp only [List.mem_cons, List.not_mem_nil, or_false] at hx
    rcases hk with rfl | rfl <;> rcases hx with rfl | rfl | rfl <;> exact absurd h (by decide)
  · cases h

theorem sample_owner : ∀ (l : List (Pubkey × Account)), (∀ e ∈ l, e.2.owner ≠ Sample.key 100) →
    ∀ k, (Sample.ledger l k).owner ≠ Sample.key 100 := by
  intro l
  induction l with
  | nil => intro _ k h; exact absurd h (by decide : Sample.key 0 ≠ Sample.key 100)
  | cons e l ih =>
    intro h k
    show (if k = e.1 then e.2 else Sample.ledger l k).owner ≠ _
    split
    · exact h e (List.mem_cons_self ..)
    · exact ih (fun e he => h e (List.mem_cons_of_mem _ he)) k

theorem sample_start : NoPools Sample.env Sample.start := by
  intro k s h
  by_cases h1 : k = Sample.key 1
  · obtain ⟨_, l, h2, h3⟩ := h
    rw [h1] at h2
    rw [← Data.raw.inj (show Data.raw (List.replicate 324 0) = Data.raw l from h2)] at h3
    exact unpack_zeros _ _ h3
  · by_cases h4 : k = Sample.key 2
    · obtain ⟨_, l, h2, h3⟩ := h
      rw [h4] at h2
      rw [← Data.raw.inj (show Data.raw (List.replicate 324 0) = Data.raw l from h2)] at h3
      exact unpack_zeros _ _ h3
    · have ho := h.1
      have e : Sample.start k = Sample.ledger (Sample.accounts.drop 2) k := by
        unfold Sample.start Sample.accounts
        simp only [Sample.ledger, if_neg h1, if_neg h4, List.drop_succ_cons, List.drop_zero]
      rw [e] at ho
      exact sample_owner _ (by decide) k ho

/-- Running instructions on the sample ledger is an execution. -/
theorem sample_steps : ∀ (is : List Instr) (w w' : World), (∀ i ∈ is, samplePools i.pool) →
    Sample.run Sample.env is w = .ok w' → Steps Sample.env samplePools w w' := by
  intro is
  induction is with
  | nil => intro w w' _ h; cases h; exact .refl
  | cons i is ih =>
    intro w w' hp h
    unfold Sample.run at h
    rw [Except_bind_ok] at h
    obtain ⟨w1, h1, h2⟩ := h
    exact .head (.instr _ i (hp i (List.mem_cons_self ..)) sample_signers h1)
      (ih w1 w' (fun j hj => hp j (List.mem_cons_of_mem _ hj)) h2)

/-- The ledger in which both sample pools have been initialised and traded on. -/
def sampleWorld : Except Err World :=
  Sample.run Sample.env [Sample.initLinear, Sample.initPrice, Sample.buy, Sample.trade, Sample.sell]
    Sample.start

/-- Did it succeed? -/
def isOk {α : Type} : Except Err α → Bool
  | .ok _ => true
  | .error _ => false

theorem of_isOk {α : Type} {x : Except Err α} (h : isOk x = true) : ∃ a, x = .ok a := by
  cases x with
  | ok a => exact ⟨a, rfl⟩
  | error e => cases h

/-- The sample execution reaches a ledger with a linear and a constant-price pool, so the
hypotheses of the theorems below are met. -/
theorem sample_reachable : ∃ w s1 s2, Reachable Sample.env samplePools w ∧
    PoolAt Sample.env w (Sample.key 1) s1 ∧ s1.swap_curve = .linear Sample.lin ∧
    PoolAt Sample.env w (Sample.key 2) s2 ∧ s2.swap_curve = .constantPrice 7 := by
  have h : (match sampleWorld with
    | .ok w => decide ((w (Sample.key 1)).owner = Sample.env.programId) &&
        decide ((w (Sample.key 2)).owner = Sample.env.programId) &&
        (match unpackSwap w (Sample.key 1) with
          | .ok s => decide (s.swap_curve = .linear Sample.lin)
          | .error _ => false) &&
        (match unpackSwap w (Sample.key 2) with
          | .ok s => decide (s.swap_curve = .constantPrice 7)
          | .error _ => false)
    | .error _ => false) = true := by decide +kernel
  cases hw : sampleWorld with
  | error e => rw [hw] at h; cases h
  | ok w =>
    rw [hw] at h
    simp only [Bool.and_eq_true, decide_eq_true_eq] at h
    obtain ⟨⟨⟨h1, h2⟩, h3⟩, h4⟩ := h
    cases e1 : unpackSwap w (Sample.key 1) with
    | error e => rw [e1] at h3; cases h3
    | ok s1 =>
      cases e2 : unpackSwap w (Sample.key 2) with
      | error e => rw [e2] at h4; cases h4
      | ok s2 =>
        rw [e1] at h3
        rw [e2] at h4
        refine ⟨w, s1, s2, ⟨_, sample_start, sample_steps _ _ _ ?_ hw⟩, poolAt_of h1 e1,
          of_decide_eq_true h3, poolAt_of h2 e2, of_decide_eq_true h4⟩
        intro i hi
        simp only [List.mem_cons, List.not_mem_nil, or_false] at hi
        rcases hi with rfl | rfl | rfl | rfl | rfl
        · exact Or.inl rfl
        · exact Or.inr rfl
        · exact Or.inl rfl
        · exact Or.inr rfl
        · exact Or.inl rfl

/-! ### The environment contract is met by the token program -/

/-- Transfers, mints and burns signed by anybody but a derived address are environment steps. -/
theorem third_party_transfer {env : Env} {K : Pubkey → Prop} (he : EnvOk env K)
    {signed : Pubkey → Bool} {src dst a : Pubkey} {x : UInt64} {w w' : World}
    (ha : ¬ IsPda env K a) (h : Token.transfer env.tokenProgramId signed src dst a x w = .ok w') :
    Step env K w w' := .other ((Token.transfer_ok h).envStep he ha)

theorem third_party_mint {env : Env} {K : Pubkey → Prop} (he : EnvOk env K)
    {signed : Pubkey → Bool} {mint dst a : Pubkey} {x : UInt64} {w w' : World}
    (ha : ¬ IsPda env K a) (h : Token.mintTo env.tokenProgramId signed mint dst a x w = .ok w') :
    Step env K w w' := .other ((Token.mintTo_ok h).envStep he ha)

theorem third_party_burn {env : Env} {K : Pubkey → Prop} (he : EnvOk env K)
    {signed : Pubkey → Bool} {src mint a : Pubkey} {x : UInt64} {w w' : World}
    (ha : ¬ IsPda env K a) (h : Token.burn env.tokenProgramId signed src mint a x w = .ok w') :
    Step env K w w' := .other ((Token.burn_ok h).envStep he ha)

/-! ### C26 -/

/-- C26.  Once a pool exists, nothing ever changes its account, and every attempt to initialise it
again is refused as already in use (or for lack of the pool account's signature). -/
theorem C26_pool_forever (env : Env) (K : Pubkey → Prop) (w w' : World) (k : Pubkey) (s : SwapV1)
    (hp : PoolAt env w k s) (h : Steps env K w w') :
    w' k = w k ∧ PoolAt env w' k s ∧
    ∀ signers i a f c, InitOf i a f c → a.swap = k →
      exec env signers i w' =
        .error (if k ∈ signers then .swap .AlreadyInUse else .MissingRequiredSignature) := by
  have key : w' k = w k ∧ PoolAt env w' k s := by
    induction h with
    | refl => exact ⟨rfl, hp⟩
    | tail _ hs ih =>
      obtain ⟨h1, h2⟩ := step_pool ih.2 hs
      refine ⟨?_, poolAt_congr h1 h2 ih.2⟩
      rw [← ih.1]
      rename_i b c _
      cases hb : c k; cases hc : b k
      rw [hb, hc] at h1 h2
      simp only [] at h1 h2
      rw [h1, h2]
  refine ⟨key.1, key.2, fun signers i a f c hi ha => ?_⟩
  have hin : isInitialized w' k = true := by
    obtain ⟨_, l, h1, h2⟩ := key.2
    unfold isInitialized SwapVersion.isInitialized
    rw [h1]
    simp only [h2]
    exact unpack_initialized h2
  have hpr : processInitialize env signers f c a w' = .error (.swap .AlreadyInUse) := by
    unfold processInitialize require
    rw [ha, hin, if_neg (by decide)]
    rfl
  have hex : exec env signers i w' =
      (require (a.swap ∈ signers) .MissingRequiredSignature >>= fun _ =>
        processInitialize env signers f c a w') := by
    cases hi <;> rfl
  rw [hex, hpr, ha]
  unfold require
  split <;> rfl

/-- C26.  In particular after any successful initialise. -/
theorem C26_init_once (env : Env) (K : Pubkey → Prop) (signers : List Pubkey) (i : Instr)
    (a : InitAccounts) (f : Fees) (c : Curve) (w0 w w' : World) (hi : InitOf i a f c)
    (h0 : exec env signers i w0 = .ok w) (h : Steps env K w w') :
    w' a.swap = w a.swap ∧ (∃ s, PoolAt env w' a.swap s) ∧
    ∀ signers i' a' f' c', InitOf i' a' f' c' → a'.swap = a.swap →
      exec env signers i' w' =
        .error (if a.swap ∈ signers then .swap .AlreadyInUse else .MissingRequiredSignature) := by
  obtain ⟨_, hp⟩ := exec_init hi h0
  obtain ⟨tA, tB, fa, de, pm, bytes, old, w1, r⟩ := processInitialize_ok hp
  have := C26_pool_forever env K w w' a.swap _ r.after h
  exact ⟨this.1, ⟨_, this.2.1⟩, this.2.2⟩

example : Sample.after (do
    let w ← sampleWorld
    exec Sample.env [Sample.key 1] Sample.initLinear w) (Sample.bals []) =
    .error (.swap .AlreadyInUse) := by decide +kernel

/-! ### C28 -/

/-- C28.  Only valid constant-price and linear pools exist, linear ones free of charges. -/
theorem C28_pool_kinds (env : Env) (K : Pubkey → Prop) (he : EnvOk env K) (w : World)
    (hr : Reachable env K w) (k : Pubkey) (s : SwapV1) (hp : PoolAt env w k s) :
    (∀ q : FeeKind, (q.num s.fees = 0 ∧ q.den s.fees = 0) ∨ q.num s.fees < q.den s.fees) ∧
    ((∃ p, s.swap_curve = .constantPrice p ∧ p ≠ 0) ∨
      ∃ c, s.swap_curve = .linear c ∧ 0 < c.slope_numerator ∧ 0 < c.slope_denominator ∧
        0 < c.initial_token_a_price_denominator ∧ (1 : ℚ) / 10 ^ 18 ≤ slope c ∧
        ∀ q : FeeKind, q.num s.fees = 0) := by
  obtain ⟨w0, h0, hs⟩ := hr
  obtain ⟨_, _, hc⟩ := reachable_pool he h0 hs k s hp
  refine ⟨(C15_validate _).1 hc.fees, ?_⟩
  have hv := hc.curve
  rcases hc.kind with ⟨p, e⟩ | ⟨c, e, e2⟩
  · refine Or.inl ⟨p, e, ?_⟩
    rintro rfl
    rw [e] at hv
    cases hv
  · rw [e] at hv
    obtain ⟨h1, h2, h3, h4⟩ := (C11_params c).1 hv
    refine Or.inr ⟨c, e, h1, h2, h3, h4, fun q => ?_⟩
    rw [e2]
    cases q <;> rfl

/-! ### C35 -/

/-- C35.  Custody is permanent. -/
theorem C35_custody (env : Env) (K : Pubkey → Prop) (he : EnvOk env K) (w : World)
    (hr : Reachable env K w) (k : Pubkey) (s : SwapV1) (hp : PoolAt env w k s) :
    ∃ pda, Custody env w k s pda := by
  obtain ⟨w0, h0, hs⟩ := hr
  exact (reachable_pool he h0 hs k s hp).2.1

/-! ### C34 -/

/-- C34.  An instruction naming one pool cannot touch another pool's vaults or inflate its pool
tokens. -/
theorem C34_isolated (env : Env) (K : Pubkey → Prop) (he : EnvOk env K) (w w' : World)
    (hr : Reachable env K w) (signers : List Pubkey) (hs : ∀ x ∈ signers, ¬ IsPda env K x)
    (i : Instr) (hi : K i.pool) (h : exec env signers i w = .ok w') (k : Pubkey) (s : SwapV1)
    (hp : PoolAt env w k s) (hne : i.pool ≠ k) :
    bal w s.token_a ≤ bal w' s.token_a ∧ bal w s.token_b ≤ bal w' s.token_b ∧
    supply w' s.pool_mint ≤ supply w s.pool_mint ∧
    ∃ pda, Custody env w k s pda ∧ Custody env w' k s pda := by
  obtain ⟨w0, h0, hst⟩ := hr
  obtain ⟨hk, ⟨x, hc⟩, _⟩ := reachable_pool he h0 hst k s hp
  refine ⟨vault_step he hk hc.derived hc.vaultA hs hi h hne,
    vault_step he hk hc.derived hc.vaultB hs hi h hne, ?_, x, hc,
    hc.step hk (.instr signers i hi hs h)⟩
  by_contra hlt
  obtain ⟨b, y, mm, h1, h2, h3⟩ := exec_supply he hi h (m := s.pool_mint) (by omega)
  obtain ⟨_, m, hm, ha, _⟩ := hc.minter
  rw [hm] at h2
  rw [← Data.mint.inj h2, ha] at h3
  rw [← Option.some.inj h3] at h1
  exact hne (he.inj _ _ _ _ _ hi hk h1 hc.derived)

/-- Hypotheses of C28, C34 and C35 are met: a reachable ledger with two pools, and an instruction
on one of them that succeeds. -/
example : ∃ w s1 s2, Reachable Sample.env samplePools w ∧
    PoolAt Sample.env w (Sample.key 1) s1 ∧ PoolAt Sample.env w (Sample.key 2) s2 := by
  obtain ⟨w, s1, s2, h, h1, _, h2, _⟩ := sample_reachable
  exact ⟨w, s1, s2, h, h1, h2⟩
example : Sample.after (do
    let w ← sampleWorld
    exec Sample.env [Sample.key 50] Sample.trade w) (Sample.bals [3, 4, 13, 14]) =
    .ok [18, 98, 6990, 422] := by decide +kernel

/-! ### C38 -/

/-- C38.  Swaps on linear pools take exactly the amount the curve says, pay exactly the amount the
curve says, and change no supply. -/
theorem C38_no_charges (env : Env) (K : Pubkey → Prop) (he : EnvOk env K) (w w' : World)
    (hr : Reachable env K w) (signers : List Pubkey) (a : SwapAccounts) (x y : UInt64)
    (s : SwapV1) (c : LinearPriceCurve) (hp : PoolAt env w a.swap s) (hc : s.swap_curve = .linear c)
    (h : exec env signers (.swap a x y) w = .ok w') :
    (∀ m, supply w' m = supply w m) ∧
    ∃ taken paid : Nat,
      Linear.swapWithoutFees c x.toNat (bal w a.swapSource).toNat (bal w a.swapDestination).toNat
        (if a.swapSource = s.token_a then .AtoB else .BtoA) = .ok ⟨taken, paid⟩ ∧
      ∀ k, bal w' k = bal w k + when (k = a.swapSource) taken - when (k = a.source) taken +
        when (k = a.destination) paid - when (k = a.swapDestination) paid := by
  obtain ⟨w0, h0, hst⟩ := hr
  obtain ⟨_, _, hcf⟩ := reachable_pool he h0 hst _ s hp
  have hf : s.fees = ⟨0, 1, 0, 1, 0, 1, 0, 1⟩ := by
    rcases hcf.kind with ⟨p, e⟩ | ⟨_, _, e⟩
    · rw [hc] at e; cases e
    · exact e
  obtain ⟨hu, hpr⟩ := exec_swap h
  obtain ⟨ts, src, dst, pm, r, pt, amtIn, amtOut, w1, w2, run⟩ := processSwap_ok hpr
  have es := run.state
  rw [unpackSwap_of hp] at es
  cases es
  have hres := run.result
  have hfee := run.feeCalc
  rw [hc] at hres hfee
  obtain ⟨hq, _, _⟩ := linear_swap_amounts hf hres
  have hpt : pt = 0 := (linear_withdrawSingle hfee).2
  refine ⟨fun m => ?_, r.source_amount_swapped, r.destination_amount_swapped, ?_, fun k => ?_⟩
  · rw [run.effect.supply, hpt]
    show _ + when _ 0 = _
    rw [when_zero]; omega
  · rw [bal_token run.srcTok.2, bal_token run.dstTok.2, Int.toNat_natCast, Int.toNat_natCast]
    exact hq
  · rw [run.effect.bal, hpt]
    have : when (k = s.pool_fee_account) ((0 : Nat) : Int) = 0 := when_zero _
    rw [this]; omega

/-! ### C37, refuted -/

/-- The single-sided deposit used as a witness. -/
def sampleDeposit : Instr :=
  .depositSingle ⟨Sample.key 1, Sample.key 129, Sample.key 50, Sample.key 30, Sample.key 3,
    Sample.key 4, Sample.key 5, Sample.key 7, Sample.key 101⟩ 100 1

/-- Burn of all pool tokens by their holder. -/
def sampleBurn (w : World) : Except Err World :=
  Token.burn (Sample.key 101) (fun k => decide (k = Sample.key 50)) (Sample.key 7) (Sample.key 5)
    (Sample.key 50) 1000000000 w

/-- C37 is false of the code, in a reachable ledger: after the holder of all pool tokens has burnt
them, a single-sided deposit into a linear pool succeeds, and mints a fresh supply of pool
tokens. -/
theorem C37_false : ¬ ∀ (env : Env) (K : Pubkey → Prop) (w : World), EnvOk env K →
    Reachable env K w → C37_statement env w := by
  intro hall
  have hrun : isOk (do
      let w1 ← Sample.run Sample.env [Sample.initLinear] Sample.start
      let w2 ← sampleBurn w1
      exec Sample.env [Sample.key 50] sampleDeposit w2) = true := by decide +kernel
  obtain ⟨w3, h⟩ := of_isOk hrun
  rw [Except_bind_ok] at h
  obtain ⟨w1, h1, h⟩ := h
  rw [Except_bind_ok] at h
  obtain ⟨w2, h2, h3⟩ := h
  have st1 : Steps Sample.env samplePools Sample.start w1 := sample_steps _ _ _ (by
    intro i hi
    simp only [List.mem_cons, List.not_mem_nil, or_false] at hi
    rw [hi]; exact Or.inl rfl) h1
  have st2 : Steps Sample.env samplePools w1 w2 := .single (third_party_burn sample_ok
    (sample_signers (Sample.key 50) (by decide)) h2)
  have hr : Reachable Sample.env samplePools w2 := ⟨_, sample_start, st1.trans st2⟩
  rw [Sample.run, Except_bind_ok] at h1
  obtain ⟨w1', hi, h1⟩ := h1
  cases h1
  obtain ⟨_, hpi⟩ := exec_init (.linear Sample.init1 Sample.lin) hi
  obtain ⟨tA, tB, fa, de, pm, bytes, old, u, r⟩ := processInitialize_ok hpi
  have hp := (C26_pool_forever Sample.env samplePools w1 w2 (Sample.key 1) _ r.after st2).2.1
  exact (hall Sample.env samplePools w2 sample_ok hr [Sample.key 50] (Sample.key 1) _ Sample.lin hp
    rfl).2 _ 100 1 rfl w3 h3

example : Sample.after (do
    let w1 ← Sample.run Sample.env [Sample.initLinear] Sample.start
    let w2 ← sampleBurn w1
    exec Sample.env [Sample.key 50] sampleDeposit w2) (Sample.bals [3, 4, 7]) =
    .ok [100, 100, 1000000000] := by decide +kernel

/-! ### C41 -/

/-- What initialising a linear pool leaves behind. -/
theorem linear_init {env : Env} {K : Pubkey → Prop} (he : EnvOk env K) {signers : List Pubkey}
    {a : InitAccounts} {c : LinearPriceCurve} {w0 w1 : World} (hK : K a.swap)
    (h : exec env signers (.initLinearPrice a c) w0 = .ok w1) :
    ∃ s pda, PoolAt env w1 a.swap s ∧ Custody env w1 a.swap s pda ∧ Configured env s ∧
      s.swap_curve = .linear c ∧ s.fees = ⟨0, 1, 0, 1, 0, 1, 0, 1⟩ ∧ s.token_a = a.tokenA ∧
      s.token_b = a.tokenB ∧ Linear.isCurveParamValid c = .ok () ∧
      nbal w1 a.tokenA = 0 ∧ bal w1 a.tokenB = bal w0 a.tokenB := by
  have hi : InitOf (.initLinearPrice a c) a _ _ := .linear a c
  obtain ⟨_, hpr⟩ := exec_init hi h
  obtain ⟨tA, tB, fa, de, pm, bytes, old, u, r⟩ := processInitialize_ok hpr
  have hp := r.after
  obtain ⟨c1, c2, c3, c4, _, _, c5, c6⟩ := init_custody he hK hi h hp
  have bals : ∀ k t, (w0 k).data = .token t → a.authority = t.owner → bal w1 k = bal w0 k := by
    intro k t ht ho
    have hk : k ≠ a.destination := by
      rintro rfl
      rw [r.destTok.2] at ht
      cases ht
      exact r.ownDest ho
    rw [r.write, (write_bal r.oldIs k).1, r.minted.bal, when_neg hk, Int.add_zero]
  refine ⟨_, _, hp, c1, c2, c6, c5, c3, c4, ?_, ?_, bals _ _ r.tokB.2 r.ownB⟩
  · have := r.curveOk
    unfold Curve.validate at this
    simp only [] at this
    split at this
    · rename_i u hu; exact hu
    · cases this
  · unfold nbal
    have hs := ((C11_supply c tA.amount tB.amount).1 r.supply).2
    rw [bals _ _ r.tokA.2 r.ownA, bal_token r.tokA.2, hs]
    rfl

/-- C41.  Solvency on chain: after a representable linear pool has been initialised with `B0`
token B, whatever happens afterwards, vault A covers the exact cost of the tokens that have left
vault B, to within one unit. -/
theorem C41_solvency (env : Env) (K : Pubkey → Prop) (he : EnvOk env K) (signers : List Pubkey)
    (a : InitAccounts) (c : LinearPriceCurve) (hrep : Representable c) (w0 w1 w : World)
    (hK : K a.swap) (hinit : exec env signers (.initLinearPrice a c) w0 = .ok w1)
    (h : Steps env K w1 w) (out : Nat) (hout : bal w a.tokenB + out = bal w0 a.tokenB) :
    cost c out < bal w a.tokenA + 1 := by
  obtain ⟨s, p, hp, hc, hcf, hl, hf, ea, eb, hv, hA, hB⟩ := linear_init he hK hinit
  obtain ⟨_, _, hist⟩ := linear_history he hK hp hc hcf hl hf h
  rw [ea, eb, hA] at hist
  have n1 := nbal_cast w a.tokenB
  have n2 := nbal_cast w1 a.tokenB
  have := C01_solvency c hv hrep 0 _ _ _ (by decide) hist out (by omega)
  rw [← nbal_cast]
  exact_mod_cast this

/-- C41.  While vault B is never emptied the cost is covered exactly. -/
theorem C41_exact (env : Env) (K : Pubkey → Prop) (he : EnvOk env K) (signers : List Pubkey)
    (a : InitAccounts) (c : LinearPriceCurve) (hrep : Representable c) (w0 w1 w : World)
    (hK : K a.swap) (hinit : exec env signers (.initLinearPrice a c) w0 = .ok w1)
    (h : Relation.ReflTransGen (fun u v => Step env K u v ∧ bal v a.tokenB ≠ 0) w1 w)
    (out : Nat) (hout : bal w a.tokenB + out = bal w0 a.tokenB) :
    cost c out ≤ bal w a.tokenA := by
  obtain ⟨s, p, hp, hc, hcf, hl, hf, ea, eb, hv, hA, hB⟩ := linear_init he hK hinit
  have key : PoolAt env w a.swap s ∧ Custody env w a.swap s p ∧
      HistoryNonEmpty c (nbal w1 s.token_a, nbal w1 s.token_b) (nbal w s.token_a, nbal w s.token_b) := by
    clear hout
    induction h with
    | refl => exact ⟨hp, hc, .refl⟩
    | tail _ hstep ih =>
      obtain ⟨i1, i2, i3⟩ := ih
      have := step_pool i1 hstep.1
      refine ⟨poolAt_congr this.1 this.2 i1, i2.step hK hstep.1,
        i3.tail ⟨linear_step he hK i1 i2 hcf hl hf hstep.1, ?_⟩⟩
      intro e0
      have e2 := hstep.2
      rw [← eb, ← nbal_cast] at e2
      exact e2 (by rw [show nbal _ s.token_b = 0 from e0]; rfl)
  have hist := key.2.2
  rw [ea, eb, hA] at hist
  have n1 := nbal_cast w a.tokenB
  have n2 := nbal_cast w1 a.tokenB
  have := C02_exact c hv hrep 0 _ _ _ (by decide) hist out (by omega)
  rw [← nbal_cast]
  exact_mod_cast this

example : Representable Sample.lin := by decide
example : samplePools Sample.init1.swap := Or.inl rfl
/-- Two token B are out after the sample trades (`2² + 3·2 = 10`), backed by 18 token A. -/
example : Sample.after sampleWorld (Sample.bals [3, 4]) = .ok [18, 98] := by decide +kernel

end Props
end Verif
