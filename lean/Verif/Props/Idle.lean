import Verif.Spec.Idle
import Verif.Props.Claim
import Verif.Props.Freeze
import Verif.Props.Leave
import Verif.Props.Supply
import Verif.Props.Amount

/-
C88: liquidity providers who do nothing.
-/

namespace Verif
namespace Props
open Spec Processor

/-- A step costs at most one token A or one pool token as it was before the step. -/
theorem claim_step {env : Env} {K : Pubkey → Prop} (he : EnvOk env K) {w w' : World}
    (hr : Reachable env K w) {k : Pubkey} {s : SwapV1} (hp : PoolAt env w k s) {p : UInt64}
    (hl : s.swap_curve = .constantPrice p) {signers : List Pubkey} {i : Instr} (hi : K i.pool)
    (hs : ∀ x ∈ signers, ¬ IsPda env K x) (h : exec env signers i w = .ok w') {n : Nat} (h0 : 0 < n)
    (h1 : n ≤ shares w s) (h2 : n ≤ shares w' s)
    (hno : s.fees.trade_fee_numerator = 0 ∨ ∀ a x y, i = .withdrawSingle a x y → i.pool ≠ k) :
    claim w s p.toNat n ≤ claim w' s p.toNat n + max 1 (claim w s p.toNat n / n) := by
  by_cases hsw : ∀ a x y, i = .swap a x y → i.pool ≠ k
  · have := (C69_step_partial env K he w w' hr k s hp p hl signers i hi hs h n h0 h1 h2 hno).2
      (Or.inr hsw)
    exact le_trans this ((add_le_add_iff_left _).2 (le_max_left _ _))
  · have h3 := (C69_step_partial env K he w w' hr k s hp p hl signers i hi hs h n h0 h1 h2 hno).1
    refine le_trans h3 ((add_le_add_iff_left _).2 (max_le_max_left _ ?_))
    have hle : shares w s ≤ shares w' s := by
      simp only [not_forall, not_not] at hsw
      obtain ⟨a, x', y, rfl, _⟩ := hsw
      obtain ⟨ts, _, _, _, _, _, fee, _, _, _, _, _, _, _, _, _, _, _, _, _, _, _, ef⟩ :=
        C29_swap env signers a x' y w w' h
      have := ef.supply s.pool_mint
      refine Int.toNat_le_toNat ?_
      rw [this]
      have : 0 ≤ when (s.pool_mint = ts.pool_mint) (fee : Int) := by
        unfold when; split <;> omega
      omega
    have p1 : (0 : ℚ) < shares w s := by exact_mod_cast lt_of_lt_of_le h0 h1
    have p0 : (n : ℚ) ≠ 0 := by exact_mod_cast (Nat.pos_iff_ne_zero.1 h0)
    have e : claim w s p.toNat n / n = (vaultsWorth w s p.toNat : ℚ) / shares w s := by
      unfold claim
      field_simp
    rw [e]
    exact div_le_div_of_nonneg_left (Nat.cast_nonneg _) p1 (by exact_mod_cast hle)

/-- Losing at most one, or one `h`-th, at a time. -/
theorem slow_loss {c c0 c' h n : ℚ} (h1 : 1 ≤ h) (h0 : 0 ≤ c0) (hn : 0 ≤ n)
    (hc : c0 ≤ c + n * max 1 (c0 / h)) (hs : c ≤ c' + max 1 (c / h)) :
    c0 ≤ c' + (n + 1) * max 1 (c0 / h) := by
  have hp : (0 : ℚ) < h := by linarith
  have m1 : (1 : ℚ) ≤ max 1 (c0 / h) := le_max_left _ _
  have m2 : c0 / h ≤ max 1 (c0 / h) := le_max_right _ _
  rcases le_total c c0 with hcc | hcc
  · have : max 1 (c / h) ≤ max 1 (c0 / h) := max_le_max_left _ (div_le_div_of_nonneg_right hcc hp.le)
    linarith
  · have h3 : max 1 (c / h) ≤ max 1 (c0 / h) + (c - c0) := by
      refine max_le (by linarith) ?_
      have : c / h = c0 / h + (c - c0) / h := by rw [← add_div]; congr 1; ring
      rw [this]
      have : (c - c0) / h ≤ c - c0 := div_le_self (by linarith) h1
      linarith
    have : 0 ≤ n * max 1 (c0 / h) := mul_nonneg hn (by linarith)
    linarith

/-- Whoever holds pool tokens, they exist. -/
theorem holder_shares {env : Env} {K : Pubkey → Prop} (he : EnvOk env K) {w : World}
    (hr : Reachable env K w) {k : Pubkey} {s : SwapV1} (hp : PoolAt env w k s)
    (hm : Accounted env w s.pool_mint) {acc o : Pubkey} (hk : OwnedBy env w acc s.pool_mint o)
    {h : Nat} (hb : (h : Int) ≤ bal w acc) : h ≤ shares w s := by
  obtain ⟨w0, hw0, hst⟩ := hr
  obtain ⟨_, ⟨z, hcu⟩, _⟩ := reachable_pool he hw0 hst k s hp
  have hcov := C73_covered env w _ hm {acc}
  rw [Finset.sum_singleton] at hcov
  have hi := issued_int (env := env) w s.pool_mint
  rw [if_pos hcu.minter.1] at hi
  obtain ⟨h1, t, h2, h3, _⟩ := hk
  have e : held env s.pool_mint (w acc) = t.amount.toNat := by
    unfold held
    rw [tokenAt_some.1 h2]
    exact if_pos ⟨h1, h3⟩
  rw [bal_token (tokenAt_some.1 h2)] at hb
  unfold shares
  omega

/-- What a step during somebody's absence is. -/
theorem away_keeps {env : Env} {sys : Pubkey} {K S : Pubkey → Prop} {k : Pubkey} {Q : Instr → Prop}
    (he : EnvOk env K) (hst : sys ≠ env.tokenProgramId) (hsp : sys ≠ env.programId) {w w' : World}
    {n : Nat} (hr : Reachable env K w) (hc : Clean env sys K w) {s : SwapV1} (hp : PoolAt env w k s)
    (h : Away env sys K S k Q w n w') :
    Reachable env K w' ∧ Clean env sys K w' ∧ PoolAt env w' k s ∧ Moves env sys K w w' ∧
    Relation.ReflTransGen (Without env sys K S) w w' := by
  induction h with
  | start => exact ⟨hr, hc, hp, .refl, .refl⟩
  | @instr m u u' signers i _ hi hs hn _ hx ih =>
    obtain ⟨⟨w0, hw0, hst0⟩, i2, i3, i4, i5⟩ := ih
    have hs1 : Step env K u u' := .instr signers i hi hs hx
    have hsp := step_pool i3 hs1
    exact ⟨⟨w0, hw0, hst0.tail hs1⟩, fun x hx' => (exec_owner hx x).trans (i2 x hx'),
      poolAt_congr hsp.1 hsp.2 i3, i4.tail (.instr signers i hi hs hx),
      i5.tail (.instr signers i hi hs hn hx)⟩
  | @outside m u u' _ ho hwo ih =>
    obtain ⟨⟨w0, hw0, hst0⟩, i2, i3, i4, i5⟩ := ih
    obtain ⟨e1, e2⟩ := C66_contract env sys K he hst hsp u u' i2 ho
    have hs1 : Step env K u u' := .other e1
    have hsp := step_pool i3 hs1
    exact ⟨⟨w0, hw0, hst0.tail hs1⟩, e2, poolAt_congr hsp.1 hsp.2 i3, i4.tail (.outside ho),
      i5.tail hwo⟩

/-- C88.  Liquidity providers of a constant-price pool who do nothing keep what is theirs: whatever
others do to the pool and elsewhere, single-sided withdrawals from pools with a trade fee excepted, what
belongs to `h` pool tokens falls by at most one token A, or one pool token, for each instruction on the
pool; by at most one token A if there is no owner fee on trades. -/
theorem C88_share (env : Env) (sys : Pubkey) (K S : Pubkey → Prop) (he : EnvOk env K)
    (hst : sys ≠ env.tokenProgramId) (hsp : sys ≠ env.programId) (w w' : World)
    (hr : Reachable env K w) (hc : Clean env sys K w) (k : Pubkey) (s : SwapV1) (hp : PoolAt env w k s)
    (p : UInt64) (hl : s.swap_curve = .constantPrice p) (hn : s.pool_mint ≠ Token.nativeMint)
    (hm : Accounted env w s.pool_mint) (hS : ∀ x, S x → ¬ IsPda env K x) (acc o : Pubkey) (ho : S o)
    (hd : ∀ d, delegateOf w acc = some d → S d) (hk : OwnedBy env w acc s.pool_mint o) (h : Nat)
    (h0 : 0 < h) (hb : (h : Int) ≤ bal w acc) (n : Nat)
    (hw : Away env sys K S k
      (fun i => s.fees.trade_fee_numerator = 0 ∨ ∀ a x y, i ≠ .withdrawSingle a x y) w n w') :
    claim w s p.toNat h ≤ claim w' s p.toNat h + n * max 1 (claim w s p.toNat h / h) ∧
    (s.fees.owner_trade_fee_numerator = 0 →
      claim w s p.toNat h ≤ claim w' s p.toNat h + n) ∧
    (h : Int) ≤ bal w' acc := by
  have there : ∀ {u m}, Away env sys K S k
      (fun i => s.fees.trade_fee_numerator = 0 ∨ ∀ a x y, i ≠ .withdrawSingle a x y) w m u →
      (h : Int) ≤ bal u acc ∧ h ≤ shares u s := by
    intro u m hu
    obtain ⟨j1, _, j3, j4, j5⟩ := away_keeps he hst hsp hr hc hp hu
    obtain ⟨k1, k2, _⟩ := C77_untouched env sys K S w u acc s.pool_mint o hS ho hd hk j5
    exact ⟨hb.trans k2, holder_shares he j1 j3 (C73_accounted env sys K he hst w u j4 _ hn hm) k1
      (hb.trans k2)⟩
  have hc0 : (0 : ℚ) ≤ claim w s p.toNat h := by unfold claim; positivity
  have hh : (1 : ℚ) ≤ h := by exact_mod_cast h0
  suffices key : claim w s p.toNat h ≤ claim w' s p.toNat h + n * max 1 (claim w s p.toNat h / h) ∧
      (s.fees.owner_trade_fee_numerator = 0 → claim w s p.toNat h ≤ claim w' s p.toNat h + n) from
    ⟨key.1, key.2, (there hw).1⟩
  induction hw with
  | start => exact ⟨by rw [Nat.cast_zero]; linarith, fun _ => by rw [Nat.cast_zero]; linarith⟩
  | @instr m u u' signers i hu hi hs hns hq hx ih =>
    obtain ⟨⟨w0, hw0, hst0⟩, j2, j3, _⟩ := away_keeps he hst hsp hr hc hp hu
    have g1 := (there hu).2
    have g2 := (there (.instr signers i hu hi hs hns hq hx)).2
    by_cases hpk : i.pool = k
    · rw [if_pos hpk]
      have hno : s.fees.trade_fee_numerator = 0 ∨ ∀ a x y, i = .withdrawSingle a x y → i.pool ≠ k :=
        (hq hpk).imp id fun g a x y e => absurd e (g a x y)
      push_cast
      refine ⟨slow_loss hh hc0 (Nat.cast_nonneg m) ih.1
        (claim_step he ⟨w0, hw0, hst0⟩ j3 hl hi hs hx h0 g1 g2 hno), fun hz => ?_⟩
      have := (C69_step_partial env K he u u' ⟨w0, hw0, hst0⟩ k s j3 p hl signers i hi hs hx h h0 g1 g2
        hno).2 (Or.inl hz)
      have := ih.2 hz
      linarith
    · rw [if_neg hpk]
      obtain ⟨hK, ⟨x, hcu⟩, _⟩ := reachable_pool he hw0 hst0 k s j3
      obtain ⟨f1, f2⟩ := price_elsewhere he hK hcu hi hs hx hpk p.toNat
      have := claim_le (L := 0) h0 g1 g2 (V := vaultsWorth u s p.toNat)
        (V' := vaultsWorth u' s p.toNat) (by rw [Nat.add_zero]; exact Nat.mul_le_mul f1 f2)
      rw [Nat.cast_zero, zero_div, add_zero] at this
      change claim u s p.toNat h ≤ claim u' s p.toNat h at this
      exact ⟨by linarith [ih.1], fun hz => by linarith [ih.2 hz]⟩
  | @outside m u u' hu hou hwo ih =>
    obtain ⟨⟨w0, hw0, hst0⟩, j2, j3, _⟩ := away_keeps he hst hsp hr hc hp hu
    have g1 := (there hu).2
    have g2 := (there (.outside hu hou hwo)).2
    obtain ⟨e1, _⟩ := C66_contract env sys K he hst hsp u u' j2 hou
    obtain ⟨hK, ⟨x, hcu⟩, _⟩ := reachable_pool he hw0 hst0 k s j3
    obtain ⟨f1, f2⟩ := price_env hK hcu e1 p.toNat
    have := claim_le (L := 0) h0 g1 g2 (V := vaultsWorth u s p.toNat)
      (V' := vaultsWorth u' s p.toNat) (by rw [Nat.add_zero]; exact Nat.mul_le_mul f1 f2)
    rw [Nat.cast_zero, zero_div, add_zero] at this
    change claim u s p.toNat h ≤ claim u' s p.toNat h at this
    exact ⟨by linarith [ih.1], fun hz => by linarith [ih.2 hz]⟩

/-- C88.  And they can come back for it: from a pool without trade and withdrawal fees they can still take
any amount of either token, as far as the vault has it, that is worth no more than their part was less one
token A for every instruction on the pool since, if it is worth a pool token at all; it costs at most their
`h` pool tokens. -/
theorem C88_collect (env : Env) (sys : Pubkey) (K S : Pubkey → Prop) (he : EnvOk env K)
    (hst : sys ≠ env.tokenProgramId) (hsp : sys ≠ env.programId) (w w' : World)
    (hr : Reachable env K w) (hc : Clean env sys K w) (k : Pubkey) (s : SwapV1) (hp : PoolAt env w k s)
    (p : UInt64) (hl : s.swap_curve = .constantPrice p) (hn : s.pool_mint ≠ Token.nativeMint)
    (hm : Accounted env w s.pool_mint) (hS : ∀ x, S x → ¬ IsPda env K x) (acc o : Pubkey) (ho : S o)
    (hd : ∀ d, delegateOf w acc = some d → S d) (hk : OwnedBy env w acc s.pool_mint o) (h : UInt64)
    (h0 : 0 < h.toNat) (hpay : CanPay env w acc s.pool_mint o h.toNat)
    (hz : s.fees.trade_fee_numerator = 0) (hz' : s.fees.owner_trade_fee_numerator = 0)
    (hz'' : s.fees.owner_withdraw_fee_numerator = 0) (n : Nat)
    (hw : Away env sys K S k (fun _ => True) w n w')
    (pda : Pubkey) (hpda : env.createPda k s.bump_seed = some pda) (signers : List Pubkey)
    (hs : ∀ x ∈ signers, ¬ IsPda env K x) (hu : o ∈ signers) (dir : TradeDirection) (dst : Pubkey)
    (x : UInt64) (hx0 : 0 < x.toNat) (hx : (x.toNat : Int) ≤ bal w' (vaultIn s dir))
    (hx1 : (worthOf p.toNat dir x.toNat : ℚ) + n ≤ claim w s p.toNat h.toNat)
    (hx2 : claim w' s p.toNat 1 ≤ worthOf p.toNat dir x.toNat) (hth : Thawed w' (vaultIn s dir))
    (hrecv : CanReceive env w' dst (mintIn s dir) x.toNat) (hsd : dst ≠ acc)
    (hdst : dst ≠ vaultIn s dir) (hdf : dst ≠ s.pool_fee_account) :
    ∃ w'', exec env signers (.withdrawSingle ⟨k, pda, o, s.pool_mint, acc, s.token_a, s.token_b,
        dst, s.pool_fee_account, env.tokenProgramId⟩ x h) w' = .ok w'' ∧
      bal w'' dst = bal w' dst + x.toNat ∧ bal w' acc - h.toNat ≤ bal w'' acc := by
  have hb : (h.toNat : Int) ≤ bal w acc := by
    obtain ⟨_, t, ht, _, _, _, _, hle⟩ := id hpay
    rw [bal_token (tokenAt_some.1 ht)]
    exact_mod_cast hle
  have hw' : Away env sys K S k
      (fun i => s.fees.trade_fee_numerator = 0 ∨ ∀ a x y, i ≠ .withdrawSingle a x y) w n w' := by
    clear hx hx1 hx2 hth hrecv
    induction hw with
    | start => exact .start
    | instr signers i _ g1 g2 g3 _ g5 ih => exact .instr signers i ih g1 g2 g3 (fun _ => Or.inl hz) g5
    | outside _ g1 g2 ih => exact .outside ih g1 g2
  obtain ⟨_, c2, c3⟩ := C88_share env sys K S he hst hsp w w' hr hc k s hp p hl hn hm hS acc o ho hd hk
    h.toNat h0 hb n hw'
  have c2 := c2 hz'
  obtain ⟨j1, _, j3, j4, j5⟩ := away_keeps he hst hsp hr hc hp hw'
  obtain ⟨k1, _⟩ := C77_untouched env sys K S w w' acc s.pool_mint o hS ho hd hk j5
  have hsh := holder_shares he j1 j3 (C73_accounted env sys K he hst w w' j4 _ hn hm) k1 c3
  have hpay' := C86_spendable env sys K S he hst w w' hr k s hp hS acc o ho hd hk h.toNat hpay j5
  have q1 : (0 : ℚ) < shares w' s := by exact_mod_cast lt_of_lt_of_le h0 hsh
  have e1 : shares w' s * worthOf p.toNat dir x.toNat ≤ h.toNat * vaultsWorth w' s p.toNat := by
    have : (worthOf p.toNat dir x.toNat : ℚ) ≤ claim w' s p.toNat h.toNat := by linarith
    unfold claim at this
    rw [le_div_iff₀ q1] at this
    rw [Nat.mul_comm]
    exact_mod_cast this
  have e2 : vaultsWorth w' s p.toNat ≤ shares w' s * worthOf p.toNat dir x.toNat := by
    unfold claim at hx2
    rw [div_le_iff₀ q1, Nat.cast_one, one_mul] at hx2
    rw [Nat.mul_comm]
    exact_mod_cast hx2
  have hp0 : 0 < worthOf p.toNat dir x.toNat := by
    obtain ⟨w0, hw0, hst0⟩ := j1
    obtain ⟨_, _, hcf⟩ := reachable_pool he hw0 hst0 k s j3
    have hcv := hcf.curve
    rw [hl] at hcv
    unfold Curve.validate at hcv
    simp only [] at hcv
    split at hcv
    · cases hcv
    · rename_i hp
      cases dir
      · exact hx0
      · exact Nat.mul_pos (Nat.pos_of_ne_zero fun e => hp (UInt64.toNat_inj.1 e)) hx0
  have hV : 0 < vaultsWorth w' s p.toNat := by
    rcases Nat.eq_zero_or_pos (vaultsWorth w' s p.toNat) with hV | hV
    · rw [hV, Nat.mul_zero] at e1
      have : 0 < shares w' s * worthOf p.toNat dir x.toNat :=
        Nat.mul_pos (lt_of_lt_of_le h0 hsh) hp0
      omega
    · exact hV
  have hup := (up_iff (a := shares w' s * worthOf p.toNat dir x.toNat) hV).2 rfl
  set m := cd (shares w' s * worthOf p.toNat dir x.toNat) (vaultsWorth w' s p.toNat)
  have hm0 : 0 < m := by
    rcases Nat.eq_zero_or_pos m with e | e
    · have := hup.1
      rw [e, Nat.zero_mul] at this
      omega
    · exact e
  have hmh : m ≤ h.toNat := by
    by_contra hlt
    have := hup.2
    have : (h.toNat + 1) * vaultsWorth w' s p.toNat ≤ m * vaultsWorth w' s p.toNat :=
      Nat.mul_le_mul_right _ (by omega)
    rw [Nat.add_mul] at this
    omega
  obtain ⟨w'', g1, _, _, _, g5, g6, _⟩ := leave_side env K he j1 j3 hl hpda hs hu (dir := dir)
    (src := acc) (dst := dst) hz (Or.inl hz'') (x := x) (q := h) (m := m) hx0 hx hup hm0 hV e2
    (hmh.trans hsh) hmh (by
      obtain ⟨a1, t, a2, a3, a4, a5, a6, a7⟩ := hpay'
      exact ⟨a1, t, a2, a3, a4, a5, a6, hmh.trans a7⟩) hth hrecv hsd hdst hdf
  exact ⟨w'', g1, g6, by omega⟩

/-! ### The hypotheses are met -/

/-- The fee-free pool, all of whose pool tokens belong to 50, who has lent 1500 token A to 62. -/
def lentFree : World := match (Token.TokenInstr.approve (Sample.key 30) (Sample.key 62) (Sample.key 50)
    1500).exec Sample.env.tokenProgramId [Sample.key 50] freePool with
  | .ok w => w
  | .error _ => freePool

/-- 62 trades with them. -/
def tradedFree : World := match exec Sample.env [Sample.key 62] (lentTrade 1000) lentFree with
  | .ok w => w
  | .error _ => lentFree

theorem lentFree_moves : Moves Sample.env (Sample.key 0) samplePools Sample.start lentFree := by
  obtain ⟨w, hw⟩ := of_isOk (x := (Token.TokenInstr.approve (Sample.key 30) (Sample.key 62)
    (Sample.key 50) 1500).exec Sample.env.tokenProgramId [Sample.key 50] freePool) (by decide +kernel)
  have e : lentFree = w := by unfold lentFree; rw [hw]
  rw [e]
  have h' : exec Sample.env [Sample.key 1, Sample.key 2, Sample.key 50]
      (.initConstantPrice Sample.init2 ⟨0, 1, 0, 1, 0, 1, 0, 1⟩ 7) Sample.start = .ok freePool := by
    unfold freePool
    exact exec_ranTo (by decide +kernel)
  refine .tail (.single (.instr _ _ (Or.inr rfl) sample_signers h'))
    (.outside (.token _ _ (fun x hx => ?_) hw))
  exact sample_signers x (by rw [List.mem_singleton.1 hx]; decide)

theorem lentFree_facts : Reachable Sample.env samplePools lentFree ∧
    Clean Sample.env (Sample.key 0) samplePools lentFree :=
  C66_executions Sample.env (Sample.key 0) samplePools sample_ok (by decide) (by decide) _ _
    sample_start sample_clean lentFree_moves

theorem lentFree_away (Q : Instr → Prop) (hQ : Q (lentTrade 1000)) :
    Away Sample.env (Sample.key 0) samplePools (· = Sample.key 50) (Sample.key 2) Q lentFree 1
      tradedFree := by
  obtain ⟨w, hw⟩ := of_isOk (x := exec Sample.env [Sample.key 62] (lentTrade 1000) lentFree)
    (by decide +kernel)
  have e : tradedFree = w := by unfold tradedFree; rw [hw]
  rw [e]
  exact .instr _ (lentTrade 1000) .start (Or.inr rfl) user62 (fun x hx => by
    rw [List.mem_singleton.1 hx]; decide) (fun _ => hQ) hw

theorem lentFree_accounted : Accounted Sample.env lentFree poolFree.pool_mint :=
  C73_accounted Sample.env (Sample.key 0) samplePools sample_ok (by decide) _ _ lentFree_moves _
    (by decide) start_accounted

theorem lentFree_owned : OwnedBy Sample.env lentFree (Sample.key 17) poolFree.pool_mint
    (Sample.key 50) :=
  ⟨by decide +kernel, plain 15 50 1000000000, by decide +kernel, rfl, rfl, rfl⟩

example : claim lentFree poolFree 7 1000000000 ≤ claim tradedFree poolFree 7 1000000000 + (1 : Nat) :=
  (C88_share Sample.env (Sample.key 0) samplePools (· = Sample.key 50) sample_ok (by decide) (by decide)
    lentFree tradedFree lentFree_facts.1 lentFree_facts.2 (Sample.key 2) poolFree
    (pool_of (by decide +kernel) (by decide +kernel)) 7 rfl (by decide) lentFree_accounted
    (fun x hx => hx ▸ user50 _ (List.mem_singleton.2 rfl)) (Sample.key 17) (Sample.key 50) rfl
    (fun d h => absurd h (by rw [show delegateOf lentFree (Sample.key 17) = none by decide +kernel]; nofun))
    lentFree_owned 1000000000 (by decide) (by decide +kernel) 1
    (lentFree_away _ (Or.inl rfl))).2.1 rfl

/-- 50 comes back and takes 5000 token A, not having approved of the trade. -/
example : ∃ w, exec Sample.env [Sample.key 50] (.withdrawSingle ⟨Sample.key 2, Sample.key 130,
      Sample.key 50, Sample.key 15, Sample.key 17, Sample.key 13, Sample.key 14, Sample.key 30,
      Sample.key 16, Sample.key 101⟩ 5000 1000000000) tradedFree = .ok w ∧
    bal w (Sample.key 30) = bal tradedFree (Sample.key 30) + 5000 := by
  obtain ⟨w, h1, h2, _⟩ := C88_collect Sample.env (Sample.key 0) samplePools (· = Sample.key 50)
    sample_ok (by decide) (by decide)
    lentFree tradedFree lentFree_facts.1 lentFree_facts.2 (Sample.key 2) poolFree
    (pool_of (by decide +kernel) (by decide +kernel)) 7 rfl (by decide) lentFree_accounted
    (fun x hx => hx ▸ user50 _ (List.mem_singleton.2 rfl)) (Sample.key 17) (Sample.key 50) rfl
    (fun d h => absurd h (by rw [show delegateOf lentFree (Sample.key 17) = none by decide +kernel]; nofun))
    lentFree_owned 1000000000 (by decide)
    ⟨by decide +kernel, plain 15 50 1000000000, by decide +kernel, rfl, rfl, by decide, rfl, by decide⟩
    rfl rfl rfl 1 (lentFree_away _ trivial) (Sample.key 130) (by decide +kernel) [Sample.key 50] user50
    (List.mem_singleton.2 rfl) .AtoB (Sample.key 30) 5000 (by decide) (by decide +kernel)
    (by
      unfold claim
      rw [show vaultsWorth lentFree poolFree (7 : UInt64).toNat = 9900 by decide +kernel,
        show shares lentFree poolFree = 1000000000 by decide +kernel,
        show worthOf (7 : UInt64).toNat .AtoB (5000 : UInt64).toNat = 5000 by decide,
        show (1000000000 : UInt64).toNat = 1000000000 by decide]
      norm_num)
    (by
      unfold claim
      rw [show vaultsWorth tradedFree poolFree (7 : UInt64).toNat = 9900 by decide +kernel,
        show shares tradedFree poolFree = 1000000000 by decide +kernel,
        show worthOf (7 : UInt64).toNat .AtoB (5000 : UInt64).toNat = 5000 by decide]
      norm_num)
    ⟨plain 20 130 5994, by decide +kernel, rfl⟩
    ⟨by decide +kernel, ⟨Sample.key 20, Sample.key 50, 19006, some (Sample.key 62), false, 506, none⟩,
      by decide +kernel, rfl, rfl, by decide⟩
    (by decide) (by decide) (by decide)
  exact ⟨w, h1, h2⟩

end Props
end Verif
