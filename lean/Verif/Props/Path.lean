import Verif.Spec.Path
import Verif.Props.Spot
import Verif.Props.Live
import Verif.Props.Exit
import Verif.Props.Claim

/-
C74: whatever sequence of purchases and sales is made on a linear pool, the net trade is not cheaper
than the curve says.
-/

namespace Verif
namespace Props

open Spec Processor
open Linear hiding price

section
variable {c : LinearPriceCurve}

theorem position_mono' (hv : isCurveParamValid c = .ok ()) {A A' : Nat} (h : A ≤ A') :
    position c A ≤ position c A' := by
  have hs := slope_pos hv
  have := marginal_mono hv h
  unfold position
  gcongr

/-- One trade. -/
theorem trade_position (hv : isCurveParamValid c = .ok ()) (hr : Representable c)
    {x y : Nat × Nat} (hx : x.1 < 2 ^ 64) (h : PoolStep c x y) (hl : Leaves x y) :
    position c x.1 + x.2 - 1 / 10 ^ 18 ≤ position c y.1 + y.2 := by
  cases h with
  | buy s r hs h hd hA =>
    rename_i A B
    simp only [] at *
    obtain ⟨_, _, hy0⟩ := swapWithoutFees_buy h
    have hlt : r.destination_amount_swapped < B := by
      have := hl.2 (show B ≠ 0 by omega)
      simp only [] at this
      omega
    rcases C46_buy c hv hr s A B r hs hx h with ⟨e, h1, _⟩ | ⟨e, _⟩
    · rw [e, Nat.cast_sub hd]; linarith
    · omega
  | sell s r hs h hd hB =>
    rename_i A B
    simp only [] at *
    obtain ⟨_, _, hy0⟩ := swapWithoutFees_sell h
    have hlt : r.destination_amount_swapped < A := by
      have := hl.1 (show A ≠ 0 by omega)
      simp only [] at this
      omega
    rcases C47_sell c hv hr s A B r hx h with ⟨e, n, h1, _, hy⟩ | ⟨e, _⟩
    · have hn : (n : ℝ) ≤ position c (A - r.destination_amount_swapped) := by
        apply position_ge hv
        have h2 : ((r.destination_amount_swapped : ℤ) : ℚ) ≤ (A : ℚ) - cost c n := by
          rw [hy]; exact Int.floor_le _
        rw [Nat.cast_sub hd]
        push_cast at h2
        linarith
      rw [e]
      push_cast
      linarith
    · omega
  | donate u w hA hB =>
    rename_i A B
    simp only [] at *
    have := position_mono' hv (show A ≤ A + u by omega)
    have : (0 : ℝ) ≤ w := Nat.cast_nonneg _
    push_cast
    linarith

end

theorem trades_lt {c : LinearPriceCurve} {x y : Nat × Nat} {n : Nat} (hx : x.1 < 2 ^ 64)
    (h : Trades c x n y) : y.1 < 2 ^ 64 := by
  induction h with
  | start => exact hx
  | gift u w h h1 h2 ih => exact h1
  | trade h hs hl ih =>
    cases hs with
    | buy s r hs h hd hA => exact hA
    | sell s r hs h hd hB => exact lt_of_le_of_lt (Nat.sub_le _ _) ih
    | donate u w hA hB => exact hA

/-- C74.  Position plus token B in the vault never falls by more than `10^-18` token B per trade,
whoever trades in whatever order. -/
theorem C74_potential (c : LinearPriceCurve) (hv : isCurveParamValid c = .ok ())
    (hr : Representable c) (x y : Nat × Nat) (n : Nat) (hx : x.1 < 2 ^ 64) (h : Trades c x n y) :
    position c x.1 + x.2 - n / 10 ^ 18 ≤ position c y.1 + y.2 := by
  induction h with
  | start => simp
  | gift u w h _ _ ih =>
    rename_i m A B _ _
    simp only [] at *
    have := position_mono' hv (show A ≤ A + u by omega)
    have : (0 : ℝ) ≤ w := Nat.cast_nonneg _
    push_cast
    linarith
  | trade h hs hl ih =>
    have := trade_position hv hr (trades_lt hx h) hs hl
    push_cast
    rw [add_div]
    linarith

/-- C74.  Net purchases: the traders who together took `x.2 - y.2` token B have left at least their
exact cost, counted from the position at the start (less `10^-18` token B per trade), in the vault. -/
theorem C74_net_cost (c : LinearPriceCurve) (hv : isCurveParamValid c = .ok ())
    (hr : Representable c) (x y : Nat × Nat) (n : Nat) (hx : x.1 < 2 ^ 64) (h : Trades c x n y)
    (q : ℝ) (hq : q = position c x.1 + (x.2 - y.2) - n / 10 ^ 18) (h0 : 0 ≤ q) :
    costR c q ≤ y.1 := by
  have h1 := C74_potential c hv hr x y n hx h
  have e := (C45_position_unique c hv y.1 (position c y.1) (position_nonneg hv _)).2 rfl
  rw [← e]
  exact costR_mono hv h0 (by rw [hq]; linarith)

/-- C74.  Cycles: when the pool has no more token B than at first, no more token A have left it than
`10^-18` of the price per trade; at prices below `10^18` over the number of trades, none. -/
theorem C74_cycle (c : LinearPriceCurve) (hv : isCurveParamValid c = .ok ())
    (hr : Representable c) (x y : Nat × Nat) (n : Nat) (hx : x.1 < 2 ^ 64) (h : Trades c x n y)
    (hB : y.2 ≤ x.2) :
    (x.1 : ℝ) - y.1 ≤ n / 10 ^ 18 * marginal c x.1 ∧
    (n * marginal c x.1 < 10 ^ 18 → x.1 ≤ y.1) := by
  have key : (x.1 : ℝ) - y.1 ≤ n / 10 ^ 18 * marginal c x.1 := by
    have hm := marginal_nonneg c x.1
    by_cases hlt : x.1 ≤ y.1
    · have h1 : (x.1 : ℝ) ≤ y.1 := by exact_mod_cast hlt
      have h2 : 0 ≤ (n : ℝ) / 10 ^ 18 * marginal c x.1 := by positivity
      linarith
    · have hlt' : y.1 < x.1 := Nat.lt_of_not_le hlt
      have h1 := C74_potential c hv hr x y n hx h
      have h2 := position_step (c := c) hv y.1 (x.1 - y.1)
      have h3 := meanPrice_pos (c := c) hv (A := y.1) (s := x.1 - y.1) (by omega)
      rw [show y.1 + (x.1 - y.1) = x.1 by omega] at h2 h3
      rw [Nat.cast_sub hlt'.le] at h2
      have h4 : (y.2 : ℝ) ≤ x.2 := by exact_mod_cast hB
      have h5 : meanPrice c y.1 x.1 ≤ marginal c x.1 := by
        have := marginal_mono (c := c) hv hlt'.le
        unfold meanPrice; linarith
      rw [← h2]
      exact mul_le_mul (by linarith) h5 h3.le (by positivity)
  refine ⟨key, fun hn => ?_⟩
  have h1 : (n : ℝ) / 10 ^ 18 * marginal c x.1 < 1 := by
    rw [div_mul_eq_mul_div, div_lt_one (by norm_num)]
    exact hn
  have h2 : (x.1 : ℝ) < y.1 + 1 := by linarith
  have : x.1 < y.1 + 1 := by exact_mod_cast h2
  omega

/-- One buys for 30, another for 60, the first sells 2, the second 3, and the pool has gained 20. -/
theorem sample_trades : Trades sampleCurve (20, 90) 4 (40, 90) := by
  have t1 : PoolStep sampleCurve (20, 90) (50, 88) :=
    .buy 30 ⟨30, 2⟩ (by decide) (by decide +kernel) (by decide) (by decide)
  have t2 : PoolStep sampleCurve (50, 88) (110, 85) :=
    .buy 60 ⟨60, 3⟩ (by decide) (by decide +kernel) (by decide) (by decide)
  have t3 : PoolStep sampleCurve (110, 85) (70, 88) :=
    .sell 3 ⟨3, 40⟩ (by decide) (by decide +kernel) (by decide) (by decide)
  have t4 : PoolStep sampleCurve (70, 88) (40, 90) :=
    .sell 2 ⟨2, 30⟩ (by decide) (by decide +kernel) (by decide) (by decide)
  exact .trade (.trade (.trade (.trade .start t1 ⟨by decide, by decide⟩) t2 ⟨by decide, by decide⟩)
    t3 ⟨by decide, by decide⟩) t4 ⟨by decide, by decide⟩

example : ((20 : Nat) : ℝ) - (40 : Nat) ≤ (4 : Nat) / 10 ^ 18 * marginal sampleCurve 20 :=
  (C74_cycle sampleCurve (by decide +kernel) (by unfold Representable; decide +kernel) (20, 90)
    (40, 90) 4 (by decide) sample_trades (by decide)).1

/-- A step that empties vault A leaves at most half a token B less than the position. -/
theorem exit_position {c : LinearPriceCurve} (hv : isCurveParamValid c = .ok ())
    (hr : Representable c) {y z : Nat × Nat} (hy : y.1 < 2 ^ 64) (hs : PoolStep c y z)
    (hy0 : y.1 ≠ 0) (hz0 : z.1 = 0) :
    position c y.1 + y.2 - 1 / 2 - 1 / 10 ^ 18 < z.2 := by
  cases hs with
  | buy s r hs h hd hA => simp only [] at *; omega
  | donate u w hA hB => simp only [] at *; omega
  | sell s r hs h hd hB =>
    rename_i A B
    simp only [] at *
    rcases C47_sell c hv hr s A B r hy h with ⟨ex, n, h1, _, h2⟩ | ⟨_, _, h1, _⟩
    · have hn' : (n : ℝ) ≤ position c ((A - r.destination_amount_swapped : Nat)) := by
        apply position_ge hv
        have h2 : ((r.destination_amount_swapped : ℤ) : ℚ) ≤ (A : ℚ) - cost c n := by
          rw [h2]; exact Int.floor_le _
        rw [Nat.cast_sub hd]
        push_cast at h2
        linarith
      have e0 : position c ((A - r.destination_amount_swapped : Nat)) = 0 := by
        rw [hz0]
        exact ((C45_position_unique c hv 0 0 le_rfl).1 (by unfold costR; simp)).symm
      rw [e0] at hn'
      rw [ex]
      push_cast
      linarith
    · push_cast
      linarith

/-- C74 with sales that empty vault A: these round the position to a whole token B, which costs half
a token B once, however often it happens. -/
theorem C74_exits (c : LinearPriceCurve) (hv : isCurveParamValid c = .ok ())
    (hr : Representable c) (x y : Nat × Nat) (n : Nat) (hx : x.1 < 2 ^ 64) (hn : n ≤ 10 ^ 17)
    (h : TradesExits c x n y) :
    position c x.1 + x.2 - 1 / 2 - 2 * n / 10 ^ 18 ≤ position c y.1 + y.2 := by
  have key : y.1 < 2 ^ 64 ∧ (position c x.1 + x.2 - n / 10 ^ 18 ≤ position c y.1 + y.2 ∨
      ∃ L : Nat, position c x.1 + x.2 - 1 / 2 - n / 10 ^ 18 ≤ L ∧
        L - n / 10 ^ 18 ≤ position c y.1 + y.2) := by
    induction h with
    | start => exact ⟨hx, Or.inl (by simp)⟩
    | gift u w h h1 h2 ih =>
      rename_i m A B
      have := position_mono' hv (show A ≤ A + u by omega)
      have hw : (0 : ℝ) ≤ w := Nat.cast_nonneg _
      refine ⟨h1, ?_⟩
      rcases (ih hn).2 with i | ⟨L, i1, i2⟩
      · left
        simp only [] at *
        push_cast
        linarith
      · right
        refine ⟨L, i1, ?_⟩
        simp only [] at *
        push_cast
        linarith
    | trade h hs hl ih =>
      rename_i m y z
      obtain ⟨l, i⟩ := ih (by omega)
      have hm : (m : ℝ) / 10 ^ 18 ≤ 1 / 10 := by
        have : (m : ℝ) ≤ 10 ^ 17 := by
          have : m ≤ 10 ^ 17 := by omega
          exact_mod_cast this
        rw [div_le_div_iff₀ (by norm_num) (by norm_num)]
        linarith
      have e : (((m + 1 : Nat) : ℝ)) / 10 ^ 18 = m / 10 ^ 18 + 1 / 10 ^ 18 := by
        push_cast; rw [add_div]
      have e18 : (1 : ℝ) / 10 ^ 18 ≤ 1 / 10 := by norm_num
      rw [e]
      have hlt : z.1 < 2 ^ 64 := by
        cases hs with
        | buy s r hs h hd hA => exact hA
        | sell s r hs h hd hB => exact lt_of_le_of_lt (Nat.sub_le _ _) l
        | donate u w hA hB => exact hA
      refine ⟨hlt, ?_⟩
      by_cases hz : y.1 ≠ 0 → z.1 ≠ 0
      · have := trade_position hv hr l hs ⟨hz, hl⟩
        rcases i with i | ⟨L, i1, i2⟩
        · left; linarith
        · right; exact ⟨L, by linarith, by linarith⟩
      · obtain ⟨hy0, hz0⟩ := Classical.not_imp.1 hz
        have hz0 := not_not.1 hz0
        have hnat := exit_position hv hr l hs hy0 hz0
        have hm0 : (0 : ℝ) ≤ m / 10 ^ 18 := by positivity
        have hp0 := position_nonneg hv z.1
        right
        rcases i with i | ⟨L, i1, i2⟩
        · exact ⟨z.2, by linarith, by linarith⟩
        · refine ⟨L, by linarith, ?_⟩
          have h1 : (L : ℝ) < z.2 + 1 := by linarith
          have h2 : L < z.2 + 1 := by exact_mod_cast h1
          have h3 : (L : ℝ) ≤ z.2 := by exact_mod_cast Nat.lt_succ_iff.1 h2
          linarith
  have e : 2 * (n : ℝ) / 10 ^ 18 = n / 10 ^ 18 + n / 10 ^ 18 := by ring
  have hn0 : (0 : ℝ) ≤ n / 10 ^ 18 := by positivity
  rw [e]
  rcases key.2 with i | ⟨L, i1, i2⟩ <;> linarith

/-- With 6 token A a pool of this curve stands at 1.37, and someone who offers two token B is paid
all of it for one. -/
theorem sample_exits : TradesExits sampleCurve (6, 90) 2 (4, 90) := by
  have t1 : PoolStep sampleCurve (6, 90) (0, 91) :=
    .sell 2 ⟨1, 6⟩ (by decide) (by decide +kernel) (by decide) (by decide)
  have t2 : PoolStep sampleCurve (0, 91) (4, 90) :=
    .buy 4 ⟨4, 1⟩ (by decide) (by decide +kernel) (by decide) (by decide)
  exact .trade (.trade .start t1 (by decide)) t2 (by decide)

example : position sampleCurve 6 + (90 : Nat) - 1 / 2 - 2 * (2 : Nat) / 10 ^ 18 ≤
    position sampleCurve 4 + (90 : Nat) :=
  C74_exits sampleCurve (by decide +kernel) (by unfold Representable; decide +kernel) (6, 90) (4, 90)
    2 (by decide) (by decide) sample_exits

/-! ### On chain -/

theorem meanwhile_trades {env : Env} {K : Pubkey → Prop} (he : EnvOk env K) {w w' : World}
    {k p : Pubkey} {s : SwapV1} {c : LinearPriceCurve} (hK : K k) (hp : PoolAt env w k s)
    (hc : Custody env w k s p) (hcf : Configured env s) (hl : s.swap_curve = .linear c)
    (hf : s.fees = ⟨0, 1, 0, 1, 0, 1, 0, 1⟩) {n : Nat} (h : Meanwhile env K k s w n w') :
    PoolAt env w' k s ∧ Custody env w' k s p ∧ Trades c (vaults w s) n (vaults w' s) := by
  have up : ∀ {u u' : World} {n : Nat}, Trades c (vaults w s) n (vaults u s) →
      bal u s.token_a ≤ bal u' s.token_a → bal u s.token_b ≤ bal u' s.token_b →
      Trades c (vaults w s) n (vaults u' s) := by
    intro u u' n ht h1 h2
    have e1 : (bal u' s.token_a).toNat = (bal u s.token_a).toNat +
        ((bal u' s.token_a).toNat - (bal u s.token_a).toNat) := by omega
    have e2 : (bal u' s.token_b).toNat = (bal u s.token_b).toNat +
        ((bal u' s.token_b).toNat - (bal u s.token_b).toNat) := by omega
    have l1 := nbal_lt u' s.token_a
    have l2 := nbal_lt u' s.token_b
    unfold nbal at l1 l2
    unfold vaults at ht ⊢
    rw [e1] at l1 ⊢
    rw [e2] at l2 ⊢
    exact .gift _ _ ht l1 l2
  induction h with
  | start => exact ⟨hp, hc, .start⟩
  | other h he' ih =>
    obtain ⟨i1, i2, i3⟩ := ih
    have hst : Step env K _ _ := .other he'
    have := step_pool i1 hst
    refine ⟨poolAt_congr this.1 this.2 i1, i2.step hK hst, ?_⟩
    have hx := i2.isPda hK
    exact up i3 (i2.vaultA.envStep hx he').2 (i2.vaultB.envStep hx he').2
  | elsewhere signers i h hi hs hne hex ih =>
    obtain ⟨i1, i2, i3⟩ := ih
    have hst : Step env K _ _ := .instr signers i hi hs hex
    have := step_pool i1 hst
    refine ⟨poolAt_congr this.1 this.2 i1, i2.step hK hst, ?_⟩
    exact up i3 (vault_step he hK i2.derived i2.vaultA hs hi hex hne)
      (vault_step he hK i2.derived i2.vaultB hs hi hex hne)
  | here signers i h hs hk hex hlv ih =>
    obtain ⟨i1, i2, i3⟩ := ih
    have hst : Step env K _ _ := .instr signers i (hk ▸ hK) hs hex
    have := step_pool i1 hst
    exact ⟨poolAt_congr this.1 this.2 i1, i2.step hK hst,
      .trade i3 (linear_step he hK i1 i2 hcf hl hf hst) hlv⟩

/-- C74 on chain: from any ledger that can occur to any later one, with `n` instructions on a linear
pool, none of them emptying a vault, and anything else in between. -/
theorem C74_chain (env : Env) (K : Pubkey → Prop) (he : EnvOk env K) (w w' : World)
    (hR : Reachable env K w) (k : Pubkey) (s : SwapV1) (hp : PoolAt env w k s)
    (c : LinearPriceCurve) (hl : s.swap_curve = .linear c) (hr : Representable c) (n : Nat)
    (h : Meanwhile env K k s w n w') :
    position c (vaults w s).1 + (vaults w s).2 - n / 10 ^ 18 ≤
      position c (vaults w' s).1 + (vaults w' s).2 ∧
    ((vaults w' s).2 ≤ (vaults w s).2 → n * marginal c (vaults w s).1 < 10 ^ 18 →
      bal w s.token_a ≤ bal w' s.token_a) := by
  obtain ⟨w0, h0, hst⟩ := hR
  obtain ⟨hK, ⟨z, hc⟩, hcf⟩ := reachable_pool he h0 hst k s hp
  have hf : s.fees = ⟨0, 1, 0, 1, 0, 1, 0, 1⟩ := by
    rcases hcf.kind with ⟨p, e⟩ | ⟨_, _, e⟩
    · rw [hl] at e; cases e
    · exact e
  have hv := Exit.valid he ⟨w0, h0, hst⟩ hp hl
  obtain ⟨_, _, ht⟩ := meanwhile_trades he hK hp hc hcf hl hf h
  have hx : (vaults w s).1 < 2 ^ 64 := nbal_lt w s.token_a
  refine ⟨C74_potential c hv hr _ _ n hx ht, fun hB hm => ?_⟩
  have := (C74_cycle c hv hr _ _ n hx ht hB).2 hm
  have e1 := nbal_cast w s.token_a
  have e2 := nbal_cast w' s.token_a
  unfold nbal at e1 e2
  unfold vaults at this
  simp only [] at this
  omega

/-- User 50 buys 2 token B from the linear pool for 30 token A. -/
def pathBuy : Instr := .swap ⟨Sample.key 1, Sample.key 129, Sample.key 50, Sample.key 30, Sample.key 3,
  Sample.key 4, Sample.key 31, Sample.key 5, Sample.key 6, Sample.key 101⟩ 30 2

/-- And sells 2 token B to it. -/
def pathSell : Instr := .swap ⟨Sample.key 1, Sample.key 129, Sample.key 50, Sample.key 31, Sample.key 4,
  Sample.key 3, Sample.key 30, Sample.key 5, Sample.key 6, Sample.key 101⟩ 2 1

/-- A purchase, somebody's deposit into the other pool, and a sale. -/
theorem path_meanwhile : Meanwhile Sample.env samplePools (Sample.key 1) pool1 live 2
    (ranTo [pathSell] (ranTo [Sample.depAll] (ranTo [pathBuy] live))) :=
  .here _ pathSell (.elsewhere _ Sample.depAll (.here _ pathBuy .start sample_signers rfl
    (exec_ranTo (by decide +kernel)) ⟨by decide +kernel, by decide +kernel⟩)
    (Or.inr rfl) sample_signers (by decide) (exec_ranTo (by decide +kernel)))
    sample_signers rfl (exec_ranTo (by decide +kernel)) ⟨by decide +kernel, by decide +kernel⟩

example : position Sample.lin (vaults live pool1).1 + (vaults live pool1).2 - (2 : Nat) / 10 ^ 18 ≤
    position Sample.lin (vaults (ranTo [pathSell] (ranTo [Sample.depAll] (ranTo [pathBuy] live))) pool1).1 +
      (vaults (ranTo [pathSell] (ranTo [Sample.depAll] (ranTo [pathBuy] live))) pool1).2 :=
  (C74_chain Sample.env samplePools sample_ok _ _ live_reachable (Sample.key 1) pool1 live_pool1
    Sample.lin rfl (by unfold Representable; decide +kernel) 2 path_meanwhile).1

/-- The purchase and the sale leave the token B as they were and 10 token A more. -/
example : vaults live pool1 = (18, 98) ∧
    vaults (ranTo [pathSell] (ranTo [Sample.depAll] (ranTo [pathBuy] live))) pool1 = (28, 98) := by
  decide +kernel

end Props
end Verif
