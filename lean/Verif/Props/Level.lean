import Verif.Props.Emptied
import Verif.Props.Path
import Verif.Props.Enter

/-
C99: the rounding of a linear pool does not add up.
-/

namespace Verif
namespace Props
open Spec Processor
open Linear hiding price marginal_sq position_nonneg

/-- A whole number of tokens below the exact position is paid for. -/
theorem whole_paid {c : LinearPriceCurve} (hv : isCurveParamValid c = .ok ()) {A n : Nat}
    (hn : (n : ℝ) ≤ position c A) : amtF c (n * Dfs.ONE) ≤ A * Dfs.ONE := by
  have h1 := amtF_leR (nz_of_valid hv) n
  have h2 := costR_of_position hv (Nat.cast_nonneg n) hn
  have h3 : (amtF c (n * Dfs.ONE) : ℝ) ≤ A * Dfs.ONE :=
    le_trans h1 (mul_le_mul_of_nonneg_right h2 oneR_pos.le)
  exact_mod_cast h3

/-- C99.  On a steep curve, over any history of trades and gifts that does not empty the B vault, however
long, the exact position plus the token B in the vault falls by less than one token, for the part of the
position that is not whole, and one half and `10^-18` over the slope, for rounding. -/
theorem C99_level (c : LinearPriceCurve) (hv : isCurveParamValid c = .ok ()) (hst : Steep c)
    (x y : Nat × Nat) (hx : x.1 < 2 ^ 64) (h : HistoryNonEmpty c x y) :
    (⌊position c x.1⌋₊ : ℝ) + x.2 ≤ position c y.1 + y.2 + 1 / 10 ^ 18 / (slope c : ℝ) + 1 / 2 := by
  have hz := nz_of_valid hv
  obtain ⟨hpos, hslack, hone⟩ := slack_bounds hv
  have hfl := Nat.floor_le (position_nonneg hv x.1)
  obtain ⟨hA, hk⟩ := steep_inv (A0 := x.1) (B0 := x.2) hz hst hx (T := x.2 + ⌊position c x.1⌋₊) (fun o ho => by
    have h0 : o = ⌊position c x.1⌋₊ := by omega
    rw [h0]
    exact Or.inr (whole_paid hv hfl)) h
  have hp := position_nonneg hv y.1
  rcases Nat.lt_or_ge (x.2 + ⌊position c x.1⌋₊) y.2 with hlt | hge
  · have : ((x.2 + ⌊position c x.1⌋₊ : Nat) : ℝ) ≤ y.2 := by exact_mod_cast hlt.le
    push_cast at this
    linarith
  · obtain ⟨o, ho⟩ := Nat.exists_eq_add_of_le hge
    have h1 := (hk o ho.symm).position hz hst (by omega) hslack
    have h2 : ((x.2 + ⌊position c x.1⌋₊ : Nat) : ℝ) = y.2 + o := by exact_mod_cast ho
    push_cast at h2
    linarith

/-- C99 when the B vault may be emptied: on curves a little steeper, if the last of all tokens, those in
the vault and those outside, costs two units of token A or more. -/
theorem C99_emptied (c : LinearPriceCurve) (hv : isCurveParamValid c = .ok ()) (hst : Steeper c)
    (x y : Nat × Nat) (hx : x.1 < 2 ^ 64) (hd : Dear c (x.2 + ⌊position c x.1⌋₊)) (h : History c x y) :
    (⌊position c x.1⌋₊ : ℝ) + x.2 ≤ position c y.1 + y.2 + 1 / 10 ^ 18 / (slope c : ℝ) + 1 / 2 := by
  have hz := nz_of_valid hv
  obtain ⟨hpos, hslack, hone⟩ := slack_bounds hv
  have hfl := Nat.floor_le (position_nonneg hv x.1)
  obtain ⟨F, hF⟩ := moor_dear hz hd
  obtain ⟨hA, hk⟩ := emptied_inv (A0 := x.1) (B0 := x.2) hz hst (fun o ho => by
    have h0 : o = ⌊position c x.1⌋₊ := by omega
    rw [h0]
    exact Or.inr (whole_paid hv hfl)) hF hx h
  have hp := position_nonneg hv y.1
  rcases Nat.lt_or_ge (x.2 + ⌊position c x.1⌋₊) y.2 with hlt | hge
  · have : ((x.2 + ⌊position c x.1⌋₊ : Nat) : ℝ) ≤ y.2 := by exact_mod_cast hlt.le
    push_cast at this
    linarith
  · obtain ⟨o, ho⟩ := Nat.exists_eq_add_of_le hge
    have h2 : ((x.2 + ⌊position c x.1⌋₊ : Nat) : ℝ) = y.2 + o := by exact_mod_cast ho
    rcases hk with hk | ⟨hk, hk0, hkf⟩
    · have h1 := (hk o ho.symm).covered.position hz (steeper_steep hst) (by omega) hslack
      push_cast at h2
      linarith
    · have h1 := hkf.position hz hk0
      have e : (y.2 : ℝ) = 0 := by exact_mod_cast hk
      push_cast at h1 h2
      linarith

/-- From a pool with 100 A: a sale of 3 and a purchase for the 16 A it paid. -/
example : Steep thirdCurve ∧ HistoryNonEmpty thirdCurve (100, 76) (100, 77) := by
  constructor
  · unfold Steep slope Spec.price thirdCurve
    simp only [show UInt64.toNat 1 = 1 from rfl, show UInt64.toNat 3 = 3 from rfl,
      show UInt64.toNat 7 = 7 from rfl]
    norm_num
  · refine (Relation.ReflTransGen.single (b := (84, 79)) ⟨PoolStep.sell (c := thirdCurve) (A := 100)
      (B := 76) 3 ⟨3, 16⟩ (by decide) (by decide +kernel) (by decide) (by decide), by decide⟩).tail
      ⟨?_, by decide⟩
    exact PoolStep.buy (c := thirdCurve) (A := 84) (B := 79) 16 ⟨16, 2⟩ (by decide) (by decide +kernel)
      (by decide) (by decide)

/-- With 100 in the vault the last token is dear wherever the pool stands; the pool is emptied here. -/
example : Dear thirdCurve (100 + ⌊position thirdCurve 0⌋₊) ∧ History thirdCurve (0, 100) (1681, 0) := by
  constructor
  · have hn : (0 : ℚ) ≤ (⌊position thirdCurve 0⌋₊ : ℚ) := Nat.cast_nonneg _
    unfold Dear
    push_cast
    generalize (⌊position thirdCurve 0⌋₊ : ℚ) = n at *
    unfold slope Spec.price thirdCurve
    simp only [show UInt64.toNat 1 = 1 from rfl, show UInt64.toNat 3 = 3 from rfl,
      show UInt64.toNat 7 = 7 from rfl]
    push_cast
    linarith
  · exact Relation.ReflTransGen.single (PoolStep.buy (c := thirdCurve) (A := 0) (B := 100) 2000
      ⟨1681, 100⟩ (by decide) (by decide +kernel) (by decide) (by decide))

/-- Positions this close are worth that much. -/
theorem drop_le {c : LinearPriceCurve} (hv : isCurveParamValid c = .ok ()) {A A' : Nat} {d : ℝ} (hd : 0 ≤ d)
    (h : position c A ≤ position c A' + d) : (A : ℝ) - A' ≤ d * marginal c A := by
  have hm := marginal_nonneg c A
  by_cases hlt : A ≤ A'
  · have h1 : (A : ℝ) ≤ A' := by exact_mod_cast hlt
    have h2 : 0 ≤ d * marginal c A := by positivity
    linarith
  · have hlt' : A' < A := Nat.lt_of_not_le hlt
    have h2 := position_step (c := c) hv A' (A - A')
    have h3 := meanPrice_pos (c := c) hv (A := A') (s := A - A') (by omega)
    rw [show A' + (A - A') = A by omega] at h2 h3
    rw [Nat.cast_sub hlt'.le] at h2
    have h5 : meanPrice c A' A ≤ marginal c A := by
      have := marginal_mono (c := c) hv hlt'.le
      unfold meanPrice; linarith
    rw [← h2]
    exact mul_le_mul (by linarith) h5 h3.le (by positivity)

/-- C99, cycles: if in the end the vault has no more token B than at first, what has been taken out of
vault A, over all trades together, is at most the price of two and a half tokens. -/
theorem C99_cycle (c : LinearPriceCurve) (hv : isCurveParamValid c = .ok ()) (hst : Steep c)
    (x y : Nat × Nat) (hx : x.1 < 2 ^ 64) (h : HistoryNonEmpty c x y) (hB : y.2 ≤ x.2) :
    (x.1 : ℝ) - y.1 ≤ 5 / 2 * marginal c x.1 := by
  have h1 := C99_level c hv hst x y hx h
  obtain ⟨hpos, hslack, hone⟩ := slack_bounds hv
  have hfl := Nat.lt_floor_add_one (position c x.1)
  have hB' : (y.2 : ℝ) ≤ x.2 := by exact_mod_cast hB
  exact drop_le hv (by norm_num) (by linarith)

/-- C99 on chain: from any ledger that can occur, whatever anybody does, as long as vault B of the pool is
not emptied. -/
theorem C99_chain (env : Env) (K : Pubkey → Prop) (he : EnvOk env K) (w w' : World)
    (hR : Reachable env K w) (k : Pubkey) (s : SwapV1) (hp : PoolAt env w k s)
    (c : LinearPriceCurve) (hl : s.swap_curve = .linear c) (hst : Steep c)
    (h : Relation.ReflTransGen (fun u v => Step env K u v ∧ bal v s.token_b ≠ 0) w w') :
    (⌊position c (vaults w s).1⌋₊ : ℝ) + (vaults w s).2 ≤
      position c (vaults w' s).1 + (vaults w' s).2 + 1 / 10 ^ 18 / (slope c : ℝ) + 1 / 2 ∧
    ((vaults w' s).2 ≤ (vaults w s).2 →
      ((vaults w s).1 : ℝ) - (vaults w' s).1 ≤ 5 / 2 * marginal c (vaults w s).1) := by
  obtain ⟨w0, h0, hsteps⟩ := hR
  obtain ⟨hK, ⟨z, hc⟩, hcf⟩ := reachable_pool he h0 hsteps k s hp
  have hf : s.fees = ⟨0, 1, 0, 1, 0, 1, 0, 1⟩ := by
    rcases hcf.kind with ⟨p, e⟩ | ⟨_, _, e⟩
    · rw [hl] at e; cases e
    · exact e
  have hv := Exit.valid he ⟨w0, h0, hsteps⟩ hp hl
  have key : PoolAt env w' k s ∧ Custody env w' k s z ∧
      HistoryNonEmpty c (nbal w s.token_a, nbal w s.token_b) (nbal w' s.token_a, nbal w' s.token_b) := by
    induction h with
    | refl => exact ⟨hp, hc, .refl⟩
    | tail _ hstep ih =>
      obtain ⟨i1, i2, i3⟩ := ih
      have := step_pool i1 hstep.1
      refine ⟨poolAt_congr this.1 this.2 i1, i2.step hK hstep.1,
        i3.tail ⟨linear_step he hK i1 i2 hcf hl hf hstep.1, ?_⟩⟩
      intro e0
      have e2 := hstep.2
      rw [← nbal_cast] at e2
      exact e2 (by rw [show nbal _ s.token_b = 0 from e0]; rfl)
  have hist : HistoryNonEmpty c (vaults w s) (vaults w' s) := key.2.2
  have hx : (vaults w s).1 < 2 ^ 64 := nbal_lt w s.token_a
  exact ⟨C99_level c hv hst _ _ hx hist, C99_cycle c hv hst _ _ hx hist⟩

/-- C99 on chain when vault B may be emptied. -/
theorem C99_chain_emptied (env : Env) (K : Pubkey → Prop) (he : EnvOk env K) (w w' : World)
    (hR : Reachable env K w) (k : Pubkey) (s : SwapV1) (hp : PoolAt env w k s)
    (c : LinearPriceCurve) (hl : s.swap_curve = .linear c) (hst : Steeper c)
    (hd : Dear c ((vaults w s).2 + ⌊position c (vaults w s).1⌋₊)) (h : Steps env K w w') :
    (⌊position c (vaults w s).1⌋₊ : ℝ) + (vaults w s).2 ≤
      position c (vaults w' s).1 + (vaults w' s).2 + 1 / 10 ^ 18 / (slope c : ℝ) + 1 / 2 := by
  obtain ⟨w0, h0, hsteps⟩ := hR
  obtain ⟨hK, ⟨z, hc⟩, hcf⟩ := reachable_pool he h0 hsteps k s hp
  have hf : s.fees = ⟨0, 1, 0, 1, 0, 1, 0, 1⟩ := by
    rcases hcf.kind with ⟨p, e⟩ | ⟨_, _, e⟩
    · rw [hl] at e; cases e
    · exact e
  have hv := Exit.valid he ⟨w0, h0, hsteps⟩ hp hl
  obtain ⟨_, _, hist⟩ := linear_history he hK hp hc hcf hl hf h
  exact C99_emptied c hv hst (vaults w s) (vaults w' s) (nbal_lt w s.token_a) hd hist

theorem level_buy : Step Sample.env samplePools live (ranTo [pathBuy] live) := by
  have h : exec Sample.env [Sample.key 1, Sample.key 2, Sample.key 50] pathBuy live =
      .ok (ranTo [pathBuy] live) := exec_ranTo (by decide +kernel)
  refine Step.instr (K := samplePools) [Sample.key 1, Sample.key 2, Sample.key 50] pathBuy ?_
    sample_signers ?_
  · exact Or.inl rfl
  · exact h

theorem level_sell : Step Sample.env samplePools (ranTo [pathBuy] live)
    (ranTo [pathSell] (ranTo [pathBuy] live)) := by
  have h : exec Sample.env [Sample.key 1, Sample.key 2, Sample.key 50] pathSell (ranTo [pathBuy] live) =
      .ok (ranTo [pathSell] (ranTo [pathBuy] live)) := exec_ranTo (by decide +kernel)
  refine Step.instr (K := samplePools) [Sample.key 1, Sample.key 2, Sample.key 50] pathSell ?_
    sample_signers ?_
  · exact Or.inl rfl
  · exact h

/-- The purchase and the sale of C74's example. -/
example : Reachable Sample.env samplePools live ∧ PoolAt Sample.env live (Sample.key 1) pool1 ∧
    Relation.ReflTransGen (fun u v => Step Sample.env samplePools u v ∧ bal v pool1.token_b ≠ 0) live
      (ranTo [pathSell] (ranTo [pathBuy] live)) :=
  ⟨live_reachable, live_pool1, (Relation.ReflTransGen.single (b := ranTo [pathBuy] live)
    ⟨level_buy, by decide +kernel⟩).tail ⟨level_sell, by decide +kernel⟩⟩

end Props
end Verif
