import Verif.Spec.Calm
import Verif.Props.Front
import Verif.Props.Level

/-
C89 on steep curves, with a limit that does not depend on how often the others trade.
-/

namespace Verif
namespace Props
open Spec Processor
open Linear hiding price marginal_sq position_nonneg

theorem calm_steps {env : Env} {K : Pubkey → Prop} {s : SwapV1} {w u : World} (h : Calm env K s w u) :
    Steps env K w u := by
  induction h with
  | refl => exact .refl
  | tail _ hstep ih => exact ih.tail hstep.1

/-- As `between`. -/
theorem between_calm {env : Env} {K : Pubkey → Prop} (he : EnvOk env K) {w u u' w' : World}
    (hR : Reachable env K w) {s : SwapV1} {signers : List Pubkey} {a : SwapAccounts} {x y : UInt64}
    (hp : PoolAt env w a.swap s) {c : LinearPriceCurve} (hl : s.swap_curve = .linear c)
    (hst : Steep c) (before : Calm env K s w u)
    (hs : ∀ z ∈ signers, ¬ IsPda env K z) (h : exec env signers (.swap a x y) u = .ok u')
    (hlv : bal u' s.token_b ≠ 0) (after : Calm env K s u' w') :
    isCurveParamValid c = .ok () ∧ s.token_a ≠ s.token_b ∧
    (⌊position c (vaults w s).1⌋₊ : ℝ) + (vaults w s).2 ≤
      position c (vaults w' s).1 + (vaults w' s).2 + 1 / 10 ^ 18 / (slope c : ℝ) + 1 / 2 ∧
    ∃ t d : Nat, t ≤ x.toNat ∧ y.toNat ≤ d ∧
      ((a.swapSource = s.token_a ∧ (vaults u' s).1 = (vaults u s).1 + t ∧
        (vaults u' s).2 + d = (vaults u s).2) ∨
       (a.swapSource = s.token_b ∧ (vaults u' s).2 = (vaults u s).2 + t ∧
        (vaults u' s).1 + d = (vaults u s).1)) := by
  have hv := Exit.valid he hR hp hl
  obtain ⟨w0, h0, hst0⟩ := hR
  obtain ⟨hK, ⟨z, hc⟩, hcf⟩ := reachable_pool he h0 hst0 _ s hp
  have all : Calm env K s w w' :=
    (before.tail ⟨Step.instr signers (.swap a x y) hK hs h, hlv⟩).trans after
  have tot := (C99_chain env K he w w' ⟨w0, h0, hst0⟩ a.swap s hp c hl hst all).1
  have hRu : Reachable env K u := ⟨w0, h0, hst0.trans (calm_steps before)⟩
  have hpu : PoolAt env u a.swap s := by
    clear after all tot h hlv
    induction before with
    | refl => exact hp
    | tail hb hstep ih =>
      have i1 := ih ⟨w0, h0, hst0.trans (calm_steps hb)⟩
      have := step_pool i1 hstep.1
      exact poolAt_congr this.1 this.2 i1
  refine ⟨hv, ne_of_mint hc.vaultA.mint hc.vaultB.mint hc.mints, tot, ?_⟩
  obtain ⟨dir, t, d, e1, e2, ht, hy, b1, b2⟩ :=
    C84_ledger env K he u u' hRu signers hs a x y s c hpu hl h
  have hq := C84_trade c hv x.toNat (bal u (vaultIn s dir)).toNat (bal u (vaultOut s dir)).toNat
    (UInt64.toNat_lt _) (nbal_lt _ _) (nbal_lt _ _) dir
  rw [ht] at hq
  have n1 := nbal_cast u (vaultIn s dir)
  have n2 := nbal_cast u (vaultOut s dir)
  have n3 := nbal_cast u' (vaultIn s dir)
  have n4 := nbal_cast u' (vaultOut s dir)
  unfold nbal at n1 n2 n3 n4
  cases dir with
  | AtoB =>
    have hx : t ≤ x.toNat := by
      rcases C97_buy c hv _ _ _ _ (UInt64.toNat_lt _) (nbal_lt _ _) hq with ⟨e, _⟩ | ⟨_, e, _⟩
      · exact le_of_eq e
      · exact e
    refine ⟨t, d, hx, hy, Or.inl ⟨e1, ?_, ?_⟩⟩ <;>
      simp only [vaults, vaultIn, vaultOut] at * <;> omega
  | BtoA =>
    have hx : t ≤ x.toNat := by
      rcases C97_sell c hv _ _ _ _ (nbal_lt _ _) hq with ⟨e, _⟩ | ⟨_, e, _⟩
      · exact le_of_eq e
      · exact e
    refine ⟨t, d, hx, hy, Or.inr ⟨e1, ?_, ?_⟩⟩ <;>
      simp only [vaults, vaultIn, vaultOut] at * <;> omega

theorem notch_eq {c : LinearPriceCurve} (hv : isCurveParamValid c = .ok ()) :
    1 / 10 ^ 18 / (slope c : ℝ) = notch c := by
  have := slope_pos hv
  unfold notch
  field_simp

/-- C89 on steep curves.  A purchase: somebody offers `x` token A for at least `y` token B; before and after
it anything happens that does not empty vault B.  If the others have not parted with token B on balance,
they have gained no more token A than the offer exceeds the exact cost of the `y` token B asked for, from
the whole part of the position of the beginning less one half and `10^-18` over the slope, however many
instructions they used. -/
theorem C89_purchase_many (env : Env) (K : Pubkey → Prop) (he : EnvOk env K) (w u u' w' : World)
    (hR : Reachable env K w) (s : SwapV1) (signers : List Pubkey) (a : SwapAccounts) (x y : UInt64)
    (hp : PoolAt env w a.swap s) (c : LinearPriceCurve) (hl : s.swap_curve = .linear c)
    (hst : Steep c) (before : Calm env K s w u)
    (hs : ∀ z ∈ signers, ¬ IsPda env K z) (h : exec env signers (.swap a x y) u = .ok u')
    (hlv : bal u' s.token_b ≠ 0) (after : Calm env K s u' w') (hbuy : a.swapSource = s.token_a)
    (hB : (vaults w' s).2 + ((vaults u s).2 - (vaults u' s).2) ≤ (vaults w s).2) :
    ((vaults w s).1 : ℝ) + ((vaults u' s).1 - (vaults u s).1) - (vaults w' s).1 ≤
      x.toNat - (costR c (max 0 (⌊position c (vaults w s).1⌋₊ + y.toNat - 1 / 10 ^ 18 / (slope c : ℝ) -
        1 / 2)) - (vaults w s).1) := by
  obtain ⟨hv, hab, tot, t, d, ht, hd, ⟨_, e1, e2⟩ | ⟨e, _⟩⟩ :=
    between_calm he hR hp hl hst before hs h hlv after
  swap
  · exact absurd (hbuy.symm.trans e) hab
  have hq : max 0 (⌊position c (vaults w s).1⌋₊ + y.toNat - 1 / 10 ^ 18 / (slope c : ℝ) - 1 / 2) ≤
      position c (vaults w' s).1 := by
    apply max_le (position_nonneg hv _)
    have h1 : (vaults w' s).2 + y.toNat ≤ (vaults w s).2 := by omega
    have h2 : ((vaults w' s).2 : ℝ) + y.toNat ≤ (vaults w s).2 := by exact_mod_cast h1
    linarith
  have hc := costR_mono hv (le_max_left _ _) hq
  rw [costR_position hv] at hc
  have h3 : ((vaults u' s).1 : ℝ) ≤ (vaults u s).1 + x.toNat := by
    have : (vaults u' s).1 ≤ (vaults u s).1 + x.toNat := by omega
    exact_mod_cast this
  linarith

/-- C89 on steep curves.  A sale: somebody offers `x` token B for at least `y` token A. -/
theorem C89_sale_many (env : Env) (K : Pubkey → Prop) (he : EnvOk env K) (w u u' w' : World)
    (hR : Reachable env K w) (s : SwapV1) (signers : List Pubkey) (a : SwapAccounts) (x y : UInt64)
    (hp : PoolAt env w a.swap s) (c : LinearPriceCurve) (hl : s.swap_curve = .linear c)
    (hst : Steep c) (before : Calm env K s w u)
    (hs : ∀ z ∈ signers, ¬ IsPda env K z) (h : exec env signers (.swap a x y) u = .ok u')
    (hlv : bal u' s.token_b ≠ 0) (after : Calm env K s u' w') (hsell : a.swapSource = s.token_b)
    (hB : (vaults w' s).2 ≤ (vaults w s).2 + ((vaults u' s).2 - (vaults u s).2)) :
    ((vaults w s).1 : ℝ) - ((vaults u s).1 - (vaults u' s).1) - (vaults w' s).1 ≤
      (vaults w s).1 - costR c (max 0 (⌊position c (vaults w s).1⌋₊ - x.toNat -
        1 / 10 ^ 18 / (slope c : ℝ) - 1 / 2)) - y.toNat := by
  obtain ⟨hv, hab, tot, t, d, ht, hd, ⟨e, _⟩ | ⟨_, e1, e2⟩⟩ :=
    between_calm he hR hp hl hst before hs h hlv after
  · exact absurd (e.symm.trans hsell) hab
  have hq : max 0 (⌊position c (vaults w s).1⌋₊ - x.toNat - 1 / 10 ^ 18 / (slope c : ℝ) - 1 / 2) ≤
      position c (vaults w' s).1 := by
    apply max_le (position_nonneg hv _)
    have h1 : (vaults w' s).2 ≤ (vaults w s).2 + x.toNat := by omega
    have h2 : ((vaults w' s).2 : ℝ) ≤ (vaults w s).2 + x.toNat := by exact_mod_cast h1
    linarith
  have hc := costR_mono hv (le_max_left _ _) hq
  rw [costR_position hv] at hc
  have h3 : ((vaults u' s).1 : ℝ) + y.toNat ≤ (vaults u s).1 := by
    have : (vaults u' s).1 + y.toNat ≤ (vaults u s).1 := by omega
    exact_mod_cast this
  linarith

/-- C89 on steep curves.  A purchase that asks for what the pool quoted at the beginning: the others gain at
most the price of two and a half token B and of the allowances of C97, however often they trade. -/
theorem C89_quoted_purchase_many (env : Env) (K : Pubkey → Prop) (he : EnvOk env K) (w u u' w' : World)
    (hR : Reachable env K w) (s : SwapV1) (signers : List Pubkey) (a : SwapAccounts) (x y : UInt64)
    (hp : PoolAt env w a.swap s) (c : LinearPriceCurve) (hl : s.swap_curve = .linear c)
    (hst : Steep c) (before : Calm env K s w u)
    (hs : ∀ z ∈ signers, ¬ IsPda env K z) (h : exec env signers (.swap a x y) u = .ok u')
    (hlv : bal u' s.token_b ≠ 0) (after : Calm env K s u' w') (hbuy : a.swapSource = s.token_a)
    (hB : (vaults w' s).2 + ((vaults u s).2 - (vaults u' s).2) ≤ (vaults w s).2)
    (r : SwapWithoutFeesResult)
    (hq : Linear.swapWithoutFees c x.toNat (vaults w s).1 (vaults w s).2 .AtoB = .ok r)
    (hne : r.destination_amount_swapped ≠ (vaults w s).2)
    (hy : y.toNat = r.destination_amount_swapped) :
    ((vaults w s).1 : ℝ) + ((vaults u' s).1 - (vaults u s).1) - (vaults w' s).1 ≤
      (5 / 2 + blur c (vaults w s).1 + blur c ((vaults w s).1 + x.toNat) +
        grain c ((vaults w s).1 + x.toNat) + 2 * notch c + 1 / 10 ^ 18) *
        marginal c ((vaults w s).1 + x.toNat) := by
  have key := C89_purchase_many env K he w u u' w' hR s signers a x y hp c hl hst before hs h hlv after
    hbuy hB
  have hv := Exit.valid he hR hp hl
  have hA : (vaults w s).1 < 2 ^ 64 := nbal_lt w s.token_a
  rcases C97_buy c hv _ _ _ _ (UInt64.toNat_lt _) hA hq with ⟨_, _, h1⟩ | ⟨e, _⟩
  swap
  · exact absurd e hne
  rw [← hy] at h1
  have b0 := blur_nonneg hv (vaults w s).1
  have b1 := blur_nonneg hv ((vaults w s).1 + x.toNat)
  have g1 := grain_nonneg hv ((vaults w s).1 + x.toNat)
  have n1 := notch_nonneg hv
  have m0 := marginal_nonneg c ((vaults w s).1 + x.toNat)
  have eP := costR_position hv ((vaults w s).1 + x.toNat)
  have eM := price_at hv ((vaults w s).1 + x.toNat)
  have eN := notch_eq hv
  have hfl := Nat.lt_floor_add_one (position c (vaults w s).1)
  rw [eN] at key
  generalize hP : position c ((vaults w s).1 + x.toNat) = P at *
  generalize hQ : max 0 (⌊position c (vaults w s).1⌋₊ + y.toNat - notch c - 1 / 2) = Q at *
  have hQ1 : ⌊position c (vaults w s).1⌋₊ + y.toNat - notch c - 1 / 2 ≤ Q := hQ ▸ le_max_right _ _
  have hgap : P - Q ≤ 5 / 2 + blur c (vaults w s).1 + blur c ((vaults w s).1 + x.toNat) +
      grain c ((vaults w s).1 + x.toNat) + 2 * notch c + 1 / 10 ^ 18 := by linarith
  have hgain : ((vaults w s).1 : ℝ) + ((vaults u' s).1 - (vaults u s).1) - (vaults w' s).1 ≤
      costR c P - costR c Q := by
    push_cast at eP
    linarith
  refine hgain.trans ?_
  have hpos : 0 ≤ 5 / 2 + blur c (vaults w s).1 + blur c ((vaults w s).1 + x.toNat) +
      grain c ((vaults w s).1 + x.toNat) + 2 * notch c + 1 / 10 ^ 18 := by positivity
  by_cases hle : Q ≤ P
  · have h2 := costR_sub_le hv P Q
    rw [eM] at h2
    exact h2.trans (mul_le_mul_of_nonneg_right hgap m0)
  · have h2 := costR_mono hv (hP ▸ position_nonneg hv _) (le_of_not_ge hle)
    have h3 := mul_nonneg hpos m0
    linarith

/-- C89 on steep curves.  A sale that asks for what the pool quoted at the beginning. -/
theorem C89_quoted_sale_many (env : Env) (K : Pubkey → Prop) (he : EnvOk env K) (w u u' w' : World)
    (hR : Reachable env K w) (s : SwapV1) (signers : List Pubkey) (a : SwapAccounts) (x y : UInt64)
    (hp : PoolAt env w a.swap s) (c : LinearPriceCurve) (hl : s.swap_curve = .linear c)
    (hst : Steep c) (before : Calm env K s w u)
    (hs : ∀ z ∈ signers, ¬ IsPda env K z) (h : exec env signers (.swap a x y) u = .ok u')
    (hlv : bal u' s.token_b ≠ 0) (after : Calm env K s u' w') (hsell : a.swapSource = s.token_b)
    (hB : (vaults w' s).2 ≤ (vaults w s).2 + ((vaults u' s).2 - (vaults u s).2))
    (r : SwapWithoutFeesResult)
    (hq : Linear.swapWithoutFees c x.toNat (vaults w s).2 (vaults w s).1 .BtoA = .ok r)
    (hne : r.destination_amount_swapped ≠ (vaults w s).1)
    (hy : y.toNat = r.destination_amount_swapped) :
    ((vaults w s).1 : ℝ) - ((vaults u s).1 - (vaults u' s).1) - (vaults w' s).1 ≤
      1 + 1 / 10 ^ 18 + (5 / 2 + blur c (vaults w s).1 + 2 * notch c) * marginal c (vaults w s).1 := by
  have key := C89_sale_many env K he w u u' w' hR s signers a x y hp c hl hst before hs h hlv after
    hsell hB
  have hv := Exit.valid he hR hp hl
  have hA : (vaults w s).1 < 2 ^ 64 := nbal_lt w s.token_a
  have hy0 := (swapWithoutFees_sell hq).2.2
  rcases C97_sell c hv _ _ _ _ hA hq with ⟨_, b, _, h2, h3, h3'⟩ | ⟨e, _⟩
  swap
  · exact absurd e hne
  rw [← hy] at h3 h3' hy0
  have hy1 : (1 : ℝ) ≤ y.toNat := by exact_mod_cast Nat.one_le_iff_ne_zero.2 hy0
  have b0 := blur_nonneg hv (vaults w s).1
  have n1 := notch_nonneg hv
  have m0 := marginal_nonneg c (vaults w s).1
  have eN := notch_eq hv
  have hfl := Nat.lt_floor_add_one (position c (vaults w s).1)
  rw [eN] at key
  have hb : (b : ℝ) ≤ position c (vaults w s).1 := by
    by_contra hc
    have h4 := costR_mono hv (position_nonneg hv _) (le_of_not_ge hc)
    rw [costR_position hv] at h4
    norm_num at h3'
    linarith
  generalize hQ : max 0 (⌊position c (vaults w s).1⌋₊ - x.toNat - notch c - 1 / 2) = Q at *
  have hQ1 : ⌊position c (vaults w s).1⌋₊ - x.toNat - notch c - 1 / 2 ≤ Q := hQ ▸ le_max_right _ _
  have hgain : ((vaults w s).1 : ℝ) - ((vaults u s).1 - (vaults u' s).1) - (vaults w' s).1 ≤
      1 + 1 / 10 ^ 18 + (costR c b - costR c Q) := by linarith
  refine hgain.trans ?_
  have hpos : 0 ≤ 5 / 2 + blur c (vaults w s).1 + 2 * notch c := by positivity
  have goal : costR c b - costR c Q ≤
      (5 / 2 + blur c (vaults w s).1 + 2 * notch c) * marginal c (vaults w s).1 := by
    by_cases hle : Q ≤ b
    · have h4 := costR_sub_le hv b Q
      have h5 : (slope c : ℝ) * b + (Spec.price c : ℝ) ≤ marginal c (vaults w s).1 := by
        rw [← price_at hv]
        have := mul_le_mul_of_nonneg_left hb (slope_pos hv).le
        linarith
      have h6 : (0 : ℝ) ≤ b - Q := by linarith
      have h7 : b - Q ≤ 5 / 2 + blur c (vaults w s).1 + 2 * notch c := by linarith
      calc costR c b - costR c Q ≤ (b - Q) * ((slope c : ℝ) * b + (Spec.price c : ℝ)) := h4
        _ ≤ (b - Q) * marginal c (vaults w s).1 := mul_le_mul_of_nonneg_left h5 h6
        _ ≤ _ := mul_le_mul_of_nonneg_right h7 m0
    · have h4 := costR_mono hv (Nat.cast_nonneg b) (le_of_not_ge hle)
      have h5 := mul_nonneg hpos m0
      linarith
  linarith

theorem front_in {x y : UInt64} {w : World} (h : isOk (Sample.run Sample.env [.swap frontIn x y] w) = true) :
    Step Sample.env samplePools w (front frontIn x y w) := by
  have h' : exec Sample.env [Sample.key 1, Sample.key 2, Sample.key 50] (.swap frontIn x y) w =
      .ok (front frontIn x y w) := exec_ranTo h
  refine Step.instr (K := samplePools) [Sample.key 1, Sample.key 2, Sample.key 50] (.swap frontIn x y) ?_
    sample_signers ?_
  · exact Or.inl rfl
  · exact h'

theorem front_out {x y : UInt64} {w : World} (h : isOk (Sample.run Sample.env [.swap frontOut x y] w) = true) :
    Step Sample.env samplePools w (front frontOut x y w) := by
  have h' : exec Sample.env [Sample.key 1, Sample.key 2, Sample.key 50] (.swap frontOut x y) w =
      .ok (front frontOut x y w) := exec_ranTo h
  refine Step.instr (K := samplePools) [Sample.key 1, Sample.key 2, Sample.key 50] (.swap frontOut x y) ?_
    sample_signers ?_
  · exact Or.inl rfl
  · exact h'

/-- The purchase and the sale around somebody's purchase of `front_gain`. -/
example : Steep Sample.lin ∧ Calm Sample.env samplePools pool1 live front1 ∧
    Calm Sample.env samplePools pool1 front2 front3 ∧ bal front2 pool1.token_b ≠ 0 ∧
    (vaults front3 pool1).2 + ((vaults front1 pool1).2 - (vaults front2 pool1).2) ≤
      (vaults live pool1).2 := by
  refine ⟨?_, .single (b := front1) ⟨front_in (by decide +kernel), by decide +kernel⟩,
    .single (b := front3) ⟨front_out (by decide +kernel), by decide +kernel⟩, by decide +kernel,
    by decide +kernel⟩
  unfold Steep
  decide +kernel

/-- The quoted purchase of `quoted1` to `quoted3`. -/
example : ((vaults live pool1).1 : ℝ) + ((vaults quoted2 pool1).1 - (vaults quoted1 pool1).1) -
    (vaults quoted3 pool1).1 ≤
      (5 / 2 + blur Sample.lin (vaults live pool1).1 +
        blur Sample.lin ((vaults live pool1).1 + (100 : UInt64).toNat) +
        grain Sample.lin ((vaults live pool1).1 + (100 : UInt64).toNat) + 2 * notch Sample.lin +
          1 / 10 ^ 18) *
        marginal Sample.lin ((vaults live pool1).1 + (100 : UInt64).toNat) :=
  C89_quoted_purchase_many Sample.env samplePools sample_ok live quoted1 quoted2 quoted3 live_reachable
    pool1 [Sample.key 1, Sample.key 2, Sample.key 50] frontIn 100 6 live_pool1 Sample.lin rfl
    (by unfold Steep; decide +kernel)
    (.single (b := quoted1) ⟨front_out (by decide +kernel), by decide +kernel⟩)
    sample_signers (exec_ranTo (by decide +kernel)) (by decide +kernel)
    (.single (b := quoted3) ⟨front_in (by decide +kernel), by decide +kernel⟩) rfl
    (by decide +kernel) ⟨100, 6⟩ (by decide +kernel) (by decide +kernel) rfl

end Props
end Verif
