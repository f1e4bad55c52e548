import Verif.Props.Path
import Verif.Props.Plain

/-
C89: what the other traders can gain from somebody's purchase or sale on a linear pool, by trading
before and after it, is limited by the limit that person has set.
-/

namespace Verif
namespace Props

open Spec Processor
open Linear hiding price

theorem meanwhile_trans {env : Env} {K : Pubkey → Prop} {k : Pubkey} {s : SwapV1}
    {u v w : World} {n m : Nat} (h1 : Meanwhile env K k s u n v) (h2 : Meanwhile env K k s v m w) :
    Meanwhile env K k s u (n + m) w := by
  induction h2 with
  | start => exact h1
  | other _ he ih => exact .other ih he
  | elsewhere signers i _ hi hs hne hex ih => exact .elsewhere signers i ih hi hs hne hex
  | here signers i _ hs hk hex hlv ih => exact .here signers i ih hs hk hex hlv

theorem meanwhile_steps {env : Env} {K : Pubkey → Prop} {k : Pubkey} {s : SwapV1}
    (hK : K k) {v w : World} {n : Nat} (h : Meanwhile env K k s v n w) : Steps env K v w := by
  induction h with
  | start => exact .refl
  | other _ he ih => exact .tail ih (.other he)
  | elsewhere signers i _ hi hs hne hex ih => exact .tail ih (.instr signers i hi hs hex)
  | here signers i _ hs hk hex hlv ih => exact .tail ih (.instr signers i (hk ▸ hK) hs hex)

/-- Between two positions the exact cost rises by at most the distance times the higher price. -/
theorem costR_sub_le {c : LinearPriceCurve} (hv : isCurveParamValid c = .ok ()) (p q : ℝ) :
    costR c p - costR c q ≤ (p - q) * ((slope c : ℝ) * p + (Spec.price c : ℝ)) := by
  have hs := slope_pos hv
  unfold costR
  nlinarith [mul_nonneg hs.le (sq_nonneg (p - q))]

theorem price_at {c : LinearPriceCurve} (hv : isCurveParamValid c = .ok ()) (A : Nat) :
    (slope c : ℝ) * position c A + (Spec.price c : ℝ) = marginal c A := by
  have hs := slope_pos hv
  unfold position
  field_simp
  ring

theorem costR_position {c : LinearPriceCurve} (hv : isCurveParamValid c = .ok ()) (A : Nat) :
    costR c (position c A) = A :=
  (C45_position_unique c hv A (position c A) (position_nonneg hv _)).2 rfl

/-- Somebody's trade among those of others: what it did to the vaults, and what all trades together
did. -/
theorem between {env : Env} {K : Pubkey → Prop} (he : EnvOk env K) {w u u' w' : World}
    (hR : Reachable env K w) {s : SwapV1} {signers : List Pubkey} {a : SwapAccounts} {x y : UInt64}
    (hp : PoolAt env w a.swap s) {c : LinearPriceCurve} (hl : s.swap_curve = .linear c)
    (hr : Representable c) {n m : Nat} (before : Meanwhile env K a.swap s w n u)
    (hs : ∀ z ∈ signers, ¬ IsPda env K z) (h : exec env signers (.swap a x y) u = .ok u')
    (hlv : Leaves (vaults u s) (vaults u' s)) (after : Meanwhile env K a.swap s u' m w') :
    isCurveParamValid c = .ok () ∧ s.token_a ≠ s.token_b ∧
    position c (vaults w s).1 + (vaults w s).2 - (n + m + 1) / 10 ^ 18 ≤
      position c (vaults w' s).1 + (vaults w' s).2 ∧
    ∃ t d : Nat, t ≤ x.toNat ∧ y.toNat ≤ d ∧
      ((a.swapSource = s.token_a ∧ (vaults u' s).1 = (vaults u s).1 + t ∧
        (vaults u' s).2 + d = (vaults u s).2) ∨
       (a.swapSource = s.token_b ∧ (vaults u' s).2 = (vaults u s).2 + t ∧
        (vaults u' s).1 + d = (vaults u s).1)) := by
  have hv := Exit.valid he hR hp hl
  have all := meanwhile_trans (.here signers _ before hs rfl h hlv) after
  obtain ⟨w0, h0, hst⟩ := hR
  obtain ⟨hK, ⟨z, hc⟩, hcf⟩ := reachable_pool he h0 hst _ s hp
  have hf : s.fees = ⟨0, 1, 0, 1, 0, 1, 0, 1⟩ := by
    rcases hcf.kind with ⟨p, e⟩ | ⟨_, _, e⟩
    · rw [hl] at e; cases e
    · exact e
  obtain ⟨hpu, hcu, _⟩ := meanwhile_trades he hK hp hc hcf hl hf before
  have hRu : Reachable env K u := ⟨w0, h0, hst.trans (meanwhile_steps hK before)⟩
  have tot := (C74_chain env K he w w' ⟨w0, h0, hst⟩ a.swap s hp c hl hr _ all).1
  refine ⟨hv, ne_of_mint hc.vaultA.mint hc.vaultB.mint hc.mints, ?_, ?_⟩
  · push_cast at tot
    have e : (n : ℝ) + 1 + m = n + m + 1 := by ring
    rw [e] at tot
    exact tot
  · obtain ⟨dir, t, d, e1, e2, ht, hy, b1, b2⟩ :=
      C84_ledger env K he u u' hRu signers hs a x y s c hpu hl h
    have hq := C84_trade c hv x.toNat (bal u (vaultIn s dir)).toNat (bal u (vaultOut s dir)).toNat
      (UInt64.toNat_lt _) (nbal_lt _ _) (nbal_lt _ _) dir
    rw [ht] at hq
    have n1 := nbal_cast u (vaultIn s dir)
    have n2 := nbal_cast u (vaultOut s dir)
    have n3 := nbal_cast u' (vaultIn s dir)
    have n4 := nbal_cast u' (vaultOut s dir)
    unfold nbal at n1 n2 n3 n4
    cases dir with
    | AtoB =>
      have hx : t ≤ x.toNat := by
        rcases C46_buy c hv hr _ _ _ _ (UInt64.toNat_lt _) (nbal_lt _ _) hq with ⟨e, _⟩ | ⟨_, e, _⟩
        · exact le_of_eq e
        · exact e
      refine ⟨t, d, hx, hy, Or.inl ⟨e1, ?_, ?_⟩⟩ <;>
        simp only [vaults, vaultIn, vaultOut] at * <;> omega
    | BtoA =>
      have hx : t ≤ x.toNat := by
        rcases C47_sell c hv hr _ _ _ _ (nbal_lt _ _) hq with ⟨e, _⟩ | ⟨_, e, _⟩
        · exact le_of_eq e
        · exact e
      refine ⟨t, d, hx, hy, Or.inr ⟨e1, ?_, ?_⟩⟩ <;>
        simp only [vaults, vaultIn, vaultOut] at * <;> omega

/-- C89.  A purchase: somebody offers `x` token A for at least `y` token B, with `n` instructions of
others on the pool before and `m` after.  If the others have not parted with token B on balance, they
have gained no more token A than the offer exceeds the exact cost, at the position of the beginning,
of the `y` token B asked for (less `10^-18` token B per instruction). -/
theorem C89_purchase (env : Env) (K : Pubkey → Prop) (he : EnvOk env K) (w u u' w' : World)
    (hR : Reachable env K w) (s : SwapV1) (signers : List Pubkey) (a : SwapAccounts) (x y : UInt64)
    (hp : PoolAt env w a.swap s) (c : LinearPriceCurve) (hl : s.swap_curve = .linear c)
    (hr : Representable c) (n m : Nat) (before : Meanwhile env K a.swap s w n u)
    (hs : ∀ z ∈ signers, ¬ IsPda env K z) (h : exec env signers (.swap a x y) u = .ok u')
    (hlv : Leaves (vaults u s) (vaults u' s)) (after : Meanwhile env K a.swap s u' m w')
    (hbuy : a.swapSource = s.token_a)
    (hB : (vaults w' s).2 + ((vaults u s).2 - (vaults u' s).2) ≤ (vaults w s).2) :
    ((vaults w s).1 : ℝ) + ((vaults u' s).1 - (vaults u s).1) - (vaults w' s).1 ≤
      x.toNat - (costR c (max 0 (position c (vaults w s).1 + y.toNat - (n + m + 1) / 10 ^ 18)) -
        (vaults w s).1) := by
  obtain ⟨hv, hab, tot, t, d, ht, hd, ⟨_, e1, e2⟩ | ⟨e, _⟩⟩ :=
    between he hR hp hl hr before hs h hlv after
  swap
  · exact absurd (hbuy.symm.trans e) hab
  have hq : max 0 (position c (vaults w s).1 + y.toNat - (n + m + 1) / 10 ^ 18) ≤
      position c (vaults w' s).1 := by
    apply max_le (position_nonneg hv _)
    have h1 : (vaults w' s).2 + y.toNat ≤ (vaults w s).2 := by omega
    have h2 : ((vaults w' s).2 : ℝ) + y.toNat ≤ (vaults w s).2 := by exact_mod_cast h1
    linarith
  have hc := costR_mono hv (le_max_left _ _) hq
  rw [costR_position hv] at hc
  have h3 : ((vaults u' s).1 : ℝ) ≤ (vaults u s).1 + x.toNat := by
    have : (vaults u' s).1 ≤ (vaults u s).1 + x.toNat := by omega
    exact_mod_cast this
  linarith

/-- C89.  A purchase that asks for what the pool quoted at the beginning: the others gain at most the
price of one token B and of the rounding. -/
theorem C89_quoted_purchase (env : Env) (K : Pubkey → Prop) (he : EnvOk env K) (w u u' w' : World)
    (hR : Reachable env K w) (s : SwapV1) (signers : List Pubkey) (a : SwapAccounts) (x y : UInt64)
    (hp : PoolAt env w a.swap s) (c : LinearPriceCurve) (hl : s.swap_curve = .linear c)
    (hr : Representable c) (n m : Nat) (before : Meanwhile env K a.swap s w n u)
    (hs : ∀ z ∈ signers, ¬ IsPda env K z) (h : exec env signers (.swap a x y) u = .ok u')
    (hlv : Leaves (vaults u s) (vaults u' s)) (after : Meanwhile env K a.swap s u' m w')
    (hbuy : a.swapSource = s.token_a)
    (hB : (vaults w' s).2 + ((vaults u s).2 - (vaults u' s).2) ≤ (vaults w s).2)
    (r : SwapWithoutFeesResult)
    (hq : Linear.swapWithoutFees c x.toNat (vaults w s).1 (vaults w s).2 .AtoB = .ok r)
    (hne : r.destination_amount_swapped ≠ (vaults w s).2)
    (hy : y.toNat = r.destination_amount_swapped) :
    ((vaults w s).1 : ℝ) + ((vaults u' s).1 - (vaults u s).1) - (vaults w' s).1 ≤
      (1 + blur c (vaults w s).1 + blur c ((vaults w s).1 + x.toNat) + (n + m + 2) / 10 ^ 18) *
        marginal c ((vaults w s).1 + x.toNat) := by
  have key := C89_purchase env K he w u u' w' hR s signers a x y hp c hl hr n m before hs h hlv after
    hbuy hB
  have hv := Exit.valid he hR hp hl
  have hA : (vaults w s).1 < 2 ^ 64 := nbal_lt w s.token_a
  rcases C46_buy c hv hr _ _ _ _ (UInt64.toNat_lt _) hA hq with ⟨_, _, h1⟩ | ⟨e, _⟩
  swap
  · exact absurd e hne
  rw [← hy] at h1
  have b0 := blur_nonneg hv (vaults w s).1
  have b1 := blur_nonneg hv ((vaults w s).1 + x.toNat)
  have m0 := marginal_nonneg c ((vaults w s).1 + x.toNat)
  have eP := costR_position hv ((vaults w s).1 + x.toNat)
  have eM := price_at hv ((vaults w s).1 + x.toNat)
  generalize hP : position c ((vaults w s).1 + x.toNat) = P at *
  generalize hQ : max 0 (position c (vaults w s).1 + y.toNat - (n + m + 1) / 10 ^ 18) = Q at *
  have hQ1 : position c (vaults w s).1 + y.toNat - (n + m + 1) / 10 ^ 18 ≤ Q := hQ ▸ le_max_right _ _
  have hQ0 : 0 ≤ Q := hQ ▸ le_max_left _ _
  have e18 : ((n : ℝ) + m + 2) / 10 ^ 18 = (n + m + 1) / 10 ^ 18 + 1 / 10 ^ 18 := by ring
  have hgap : P - Q ≤ 1 + blur c (vaults w s).1 + blur c ((vaults w s).1 + x.toNat) +
      (n + m + 2) / 10 ^ 18 := by rw [e18]; linarith
  have hgain : ((vaults w s).1 : ℝ) + ((vaults u' s).1 - (vaults u s).1) - (vaults w' s).1 ≤
      costR c P - costR c Q := by
    push_cast at eP
    linarith
  refine hgain.trans ?_
  have hpos : 0 ≤ 1 + blur c (vaults w s).1 + blur c ((vaults w s).1 + x.toNat) +
      (n + m + 2) / 10 ^ 18 := by positivity
  by_cases hle : Q ≤ P
  · have h2 := costR_sub_le hv P Q
    rw [eM] at h2
    exact h2.trans (mul_le_mul_of_nonneg_right hgap m0)
  · have h2 := costR_mono hv (hP ▸ position_nonneg hv _) (le_of_not_ge hle)
    have h3 := mul_nonneg hpos m0
    linarith

/-- C89.  A sale: somebody offers `x` token B for at least `y` token A.  If the others have not parted
with token B on balance, they have gained no more token A than what the exact curve takes off for the
`x` token B, at the position of the beginning (and `10^-18` token B per instruction), exceeds the `y`
token A asked for. -/
theorem C89_sale (env : Env) (K : Pubkey → Prop) (he : EnvOk env K) (w u u' w' : World)
    (hR : Reachable env K w) (s : SwapV1) (signers : List Pubkey) (a : SwapAccounts) (x y : UInt64)
    (hp : PoolAt env w a.swap s) (c : LinearPriceCurve) (hl : s.swap_curve = .linear c)
    (hr : Representable c) (n m : Nat) (before : Meanwhile env K a.swap s w n u)
    (hs : ∀ z ∈ signers, ¬ IsPda env K z) (h : exec env signers (.swap a x y) u = .ok u')
    (hlv : Leaves (vaults u s) (vaults u' s)) (after : Meanwhile env K a.swap s u' m w')
    (hsell : a.swapSource = s.token_b)
    (hB : (vaults w' s).2 ≤ (vaults w s).2 + ((vaults u' s).2 - (vaults u s).2)) :
    ((vaults w s).1 : ℝ) - ((vaults u s).1 - (vaults u' s).1) - (vaults w' s).1 ≤
      (vaults w s).1 -
        costR c (max 0 (position c (vaults w s).1 - x.toNat - (n + m + 1) / 10 ^ 18)) - y.toNat := by
  obtain ⟨hv, hab, tot, t, d, ht, hd, ⟨e, _⟩ | ⟨_, e1, e2⟩⟩ :=
    between he hR hp hl hr before hs h hlv after
  · exact absurd (e.symm.trans hsell) hab
  have hq : max 0 (position c (vaults w s).1 - x.toNat - (n + m + 1) / 10 ^ 18) ≤
      position c (vaults w' s).1 := by
    apply max_le (position_nonneg hv _)
    have h1 : (vaults w' s).2 ≤ (vaults w s).2 + x.toNat := by omega
    have h2 : ((vaults w' s).2 : ℝ) ≤ (vaults w s).2 + x.toNat := by exact_mod_cast h1
    linarith
  have hc := costR_mono hv (le_max_left _ _) hq
  rw [costR_position hv] at hc
  have h3 : ((vaults u' s).1 : ℝ) + y.toNat ≤ (vaults u s).1 := by
    have : (vaults u' s).1 + y.toNat ≤ (vaults u s).1 := by omega
    exact_mod_cast this
  linarith

/-- C89.  A sale that asks for what the pool quoted at the beginning. -/
theorem C89_quoted_sale (env : Env) (K : Pubkey → Prop) (he : EnvOk env K) (w u u' w' : World)
    (hR : Reachable env K w) (s : SwapV1) (signers : List Pubkey) (a : SwapAccounts) (x y : UInt64)
    (hp : PoolAt env w a.swap s) (c : LinearPriceCurve) (hl : s.swap_curve = .linear c)
    (hr : Representable c) (n m : Nat) (before : Meanwhile env K a.swap s w n u)
    (hs : ∀ z ∈ signers, ¬ IsPda env K z) (h : exec env signers (.swap a x y) u = .ok u')
    (hlv : Leaves (vaults u s) (vaults u' s)) (after : Meanwhile env K a.swap s u' m w')
    (hsell : a.swapSource = s.token_b)
    (hB : (vaults w' s).2 ≤ (vaults w s).2 + ((vaults u' s).2 - (vaults u s).2))
    (r : SwapWithoutFeesResult)
    (hq : Linear.swapWithoutFees c x.toNat (vaults w s).2 (vaults w s).1 .BtoA = .ok r)
    (hne : r.destination_amount_swapped ≠ (vaults w s).1)
    (hy : y.toNat = r.destination_amount_swapped) :
    ((vaults w s).1 : ℝ) - ((vaults u s).1 - (vaults u' s).1) - (vaults w' s).1 ≤
      1 + (1 + blur c (vaults w s).1 + (n + m + 1) / 10 ^ 18) * marginal c (vaults w s).1 := by
  have key := C89_sale env K he w u u' w' hR s signers a x y hp c hl hr n m before hs h hlv after
    hsell hB
  have hv := Exit.valid he hR hp hl
  have hA : (vaults w s).1 < 2 ^ 64 := nbal_lt w s.token_a
  rcases C47_sell c hv hr _ _ _ _ hA hq with ⟨_, b, _, h2, h3⟩ | ⟨e, _⟩
  swap
  · exact absurd e hne
  rw [← hy] at h3
  have b0 := blur_nonneg hv (vaults w s).1
  have m0 := marginal_nonneg c (vaults w s).1
  have hyc : (vaults w s).1 - costR c b < (y.toNat : ℝ) + 1 := by
    have h4 := Int.lt_floor_add_one (((vaults w s).1 : ℚ) - cost c b)
    rw [← h3] at h4
    have h5 : (((((vaults w s).1 : ℚ) - cost c b : ℚ)) : ℝ) < (((y.toNat : ℤ) : ℚ) + 1 : ℚ) :=
      Rat.cast_lt.2 h4
    unfold cost at h5
    unfold costR
    push_cast at h5
    linarith
  have hb : (b : ℝ) ≤ position c (vaults w s).1 := by
    apply position_ge hv
    have h4 := Int.floor_le (((vaults w s).1 : ℚ) - cost c b)
    rw [← h3] at h4
    have h5 : (0 : ℚ) ≤ ((y.toNat : ℤ) : ℚ) := by positivity
    linarith
  generalize hQ : max 0 (position c (vaults w s).1 - x.toNat - (n + m + 1) / 10 ^ 18) = Q at *
  have hQ1 : position c (vaults w s).1 - x.toNat - (n + m + 1) / 10 ^ 18 ≤ Q := hQ ▸ le_max_right _ _
  have hgain : ((vaults w s).1 : ℝ) - ((vaults u s).1 - (vaults u' s).1) - (vaults w' s).1 ≤
      1 + (costR c b - costR c Q) := by linarith
  refine hgain.trans ?_
  have hpos : 0 ≤ 1 + blur c (vaults w s).1 + (n + m + 1) / 10 ^ 18 := by positivity
  have goal : costR c b - costR c Q ≤
      (1 + blur c (vaults w s).1 + (n + m + 1) / 10 ^ 18) * marginal c (vaults w s).1 := by
    by_cases hle : Q ≤ b
    · have h4 := costR_sub_le hv b Q
      have h5 : (slope c : ℝ) * b + (Spec.price c : ℝ) ≤ marginal c (vaults w s).1 := by
        rw [← price_at hv]
        have := mul_le_mul_of_nonneg_left hb (slope_pos hv).le
        linarith
      have h6 : (0 : ℝ) ≤ b - Q := by linarith
      have h7 : b - Q ≤ 1 + blur c (vaults w s).1 + (n + m + 1) / 10 ^ 18 := by linarith
      calc costR c b - costR c Q ≤ (b - Q) * ((slope c : ℝ) * b + (Spec.price c : ℝ)) := h4
        _ ≤ (b - Q) * marginal c (vaults w s).1 := mul_le_mul_of_nonneg_left h5 h6
        _ ≤ _ := mul_le_mul_of_nonneg_right h7 m0
    · have h4 := costR_mono hv (Nat.cast_nonneg b) (le_of_not_ge hle)
      have h5 := mul_nonneg hpos m0
      linarith
  linarith

/-! ### A purchase with a loose limit, between a purchase and a sale -/

/-- The accounts of a purchase from the linear pool, -/
def frontIn : SwapAccounts := ⟨Sample.key 1, Sample.key 129, Sample.key 50, Sample.key 30,
  Sample.key 3, Sample.key 4, Sample.key 31, Sample.key 5, Sample.key 6, Sample.key 101⟩

/-- and those of a sale to it. -/
def frontOut : SwapAccounts := ⟨Sample.key 1, Sample.key 129, Sample.key 50, Sample.key 31,
  Sample.key 4, Sample.key 3, Sample.key 30, Sample.key 5, Sample.key 6, Sample.key 101⟩

/-- The chain after one more trade by user 50. -/
def front (a : SwapAccounts) (x y : UInt64) (w : World) : World := ranTo [.swap a x y] w

theorem front_step {a : SwapAccounts} {x y : UInt64} {w : World} {n : Nat} {v : World}
    (hk : a.swap = Sample.key 1) (h : isOk (Sample.run Sample.env [.swap a x y] v) = true)
    (hl : Leaves (vaults v pool1) (vaults (front a x y v) pool1))
    (hm : Meanwhile Sample.env samplePools (Sample.key 1) pool1 w n v) :
    Meanwhile Sample.env samplePools (Sample.key 1) pool1 w (n + 1) (front a x y v) :=
  .here _ (.swap a x y) hm sample_signers hk (exec_ranTo h) hl

def front1 : World := front frontIn 190 1 live
def front2 : World := front frontIn 100 1 front1
def front3 : World := front frontOut 10 1 front2

/-- Somebody buys 10 token B for 190 token A, another gets 3 for 100 (instead of 6), and the first
sells the 10 for 238: a gain of 48. -/
theorem front_gain : vaults live pool1 = (18, 98) ∧ vaults front1 pool1 = (208, 88) ∧
    vaults front2 pool1 = (308, 85) ∧ vaults front3 pool1 = (70, 95) := by decide +kernel

/-- The theorem allows 90: the 100 offered less the 10 that a fourth token B costs. -/
example : (18 : ℝ) + (308 - 208) - 70 ≤
    100 - (costR Sample.lin (max 0 (position Sample.lin 18 + 1 - (1 + 1 + 1) / 10 ^ 18)) - 18) := by
  have := C89_purchase Sample.env samplePools sample_ok live front1 front2 front3 live_reachable pool1
    [Sample.key 1, Sample.key 2, Sample.key 50] frontIn 100 1 live_pool1 Sample.lin rfl
    (by unfold Representable; decide +kernel) 1 1
    (front_step rfl (by decide +kernel) ⟨by decide +kernel, by decide +kernel⟩ .start)
    sample_signers (exec_ranTo (by decide +kernel)) ⟨by decide +kernel, by decide +kernel⟩
    (front_step rfl (by decide +kernel) ⟨by decide +kernel, by decide +kernel⟩ .start) rfl
    (by decide +kernel)
  obtain ⟨e0, e1, e2, e3⟩ := front_gain
  rw [e0, e1, e2, e3] at this
  simp only [show (100 : UInt64).toNat = 100 from rfl, show (1 : UInt64).toNat = 1 from rfl] at this
  norm_num at this ⊢
  exact this

/-- The same for someone who asks for the 6 token B quoted.  Somebody sells one token B before and
buys one after. -/
def quoted1 : World := front frontOut 1 1 live
def quoted2 : World := front frontIn 100 6 quoted1
def quoted3 : World := front frontIn 30 1 quoted2

example : vaults live pool1 = (18, 98) ∧ vaults quoted1 pool1 = (10, 99) ∧
    vaults quoted2 pool1 = (110, 92) ∧ vaults quoted3 pool1 = (140, 91) := by decide +kernel

example : ((vaults live pool1).1 : ℝ) + ((vaults quoted2 pool1).1 - (vaults quoted1 pool1).1) -
    (vaults quoted3 pool1).1 ≤
      (1 + blur Sample.lin (vaults live pool1).1 +
        blur Sample.lin ((vaults live pool1).1 + (100 : UInt64).toNat) +
          (((1 : Nat) : ℝ) + (1 : Nat) + 2) / 10 ^ 18) *
        marginal Sample.lin ((vaults live pool1).1 + (100 : UInt64).toNat) :=
  C89_quoted_purchase Sample.env samplePools sample_ok live quoted1 quoted2 quoted3 live_reachable
    pool1 [Sample.key 1, Sample.key 2, Sample.key 50] frontIn 100 6 live_pool1 Sample.lin rfl
    (by unfold Representable; decide +kernel) 1 1
    (front_step rfl (by decide +kernel) ⟨by decide +kernel, by decide +kernel⟩ .start)
    sample_signers (exec_ranTo (by decide +kernel)) ⟨by decide +kernel, by decide +kernel⟩
    (front_step rfl (by decide +kernel) ⟨by decide +kernel, by decide +kernel⟩ .start) rfl
    (by decide +kernel) ⟨100, 6⟩ (by decide +kernel) (by decide +kernel) rfl

theorem front1_facts : Reachable Sample.env samplePools front1 ∧
    PoolAt Sample.env front1 (Sample.key 1) pool1 := by
  have h : Meanwhile Sample.env samplePools (Sample.key 1) pool1 live 1 front1 :=
    front_step rfl (by decide +kernel) ⟨by decide +kernel, by decide +kernel⟩ .start
  obtain ⟨w0, h0, hst⟩ := live_reachable
  exact ⟨⟨w0, h0, hst.trans (meanwhile_steps (Or.inl rfl) h)⟩,
    pool_of (by decide +kernel) (by decide +kernel)⟩

/-- Sales: from a vault of 208, somebody sells 5 token B for 120, another gets 60 for 4 (instead of
100), and the first buys 5 for 80. -/
def sold1 : World := front frontOut 5 1 front1
def sold2 : World := front frontOut 4 1 sold1
def sold3 : World := front frontIn 80 1 sold2

theorem sold_gain : vaults front1 pool1 = (208, 88) ∧ vaults sold1 pool1 = (88, 93) ∧
    vaults sold2 pool1 = (28, 97) ∧ vaults sold3 pool1 = (108, 92) := by decide +kernel

example : (208 : ℝ) - (88 - 28) - 108 ≤
    208 - costR Sample.lin (max 0 (position Sample.lin 208 - 4 - (1 + 1 + 1) / 10 ^ 18)) - 1 := by
  have := C89_sale Sample.env samplePools sample_ok front1 sold1 sold2 sold3 front1_facts.1 pool1
    [Sample.key 1, Sample.key 2, Sample.key 50] frontOut 4 1 front1_facts.2 Sample.lin rfl
    (by unfold Representable; decide +kernel) 1 1
    (front_step rfl (by decide +kernel) ⟨by decide +kernel, by decide +kernel⟩ .start)
    sample_signers (exec_ranTo (by decide +kernel)) ⟨by decide +kernel, by decide +kernel⟩
    (front_step rfl (by decide +kernel) ⟨by decide +kernel, by decide +kernel⟩ .start) rfl
    (by decide +kernel)
  obtain ⟨e0, e1, e2, e3⟩ := sold_gain
  rw [e0, e1, e2, e3] at this
  simp only [show (4 : UInt64).toNat = 4 from rfl, show (1 : UInt64).toNat = 1 from rfl] at this
  norm_num at this ⊢
  exact this

/-- With the 100 token A quoted as the limit. -/
def asked1 : World := front frontIn 30 1 front1
def asked2 : World := front frontOut 4 100 asked1
def asked3 : World := front frontOut 1 1 asked2

example : ((vaults front1 pool1).1 : ℝ) - ((vaults asked1 pool1).1 - (vaults asked2 pool1).1) -
    (vaults asked3 pool1).1 ≤
      1 + (1 + blur Sample.lin (vaults front1 pool1).1 + (((1 : Nat) : ℝ) + (1 : Nat) + 1) / 10 ^ 18) *
        marginal Sample.lin (vaults front1 pool1).1 :=
  C89_quoted_sale Sample.env samplePools sample_ok front1 asked1 asked2 asked3 front1_facts.1 pool1
    [Sample.key 1, Sample.key 2, Sample.key 50] frontOut 4 100 front1_facts.2 Sample.lin rfl
    (by unfold Representable; decide +kernel) 1 1
    (front_step rfl (by decide +kernel) ⟨by decide +kernel, by decide +kernel⟩ .start)
    sample_signers (exec_ranTo (by decide +kernel)) ⟨by decide +kernel, by decide +kernel⟩
    (front_step rfl (by decide +kernel) ⟨by decide +kernel, by decide +kernel⟩ .start) rfl
    (by decide +kernel) ⟨4, 100⟩ (by decide +kernel) (by decide +kernel) rfl

end Props
end Verif
