import Verif.Props.Live
import Verif.Props.Accuracy

/-
C64: trading against a linear pool on chain.
-/

namespace Verif
namespace Props
open Spec Processor
open Linear hiding price

theorem Exit.canPay_le {env : Env} {w : World} {k m u : Pubkey} {x y : Nat}
    (h : CanPay env w k m u x) (hy : y ≤ x) : CanPay env w k m u y :=
  h.frame (Frame.refl w) (by have := h.funds; omega)

theorem Exit.canReceive_le {env : Env} {w : World} {k m : Pubkey} {x y : Nat}
    (h : CanReceive env w k m x) (hy : y ≤ x) : CanReceive env w k m y :=
  h.frame (Frame.refl w) (by have := h.room; omega)

theorem Exit.valid {env : Env} {K : Pubkey → Prop} {w : World} (he : EnvOk env K)
    (hr : Reachable env K w) {k : Pubkey} {s : SwapV1} (hp : PoolAt env w k s)
    {c : LinearPriceCurve} (hc : s.swap_curve = .linear c) : isCurveParamValid c = .ok () := by
  obtain ⟨w0, h0, hst⟩ := hr
  obtain ⟨_, _, hcf⟩ := reachable_pool he h0 hst k s hp
  have := hcf.curve
  rw [hc] at this
  unfold Curve.validate at this
  simp only [] at this
  rcases h : isCurveParamValid c with _ | _ | _
  · rfl
  · rw [h] at this; cases this
  · rw [h] at this; cases this

/-- A sale never takes more than was offered, nor pays more than the vault. -/
theorem Exit.sale_le {c : LinearPriceCurve} {s A B : Nat} {q : SwapWithoutFeesResult}
    (h : Linear.swapWithoutFees c s B A .BtoA = .ok q) :
    q.source_amount_swapped ≤ s ∧ q.destination_amount_swapped ≤ A := by
  obtain ⟨h1, _, _⟩ := swapWithoutFees_sell h
  obtain ⟨b0, _, ⟨hlt, hy, hx⟩ | ⟨_, hx, v, _, hv, hy⟩⟩ := swapBToA_ok h1
  · refine ⟨?_, by omega⟩
    rw [hx]
    have : (b0 + Dfs.roundingCorrection) / Dfs.ONE < s + 1 := by
      rw [Nat.div_lt_iff_lt_mul Dfs.ONE_pos, Nat.add_mul, Nat.one_mul]
      have : Dfs.ONE = 2 * Dfs.roundingCorrection := one_eq_two_rc
      omega
    omega
  · refine ⟨by omega, ?_⟩
    rw [hy]
    calc (A * Dfs.ONE - v) / Dfs.ONE ≤ A * Dfs.ONE / Dfs.ONE := Nat.div_le_div_right (Nat.sub_le _ _)
      _ = A := Nat.mul_div_cancel _ Dfs.ONE_pos

/-- C64.  Whoever holds token B of a representable linear pool can sell it back: on every reachable
ledger the instruction goes through, takes at most what was offered, and pays the cost of the curve
between the position before (widened by `blur` and one token) and the position after, less at most
one token A. -/
theorem C64_sale (env : Env) (K : Pubkey → Prop) (he : EnvOk env K) (w : World)
    (hr : Reachable env K w) (k : Pubkey) (s : SwapV1) (hp : PoolAt env w k s)
    (c : LinearPriceCurve) (hc : s.swap_curve = .linear c) (hrep : Representable c) (pda : Pubkey)
    (hpda : env.createPda k s.bump_seed = some pda) (signers : List Pubkey) (u : Pubkey)
    (hu : u ∈ signers) (hun : ¬ IsPda env K u) (src dst : Pubkey) (x y : UInt64)
    (tA tB : TokenAccount) (hA : tokenAt w s.token_a = some tA) (hB : tokenAt w s.token_b = some tB)
    (hx1 : 1 ≤ x.toNat) (hnp : bValue c (tA.amount.toNat * 10 ^ 18) true ≠ .panic)
    (hpos : 1 ≤ position c tA.amount.toNat) (loss : ℝ)
    (hloss : loss = costR c (max 0 (position c tA.amount.toNat + blur c tA.amount.toNat -
      x.toNat + 1)))
    (hq : loss ≤ tA.amount.toNat - 1) (hy : (y.toNat : ℝ) ≤ tA.amount.toNat - loss - 1)
    (hpay : CanPay env w src s.token_b_mint u x.toNat)
    (hroom : CanReceive env w s.token_b s.token_b_mint x.toNat) (hthaw : Thawed w s.token_a)
    (hrecv : CanReceive env w dst s.token_a_mint tA.amount.toNat) (hdst : dst ≠ s.token_a) :
    ∃ (w' : World) (paid got : Nat), exec env signers (.swap ⟨k, pda, u, src, s.token_b, s.token_a,
        dst, s.pool_mint, s.pool_fee_account, env.tokenProgramId⟩ x y) w = .ok w' ∧
      paid ≤ x.toNat ∧ got ≤ tA.amount.toNat ∧ (tA.amount.toNat : ℝ) - loss - 1 < got ∧
      bal w' src = bal w src - paid ∧ bal w' s.token_b = bal w s.token_b + paid ∧
      bal w' s.token_a = bal w s.token_a - got ∧ bal w' dst = bal w dst + got := by
  have hv := Exit.valid he hr hp hc
  obtain ⟨q, h1, h2⟩ := C48_sell_partial c hv hrep x.toNat tA.amount.toNat tB.amount.toNat
    tA.amount.toNat_lt x.toNat_lt hx1 hnp hpos (by rw [← hloss]; exact hq)
  rw [← hloss] at h2
  obtain ⟨l1, l2⟩ := Exit.sale_le h1
  have hyq : y.toNat ≤ q.destination_amount_swapped := by
    have : (y.toNat : ℝ) < q.destination_amount_swapped := lt_of_le_of_lt hy h2
    exact le_of_lt (by exact_mod_cast this)
  obtain ⟨w', hw', b1, b2, b3, b4⟩ := C52_linear env K he w hr k s hp c hc pda hpda signers u hu hun
    .BtoA src dst x y tB tA hB hA q h1 l2 hyq (Exit.canPay_le hpay l1) (Exit.canReceive_le hroom l1)
    hthaw (Exit.canReceive_le hrecv l2) hdst
  exact ⟨w', _, _, hw', l1, l2, h2, b1, b2, b3, b4⟩

/-- C64.  Selling the whole position (plus `blur` and one token of margin) empties vault A, and takes
no more than the position plus `blur` plus half a token. -/
theorem C64_everything (env : Env) (K : Pubkey → Prop) (he : EnvOk env K) (w : World)
    (hr : Reachable env K w) (k : Pubkey) (s : SwapV1) (hp : PoolAt env w k s)
    (c : LinearPriceCurve) (hc : s.swap_curve = .linear c) (hrep : Representable c) (pda : Pubkey)
    (hpda : env.createPda k s.bump_seed = some pda) (signers : List Pubkey) (u : Pubkey)
    (hu : u ∈ signers) (hun : ¬ IsPda env K u) (src dst : Pubkey) (x y : UInt64)
    (tA tB : TokenAccount) (hA : tokenAt w s.token_a = some tA) (hB : tokenAt w s.token_b = some tB)
    (hA1 : 1 ≤ tA.amount.toNat) (hnp : bValue c (tA.amount.toNat * 10 ^ 18) true ≠ .panic)
    (hpos : 1 ≤ position c tA.amount.toNat)
    (hx : position c tA.amount.toNat + blur c tA.amount.toNat + 1 ≤ x.toNat)
    (hy : y ≤ tA.amount)
    (hpay : CanPay env w src s.token_b_mint u x.toNat)
    (hroom : CanReceive env w s.token_b s.token_b_mint x.toNat) (hthaw : Thawed w s.token_a)
    (hrecv : CanReceive env w dst s.token_a_mint tA.amount.toNat) (hdst : dst ≠ s.token_a) :
    ∃ (w' : World) (paid : Nat), exec env signers (.swap ⟨k, pda, u, src, s.token_b, s.token_a, dst,
        s.pool_mint, s.pool_fee_account, env.tokenProgramId⟩ x y) w = .ok w' ∧
      (paid : ℝ) ≤ position c tA.amount.toNat + blur c tA.amount.toNat + 1 / 2 ∧
      bal w' src = bal w src - paid ∧ bal w' s.token_b = bal w s.token_b + paid ∧
      bal w' s.token_a = 0 ∧ bal w' dst = bal w dst + tA.amount.toNat := by
  have hv := Exit.valid he hr hp hc
  have hm : max 0 (position c tA.amount.toNat + blur c tA.amount.toNat - x.toNat + 1) = 0 :=
    max_eq_left (by linarith)
  have h0 : costR c 0 = 0 := by unfold costR; ring
  have hx1 : 1 ≤ x.toNat := by
    have hb := blur_nonneg hv tA.amount.toNat
    have : (1 : ℝ) ≤ x.toNat := by linarith
    exact_mod_cast this
  have hA1' : (1 : ℝ) ≤ tA.amount.toNat := by exact_mod_cast hA1
  obtain ⟨q, h1, h2⟩ := C48_sell_partial c hv hrep x.toNat tA.amount.toNat tB.amount.toNat
    tA.amount.toNat_lt x.toNat_lt hx1 hnp hpos (by rw [hm, h0]; linarith)
  rw [hm, h0] at h2
  obtain ⟨l1, l2⟩ := Exit.sale_le h1
  have ey : q.destination_amount_swapped = tA.amount.toNat := by
    have : (tA.amount.toNat : ℝ) < (q.destination_amount_swapped + 1 : Nat) := by
      push_cast; linarith
    have : tA.amount.toNat < q.destination_amount_swapped + 1 := by exact_mod_cast this
    omega
  obtain ⟨H, P, Q, hR⟩ := Rep_of_spec (nz_of_valid hv) hrep
  have hAl := tA.amount.toNat_lt
  have hp' : (q.source_amount_swapped : ℝ) ≤
      position c tA.amount.toNat + blur c tA.amount.toNat + 1 / 2 := by
    have ho := Linear.oneR_pos
    obtain ⟨g1, _, _⟩ := swapWithoutFees_sell h1
    obtain ⟨b0, hb0, hcase⟩ := swapBToA_ok g1
    obtain ⟨_, p2⟩ := hR.up_bounds (by omega) hb0
    have hqb : (q.source_amount_swapped : ℝ) ≤ (b0 : ℝ) / Dfs.ONE + 1 / 2 := by
      rcases hcase with ⟨_, _, hxx⟩ | ⟨hge, _, _⟩
      · have := Nat.div_mul_le_self (b0 + Dfs.roundingCorrection) Dfs.ONE
        rw [← hxx] at this
        have hrc : (Dfs.roundingCorrection : ℝ) = (Dfs.ONE : ℝ) / 2 := by
          have : Dfs.ONE = 2 * Dfs.roundingCorrection := one_eq_two_rc
          rw [this]; push_cast; ring
        have h3 : (q.source_amount_swapped : ℝ) * Dfs.ONE ≤ b0 + Dfs.roundingCorrection := by
          exact_mod_cast this
        rw [hrc] at h3
        have e : (b0 : ℝ) / Dfs.ONE + 1 / 2 = (b0 + Dfs.ONE / 2) / Dfs.ONE := by field_simp
        rw [e, le_div_iff₀ ho]; exact h3
      · exfalso
        have h4 : ((x.toNat * Dfs.ONE : Nat) : ℝ) ≤ (b0 : ℝ) := by exact_mod_cast hge
        rw [Nat.cast_mul] at h4
        have h3 : (x.toNat : ℝ) ≤ (b0 : ℝ) / Dfs.ONE := by rw [le_div_iff₀ ho]; exact h4
        linarith
    linarith
  obtain ⟨w', hw', b1, b2, b3, b4⟩ := C52_linear env K he w hr k s hp c hc pda hpda signers u hu hun
    .BtoA src dst x y tB tA hB hA q h1 l2 (by rw [ey]; exact UInt64.le_iff_toNat_le.1 hy)
    (Exit.canPay_le hpay l1) (Exit.canReceive_le hroom l1)
    hthaw (Exit.canReceive_le hrecv l2) hdst
  refine ⟨w', _, hw', hp', b1, b2, ?_, by rw [b4, ey]⟩
  have b3' : bal w' s.token_a = bal w s.token_a - q.destination_amount_swapped := b3
  rw [b3', ey, bal_some hA]
  omega

/-- What the curve costs at the position it assigns to `A` is `A`. -/
theorem Exit.cost_position {c : LinearPriceCurve} (hv : isCurveParamValid c = .ok ()) (A : Nat) :
    costR c (position c A) = A :=
  (C45_position_unique c hv A _ (position_nonneg hv A)).2 rfl

/-- A purchase that leaves half a token A worth in the vault does not hand out more than the vault
holds. -/
theorem Exit.buy_le {c : LinearPriceCurve} (hv : isCurveParamValid c = .ok ())
    (hr : Representable c) {s A B : Nat} (hA : A < 2 ^ 64) (hs : s < 2 ^ 64) (hB : 1 ≤ B)
    (hw : 1 / 2 + 2 / 10 ^ 18 ≤ costR c (position c A - 1 / 10 ^ 18 + B) - A)
    {q : SwapWithoutFeesResult} (h : Linear.swapWithoutFees c s A B .AtoB = .ok q) :
    q.source_amount_swapped ≤ s ∧ q.destination_amount_swapped ≤ B := by
  obtain ⟨H, P, Q, hrep⟩ := Rep_of_spec (nz_of_valid hv) hr
  have ho := Linear.oneR_pos
  have hO : ((Dfs.ONE : Nat) : ℝ) = 10 ^ 18 := by rw [Dfs.ONE_val]; norm_num
  obtain ⟨h1, _, _⟩ := swapWithoutFees_buy h
  generalize q.source_amount_swapped = x at *
  generalize q.destination_amount_swapped = y at *
  obtain ⟨b0, hb0, hm | ⟨hm, hx, b1, hb1, hle, hy⟩⟩ := swapAToB_inv h1
  · obtain ⟨hyB, hxs, _⟩ := maximumARemaining_ok hm
    exact ⟨hxs, by omega⟩
  · refine ⟨by omega, ?_⟩
    by_contra hn
    have hB1 : (B + 1) * Dfs.ONE ≤ b1 - b0 := by
      rw [← Nat.le_div_iff_mul_le Dfs.ONE_pos, ← hy]; omega
    have hb : b0 + B * Dfs.ONE ≤ b1 := by rw [Nat.add_mul] at hB1; omega
    obtain ⟨p1, _⟩ := hrep.up_bounds (by omega) hb0
    obtain ⟨_, q2⟩ := hrep.down_bounds (A := A + s) (by omega) hb1
    have up := (amtF_bounds hrep.nz b1).2
    have lo := (amtF_bounds hrep.nz (b0 + B * Dfs.ONE)).1
    have mono := amtF_mono c hb
    have hc1 : costR c ((b1 : ℝ) / Dfs.ONE) ≤ (A + s : Nat) := by
      rw [← Exit.cost_position hv (A + s)]
      exact costR_mono hv (by positivity) q2
    have hpos := position_nonneg hv A
    have eb : ((b0 + B * Dfs.ONE : Nat) : ℝ) / Dfs.ONE = (b0 : ℝ) / Dfs.ONE + B := by
      push_cast; field_simp
    rw [eb] at lo
    have hA1 : A * Dfs.ONE ≤ amtF c (b0 + B * Dfs.ONE) := by
      rw [← hO] at hw
      have hcase : (A : ℝ) + 1 / 2 < (amtF c (b0 + B * Dfs.ONE) : ℝ) / Dfs.ONE := by
        have hB1 : (1 : ℝ) ≤ B := by exact_mod_cast hB
        have hone : (1 : ℝ) / Dfs.ONE ≤ 1 := by rw [hO]; norm_num
        have m2 : costR c (position c A - 1 / Dfs.ONE + B) ≤ costR c ((b0 : ℝ) / Dfs.ONE + B) :=
          costR_mono hv (by linarith) (by linarith)
        linarith
      rw [lt_div_iff₀ ho] at hcase
      have : (A : ℝ) * Dfs.ONE ≤ amtF c (b0 + B * Dfs.ONE) := by nlinarith
      exact_mod_cast this
    have hA2 : amtF c (b0 + B * Dfs.ONE) ≤ (A + s) * Dfs.ONE + 1 := by
      have h3 : (amtF c b1 : ℝ) / Dfs.ONE ≤ (A + s : Nat) + 1 / Dfs.ONE := by linarith
      have e : ((A + s : Nat) : ℝ) + 1 / Dfs.ONE = (((A + s : Nat) : ℝ) * Dfs.ONE + 1) / Dfs.ONE := by
        field_simp
      rw [e, div_le_div_iff_of_pos_right ho] at h3
      have : amtF c b1 ≤ (A + s) * Dfs.ONE + 1 := by exact_mod_cast h3
      omega
    have hbl := bValue_lt_U hv (A := A + s) (by omega) hb1
    rw [maximumARemaining_of hrep.nz (by omega) (by omega) (by omega) hA1 hA2] at hm
    cases hm

/-- C64.  Whoever offers token A to a representable linear pool is served: if the offer moves the
exact position by more than one token B plus the blur of both ends, and what the vault holds is worth
half a token A or more, the instruction goes through, takes at most the offer and hands out at least
one token B. -/
theorem C64_purchase (env : Env) (K : Pubkey → Prop) (he : EnvOk env K) (w : World)
    (hr : Reachable env K w) (k : Pubkey) (s : SwapV1) (hp : PoolAt env w k s)
    (c : LinearPriceCurve) (hc : s.swap_curve = .linear c) (hrep : Representable c) (pda : Pubkey)
    (hpda : env.createPda k s.bump_seed = some pda) (signers : List Pubkey) (u : Pubkey)
    (hu : u ∈ signers) (hun : ¬ IsPda env K u) (src dst : Pubkey) (x y : UInt64)
    (tA tB : TokenAccount) (hA : tokenAt w s.token_a = some tA) (hB : tokenAt w s.token_b = some tB)
    (hB1 : 1 ≤ tB.amount.toNat) (hnp : bValue c (tA.amount.toNat * 10 ^ 18) true ≠ .panic)
    (hw : 1 / 2 + 2 / 10 ^ 18 ≤
      costR c (position c tA.amount.toNat - 1 / 10 ^ 18 + tB.amount.toNat) - tA.amount.toNat)
    (hq : 1 + blur c tA.amount.toNat + blur c (tA.amount.toNat + x.toNat) + 1 / 10 ^ 18 ≤
      position c (tA.amount.toNat + x.toNat) - position c tA.amount.toNat)
    (hy : y ≤ 1)
    (hpay : CanPay env w src s.token_a_mint u x.toNat)
    (hroom : CanReceive env w s.token_a s.token_a_mint x.toNat) (hthaw : Thawed w s.token_b)
    (hrecv : CanReceive env w dst s.token_b_mint tB.amount.toNat) (hdst : dst ≠ s.token_b) :
    ∃ (w' : World) (paid got : Nat), exec env signers (.swap ⟨k, pda, u, src, s.token_a, s.token_b,
        dst, s.pool_mint, s.pool_fee_account, env.tokenProgramId⟩ x y) w = .ok w' ∧
      1 ≤ paid ∧ paid ≤ x.toNat ∧ 1 ≤ got ∧ got ≤ tB.amount.toNat ∧
      bal w' src = bal w src - paid ∧ bal w' s.token_a = bal w s.token_a + paid ∧
      bal w' s.token_b = bal w s.token_b - got ∧ bal w' dst = bal w dst + got := by
  have hv := Exit.valid he hr hp hc
  obtain ⟨q, h1⟩ := C48_buy_partial c hv hrep x.toNat tA.amount.toNat tB.amount.toNat
    tA.amount.toNat_lt x.toNat_lt hB1 hnp hw hq
  obtain ⟨l1, l2⟩ := Exit.buy_le hv hrep tA.amount.toNat_lt x.toNat_lt hB1 hw h1
  obtain ⟨_, hx0, hy0⟩ := swapWithoutFees_buy h1
  have hy1 : y.toNat ≤ 1 := UInt64.le_iff_toNat_le.1 hy
  obtain ⟨w', hw', b1, b2, b3, b4⟩ := C52_linear env K he w hr k s hp c hc pda hpda signers u hu hun
    .AtoB src dst x y tA tB hA hB q h1 l2 (by omega) (Exit.canPay_le hpay l1)
    (Exit.canReceive_le hroom l1) hthaw (Exit.canReceive_le hrecv l2) hdst
  exact ⟨w', _, _, hw', by omega, l1, by omega, l2, b1, b2, b3, b4⟩

/-! ### On the sample ledger

The linear pool holds 18 token A, position 3 on the curve of slope 2 and initial price 3. -/

theorem lin_position : position Sample.lin 18 = 3 ∧ blur Sample.lin 18 = 9 / 2 ^ 31 ∧
    position Sample.lin 70 = 7 ∧ blur Sample.lin 70 = 17 / 2 ^ 31 := by
  have e1 : ((slope Sample.lin : ℚ) : ℝ) = 2 := by simp [slope, Sample.lin]
  have e2 : ((Spec.price Sample.lin : ℚ) : ℝ) = 3 := by simp [Spec.price, Sample.lin]
  have m1 : marginal Sample.lin 18 = 9 := by
    unfold marginal
    rw [e1, e2, Real.sqrt_eq_iff_mul_self_eq (by norm_num) (by norm_num)]
    norm_num
  have m2 : marginal Sample.lin 70 = 17 := by
    unfold marginal
    rw [e1, e2, Real.sqrt_eq_iff_mul_self_eq (by norm_num) (by norm_num)]
    norm_num
  unfold position blur
  rw [m1, m2, e1, e2]
  norm_num

/-- Two token B bring in at least 7 token A. -/
example : ∃ (w' : World) (paid got : Nat), exec Sample.env [Sample.key 50] (.swap ⟨Sample.key 1,
    Sample.key 129, Sample.key 50, Sample.key 31, Sample.key 4, Sample.key 3, Sample.key 30,
    Sample.key 5, Sample.key 6, Sample.key 101⟩ 2 6) live = .ok w' ∧ paid ≤ 2 ∧ 7 ≤ got ∧
    bal w' (Sample.key 30) = bal live (Sample.key 30) + got := by
  obtain ⟨p, b, _, _⟩ := lin_position
  have e1 : ((slope Sample.lin : ℚ) : ℝ) = 2 := by simp [slope, Sample.lin]
  have e2 : ((Spec.price Sample.lin : ℚ) : ℝ) = 3 := by simp [Spec.price, Sample.lin]
  have p' : position Sample.lin (plain 20 129 18).amount.toNat = 3 := p
  have b' : blur Sample.lin (plain 20 129 18).amount.toNat = 9 / 2 ^ 31 := b
  have a' : (((plain 20 129 18).amount.toNat : Nat) : ℝ) = 18 := by
    rw [show (plain 20 129 18).amount.toNat = 18 from rfl]; norm_num
  have hm : max (0 : ℝ) (3 + 9 / 2 ^ 31 - ((2 : UInt64).toNat : Nat) + 1) = 2 + 9 / 2 ^ 31 := by
    rw [show (2 : UInt64).toNat = 2 from rfl, max_eq_right] <;> norm_num
  obtain ⟨w', paid, got, h, h1, _, h3, _, _, _, h4⟩ := C64_sale _ _ sample_ok _ live_reachable _ _
    live_pool1 Sample.lin rfl (by decide +kernel) (Sample.key 129) (by decide) [Sample.key 50] _
    (by decide) user (Sample.key 31) (Sample.key 30) 2 6 (plain 20 129 18) (plain 21 129 98)
    (live_tok (by decide +kernel)) (live_tok (by decide +kernel)) (by decide) (by decide +kernel)
    (by rw [p']; norm_num) (costR Sample.lin (2 + 9 / 2 ^ 31)) (by rw [p', b', hm])
    (by rw [a']; unfold costR; rw [e1, e2]; norm_num)
    (by rw [a']; unfold costR; rw [e1, e2, show (6 : UInt64).toNat = 6 from rfl]; norm_num)
    (pays 20141 (by decide +kernel) (by decide +kernel))
    (takes 129 98 (by decide +kernel) (by decide +kernel))
    ⟨plain 20 129 18, live_tok (by decide +kernel), rfl⟩
    (takes 50 18987 (by decide +kernel) (by decide +kernel)) (by decide)
  refine ⟨w', paid, got, h, h1, ?_, h4⟩
  have hc : costR Sample.lin (2 + 9 / 2 ^ 31) < 11 := by unfold costR; rw [e1, e2]; norm_num
  rw [a'] at h3
  have : (6 : ℝ) < got := by linarith
  have : 6 < got := by exact_mod_cast this
  omega

/-- Five token B empty vault A; only three are taken. -/
example : ∃ (w' : World) (paid : Nat), exec Sample.env [Sample.key 50] (.swap ⟨Sample.key 1,
    Sample.key 129, Sample.key 50, Sample.key 31, Sample.key 4, Sample.key 3, Sample.key 30,
    Sample.key 5, Sample.key 6, Sample.key 101⟩ 5 18) live = .ok w' ∧ paid ≤ 3 ∧
    bal w' (Sample.key 3) = 0 ∧ bal w' (Sample.key 30) = bal live (Sample.key 30) + 18 := by
  obtain ⟨p, b, _, _⟩ := lin_position
  have p' : position Sample.lin (plain 20 129 18).amount.toNat = 3 := p
  have b' : blur Sample.lin (plain 20 129 18).amount.toNat = 9 / 2 ^ 31 := b
  obtain ⟨w', paid, h, h1, _, _, h3, h4⟩ := C64_everything _ _ sample_ok _ live_reachable _ _
    live_pool1 Sample.lin rfl (by decide +kernel) (Sample.key 129) (by decide) [Sample.key 50] _
    (by decide) user (Sample.key 31) (Sample.key 30) 5 18 (plain 20 129 18) (plain 21 129 98)
    (live_tok (by decide +kernel)) (live_tok (by decide +kernel)) (by decide) (by decide +kernel)
    (by rw [p']; norm_num)
    (by rw [p', b', show (5 : UInt64).toNat = 5 from rfl]; norm_num) (by decide)
    (pays 20141 (by decide +kernel) (by decide +kernel))
    (takes 129 98 (by decide +kernel) (by decide +kernel))
    ⟨plain 20 129 18, live_tok (by decide +kernel), rfl⟩
    (takes 50 18987 (by decide +kernel) (by decide +kernel)) (by decide)
  refine ⟨w', paid, h, ?_, h3, h4⟩
  rw [p', b'] at h1
  have : (paid : ℝ) < 4 := by
    have : (9 : ℝ) / 2 ^ 31 < 1 / 2 := by norm_num
    linarith
  have : paid < 4 := by exact_mod_cast this
  omega

/-- 52 token A buy from the same pool. -/
example : ∃ (w' : World) (paid got : Nat), exec Sample.env [Sample.key 50] (.swap ⟨Sample.key 1,
    Sample.key 129, Sample.key 50, Sample.key 30, Sample.key 3, Sample.key 4, Sample.key 31,
    Sample.key 5, Sample.key 6, Sample.key 101⟩ 52 1) live = .ok w' ∧ 1 ≤ paid ∧ paid ≤ 52 ∧
    1 ≤ got ∧ bal w' (Sample.key 31) = bal live (Sample.key 31) + got := by
  obtain ⟨p, b, p2, b2⟩ := lin_position
  have e1 : ((slope Sample.lin : ℚ) : ℝ) = 2 := by simp [slope, Sample.lin]
  have e2 : ((Spec.price Sample.lin : ℚ) : ℝ) = 3 := by simp [Spec.price, Sample.lin]
  have p' : position Sample.lin (plain 20 129 18).amount.toNat = 3 := p
  have b' : blur Sample.lin (plain 20 129 18).amount.toNat = 9 / 2 ^ 31 := b
  have p2' : position Sample.lin ((plain 20 129 18).amount.toNat + (52 : UInt64).toNat) = 7 := p2
  have b2' : blur Sample.lin ((plain 20 129 18).amount.toNat + (52 : UInt64).toNat) =
    17 / 2 ^ 31 := b2
  have a' : (((plain 20 129 18).amount.toNat : Nat) : ℝ) = 18 := by
    rw [show (plain 20 129 18).amount.toNat = 18 from rfl]; norm_num
  have c' : (((plain 21 129 98).amount.toNat : Nat) : ℝ) = 98 := by
    rw [show (plain 21 129 98).amount.toNat = 98 from rfl]; norm_num
  obtain ⟨w', paid, got, h, h1, h2, h3, _, _, _, _, h4⟩ := C64_purchase _ _ sample_ok _
    live_reachable _ _ live_pool1 Sample.lin rfl (by decide +kernel) (Sample.key 129) (by decide)
    [Sample.key 50] _ (by decide) user (Sample.key 30) (Sample.key 31) 52 1 (plain 20 129 18)
    (plain 21 129 98) (live_tok (by decide +kernel)) (live_tok (by decide +kernel)) (by decide)
    (by decide +kernel)
    (by rw [p', a', c']; unfold costR; rw [e1, e2]; norm_num)
    (by rw [p', b', p2', b2']; norm_num) (by decide)
    (pays 18987 (by decide +kernel) (by decide +kernel))
    (takes 129 18 (by decide +kernel) (by decide +kernel))
    ⟨plain 21 129 98, live_tok (by decide +kernel), rfl⟩
    (takes 50 20141 (by decide +kernel) (by decide +kernel)) (by decide)
  exact ⟨w', paid, got, h, h1, h2, h3, h4⟩

end Props
end Verif
