import Verif.Props.Every
import Verif.Props.Exit

/-
C98: trading against a linear pool on chain, whatever its parameters.  C48 and C64 are the sharper
statements for parameters that the fixed-point numbers represent exactly.
-/

namespace Verif
namespace Props
open Spec Processor
open Linear hiding price

theorem amtF_leR {c : LinearPriceCurve} (hc : Nz c) (n : Nat) :
    (amtF c (n * Dfs.ONE) : ℝ) ≤ costR c n * Dfs.ONE := by
  have hsd : (sd c : ℝ) ≠ 0 := by exact_mod_cast hc.sd
  have hpd : (pd c : ℝ) ≠ 0 := by exact_mod_cast hc.pd
  rw [amtF_whole]
  have h1 : ((sn c * n * n * Dfs.ONE / (2 * sd c) : Nat) : ℝ) ≤
      (sn c * n * n * Dfs.ONE : Nat) / (2 * sd c : Nat) := Nat.cast_div_le
  have h2 : ((pn c * n * Dfs.ONE / pd c : Nat) : ℝ) ≤ (pn c * n * Dfs.ONE : Nat) / (pd c : Nat) :=
    Nat.cast_div_le
  unfold costR
  rw [slope_realE, price_realE]
  push_cast at h1 h2 ⊢
  have e : ((sn c : ℝ) / sd c / 2 * (n : ℝ) ^ 2 + (pn c : ℝ) / pd c * n) * Dfs.ONE =
      sn c * n * n * Dfs.ONE / (2 * sd c) + pn c * n * Dfs.ONE / pd c := by
    field_simp
  rw [e]
  linarith

/-- Validation keeps the slope at `10^-18` or more. -/
theorem notch_le_one {c : LinearPriceCurve} (hv : isCurveParamValid c = .ok ()) : notch c ≤ 1 := by
  have h1 := ((C11_params c).1 (by simp only [Curve.validate, hv])).2.2.2
  have h2 : ((1 / 10 ^ 18 : ℚ) : ℝ) ≤ ((slope c : ℚ) : ℝ) := by exact_mod_cast h1
  push_cast at h2
  have hs := slope_pos hv
  unfold notch
  rw [div_le_one (by positivity)]
  have : (10 : ℝ) ^ 18 * (1 / 10 ^ 18) ≤ 10 ^ 18 * ((slope c : ℚ) : ℝ) := by gcongr
  norm_num at this ⊢
  exact this

/-- C98, the curve's side of a sale: it succeeds, and what it pays is at least what the curve gives exactly
for the offer less the blur, the notch and one token B, less one token A. -/
theorem C98_curve_sell (c : LinearPriceCurve) (hv : isCurveParamValid c = .ok ())
    (s A B : Nat) (hA : A < 2 ^ 64) (hs : s < 2 ^ 64) (hs1 : 1 ≤ s)
    (hnp : bValue c (A * 10 ^ 18) true ≠ .panic) (hpos : 1 + grain c A ≤ position c A)
    (hq : costR c (max 0 (position c A + blur c A + notch c - s + 1)) ≤ A - 1) :
    ∃ r, Linear.swapWithoutFees c s B A .BtoA = .ok r ∧
      A - costR c (max 0 (position c A + blur c A + notch c - s + 1)) - 1 < r.destination_amount_swapped := by
  have nz := nz_of_valid hv
  have hA' := lt64 hA
  have hs' := lt64 hs
  have ho := Linear.oneR_pos
  have hO : ((Dfs.ONE : Nat) : ℝ) = 10 ^ 18 := by rw [Dfs.ONE_val]; norm_num
  have hbl := blur_nonneg hv A
  obtain ⟨b0, hb0⟩ : ∃ b0, bValue c (A * Dfs.ONE) true = .ok b0 := by
    have := (C44_up_iff c hv A (by omega)).1
    rcases hb : bValue c (A * Dfs.ONE) true with b0 | _ | _
    · exact ⟨b0, rfl⟩
    · exact absurd hb this
    · exact absurd hb hnp
  obtain ⟨p1, p2⟩ := up_any nz (by omega) hb0
  rw [← hO] at p1 p2
  obtain ⟨k1, k2⟩ := swapBToA_of hA' hs' hv hb0
  have hcn : 0 ≤ costR c (max 0 (position c A + blur c A + notch c - s + 1)) := by
    have := costR_mono hv le_rfl (le_max_left 0 (position c A + blur c A + notch c - s + 1))
    have h0 : costR c 0 = 0 := by unfold costR; ring
    linarith
  have hA1 : 1 ≤ A := by
    have : (1 : ℝ) ≤ A := by linarith
    exact_mod_cast this
  rcases Nat.lt_or_ge b0 (s * Dfs.ONE) with hlt | hge
  · have hx : (b0 + Dfs.roundingCorrection) / Dfs.ONE ≠ 0 := by
      have hb1 : (1 : ℝ) - 1 / Dfs.ONE < (b0 : ℝ) / Dfs.ONE := by linarith
      have hb2 : (Dfs.ONE : ℝ) - 1 < b0 := by
        have e : (1 : ℝ) - 1 / Dfs.ONE = (Dfs.ONE - 1) / Dfs.ONE := by field_simp
        rw [e, div_lt_div_iff_of_pos_right ho] at hb1; exact hb1
      have hb3 : Dfs.ONE < b0 + 1 := by
        have : (Dfs.ONE : ℝ) < b0 + 1 := by linarith
        exact_mod_cast this
      have : 1 ≤ (b0 + Dfs.roundingCorrection) / Dfs.ONE := by
        rw [Nat.le_div_iff_mul_le Dfs.ONE_pos]
        have : 1 ≤ Dfs.roundingCorrection := by decide
        omega
      omega
    refine ⟨_, swapWithoutFees_of_sell (k1 hlt) hx (by omega), ?_⟩
    simp only []
    linarith
  · have c1 : (b0 - s * Dfs.ONE + (Dfs.ONE - 1)) / Dfs.ONE * Dfs.ONE ≤
        b0 - s * Dfs.ONE + (Dfs.ONE - 1) := Nat.div_mul_le_self _ _
    replace k2 := k2 hge
    generalize (b0 - s * Dfs.ONE + (Dfs.ONE - 1)) / Dfs.ONE = n at *
    have hop := Dfs.ONE_pos
    have c1' : n * Dfs.ONE + s * Dfs.ONE < b0 + Dfs.ONE := by omega
    have c1r : ((n : ℝ) + s) * Dfs.ONE < b0 + Dfs.ONE := by
      have : ((n * Dfs.ONE + s * Dfs.ONE : Nat) : ℝ) < ((b0 + Dfs.ONE : Nat) : ℝ) := by
        exact_mod_cast c1'
      push_cast at this; linarith
    have d1 : (n : ℝ) + s < (b0 : ℝ) / Dfs.ONE + 1 := by
      have : (b0 : ℝ) / Dfs.ONE + 1 = (b0 + Dfs.ONE) / Dfs.ONE := by field_simp
      rw [this, lt_div_iff₀ ho]; exact c1r
    have hcost : costR c n ≤ costR c (max 0 (position c A + blur c A + notch c - s + 1)) :=
      costR_mono hv (Nat.cast_nonneg _) (le_trans (by linarith) (le_max_right _ _))
    have hLr := amtF_leR nz n
    have hLA : amtF c (n * Dfs.ONE) + Dfs.ONE ≤ A * Dfs.ONE := by
      have h1 : (amtF c (n * Dfs.ONE) : ℝ) ≤ (A - 1) * Dfs.ONE := by
        refine le_trans hLr ?_
        gcongr
        linarith
      have : (amtF c (n * Dfs.ONE) : ℝ) + Dfs.ONE ≤ A * Dfs.ONE := by linarith
      exact_mod_cast this
    replace k2 := k2 (by omega)
    generalize amtF c (n * Dfs.ONE) = L at *
    have hy1 : 1 ≤ (A * Dfs.ONE - L) / Dfs.ONE := by
      rw [Nat.le_div_iff_mul_le Dfs.ONE_pos]; omega
    refine ⟨_, swapWithoutFees_of_sell k2 (by omega) (by omega), ?_⟩
    simp only []
    have f2 : A * Dfs.ONE - L < Dfs.ONE * ((A * Dfs.ONE - L) / Dfs.ONE + 1) :=
      Nat.lt_mul_div_succ _ Dfs.ONE_pos
    generalize (A * Dfs.ONE - L) / Dfs.ONE = y at *
    have g2 : (A : ℝ) * Dfs.ONE - L < Dfs.ONE * (y + 1) := by
      have : ((A * Dfs.ONE - L : Nat) : ℝ) < ((Dfs.ONE * (y + 1) : Nat) : ℝ) := by
        exact_mod_cast f2
      rw [Nat.cast_sub (by omega)] at this; push_cast at this; exact this
    have g3 : (A : ℝ) - costR c n < y + 1 := by
      have : (A : ℝ) * Dfs.ONE - costR c n * Dfs.ONE < (y + 1) * Dfs.ONE := by linarith
      rw [← sub_mul] at this
      exact lt_of_mul_lt_mul_right this ho.le
    linarith

/-- C98, the curve's side of a purchase: an offer that moves the exact position by more than one token B plus
the allowances succeeds, unless what is left in the vault is worth less than half a token A. -/
theorem C98_curve_buy (c : LinearPriceCurve) (hv : isCurveParamValid c = .ok ())
    (s A B : Nat) (hA : A < 2 ^ 64) (hs : s < 2 ^ 64) (hB : 1 ≤ B)
    (hnp : bValue c (A * 10 ^ 18) true ≠ .panic)
    (hw : 1 / 2 + 2 / 10 ^ 18 ≤ costR c (max 0 (position c A - grain c A - 1 / 10 ^ 18 + B)) - A)
    (hq : 1 + blur c A + blur c (A + s) + grain c (A + s) + notch c + 1 / 10 ^ 18 ≤
      position c (A + s) - position c A) :
    ∃ r, Linear.swapWithoutFees c s A B .AtoB = .ok r := by
  have nz := nz_of_valid hv
  have hA' := lt64 hA
  have hs' := lt64 hs
  have ho := Linear.oneR_pos
  have hO : ((Dfs.ONE : Nat) : ℝ) = 10 ^ 18 := by rw [Dfs.ONE_val]; norm_num
  have hbl := blur_nonneg hv A
  have hbl2 := blur_nonneg hv (A + s)
  have hgr := grain_nonneg hv (A + s)
  have hno := notch_nonneg hv
  have hs1 : s ≠ 0 := by
    intro h0
    rw [h0, Nat.add_zero] at hq hgr
    have : (0 : ℝ) ≤ 1 / 10 ^ 18 := by positivity
    linarith
  obtain ⟨b0, hb0⟩ : ∃ b0, bValue c (A * Dfs.ONE) true = .ok b0 := by
    have := (C44_up_iff c hv A (by omega)).1
    rcases hb : bValue c (A * Dfs.ONE) true with b0 | _ | _
    · exact ⟨b0, rfl⟩
    · exact absurd hb this
    · exact absurd hb hnp
  obtain ⟨p1, p2⟩ := up_any nz (by omega) hb0
  rw [← hO] at p1 p2
  rcases hm : maximumARemaining c (A * Dfs.ONE) b0 s B with ⟨x, y⟩ | _ | _
  · have hsw : swapAToB c s A B = .ok (x, y) := by
      rw [swapAToB_of (by omega) hb0, hm]
    obtain ⟨hyB, hxs, v, hv', hAv, hx⟩ := maximumARemaining_ok hm
    have hV := VMAX_of_le hA' hs' hx hxs
    obtain ⟨e, _, _⟩ := amt_eq_ok nz.sn hv' hV
    obtain ⟨a1, _⟩ := amtF_bounds nz (b0 + B * Dfs.ONE)
    rw [← e] at a1
    have eb : ((b0 + B * Dfs.ONE : Nat) : ℝ) / Dfs.ONE = (b0 : ℝ) / Dfs.ONE + B := by
      push_cast; field_simp
    rw [eb] at a1
    have hB1 : (1 : ℝ) ≤ B := by exact_mod_cast hB
    have hone : (1 : ℝ) / Dfs.ONE ≤ 1 := by rw [hO]; norm_num
    have hpos := position_nonneg hv A
    have hb0n : (0 : ℝ) ≤ (b0 : ℝ) / Dfs.ONE := by positivity
    have m2 : costR c (max 0 (position c A - grain c A - 1 / Dfs.ONE + B)) ≤
        costR c ((b0 : ℝ) / Dfs.ONE + B) :=
      costR_mono hv (le_max_left _ _) (max_le (by linarith) (by linarith))
    rw [← hO] at hw
    have hv2 : (1 : ℝ) / 2 < (v : ℝ) / Dfs.ONE - A := by linarith
    have hv3 : A * Dfs.ONE + Dfs.roundingCorrection ≤ v := by
      have e3 : (v : ℝ) / Dfs.ONE - A = (v - A * Dfs.ONE) / Dfs.ONE := by field_simp
      rw [e3, lt_div_iff₀ ho] at hv2
      have hrc : (Dfs.roundingCorrection : ℝ) = (Dfs.ONE : ℝ) / 2 := by
        have : Dfs.ONE = 2 * Dfs.roundingCorrection := one_eq_two_rc
        rw [this]; push_cast; ring
      have : (A : ℝ) * Dfs.ONE + Dfs.roundingCorrection ≤ v := by rw [hrc]; linarith
      exact_mod_cast this
    have hx1 : 1 ≤ x := by
      rw [hx, Nat.le_div_iff_mul_le Dfs.ONE_pos]
      have : Dfs.ONE = 2 * Dfs.roundingCorrection := one_eq_two_rc
      omega
    exact ⟨_, swapWithoutFees_of_buy hsw (by omega) (by omega)⟩
  · obtain ⟨b1, hb1⟩ := C44_down_total c hv (A + s) (by omega)
    obtain ⟨q1, q2⟩ := down_any (A := A + s) nz (by omega) hb1
    rw [← hO] at q1 q2
    rw [← hO] at hq
    have h1 : (1 : ℝ) + (b0 : ℝ) / Dfs.ONE < (b1 : ℝ) / Dfs.ONE := by linarith
    have h2 : b0 + Dfs.ONE < b1 := by
      have e : (1 : ℝ) + (b0 : ℝ) / Dfs.ONE = (b0 + Dfs.ONE) / Dfs.ONE := by field_simp; ring
      rw [e, div_lt_div_iff_of_pos_right ho] at h1
      exact_mod_cast h1
    have hsw := swapAToB_none hA' hs' hb0 hb1 (by omega)
      (out_lt_u128 hv (A := A + s) (by omega) hb1) hm
    refine ⟨_, swapWithoutFees_of_buy hsw hs1 ?_⟩
    have : 1 ≤ (b1 - b0) / Dfs.ONE := by
      rw [Nat.le_div_iff_mul_le Dfs.ONE_pos]; omega
    omega
  · exact absurd hm maximumARemaining_ne_panic

/-- C98.  Whoever holds token B of a linear pool can sell it back: on every reachable ledger the instruction
goes through, takes at most what was offered, and pays the cost of the curve between the position before and
the position after (widened by blur, notch and one token), less at most one token A. -/
theorem C98_sale (env : Env) (K : Pubkey → Prop) (he : EnvOk env K) (w : World)
    (hr : Reachable env K w) (k : Pubkey) (s : SwapV1) (hp : PoolAt env w k s)
    (c : LinearPriceCurve) (hc : s.swap_curve = .linear c) (pda : Pubkey)
    (hpda : env.createPda k s.bump_seed = some pda) (signers : List Pubkey) (u : Pubkey)
    (hu : u ∈ signers) (hun : ¬ IsPda env K u) (src dst : Pubkey) (x y : UInt64)
    (tA tB : TokenAccount) (hA : tokenAt w s.token_a = some tA) (hB : tokenAt w s.token_b = some tB)
    (hx1 : 1 ≤ x.toNat) (hnp : bValue c (tA.amount.toNat * 10 ^ 18) true ≠ .panic)
    (hpos : 1 + grain c tA.amount.toNat ≤ position c tA.amount.toNat) (loss : ℝ)
    (hloss : loss = costR c (max 0 (position c tA.amount.toNat + blur c tA.amount.toNat + notch c -
      x.toNat + 1)))
    (hq : loss ≤ tA.amount.toNat - 1) (hy : (y.toNat : ℝ) ≤ tA.amount.toNat - loss - 1)
    (hpay : CanPay env w src s.token_b_mint u x.toNat)
    (hroom : CanReceive env w s.token_b s.token_b_mint x.toNat) (hthaw : Thawed w s.token_a)
    (hrecv : CanReceive env w dst s.token_a_mint tA.amount.toNat) (hdst : dst ≠ s.token_a) :
    ∃ (w' : World) (paid got : Nat), exec env signers (.swap ⟨k, pda, u, src, s.token_b, s.token_a,
        dst, s.pool_mint, s.pool_fee_account, env.tokenProgramId⟩ x y) w = .ok w' ∧
      paid ≤ x.toNat ∧ got ≤ tA.amount.toNat ∧ (tA.amount.toNat : ℝ) - loss - 1 < got ∧
      bal w' src = bal w src - paid ∧ bal w' s.token_b = bal w s.token_b + paid ∧
      bal w' s.token_a = bal w s.token_a - got ∧ bal w' dst = bal w dst + got := by
  have hv := Exit.valid he hr hp hc
  obtain ⟨q, h1, h2⟩ := C98_curve_sell c hv x.toNat tA.amount.toNat tB.amount.toNat
    tA.amount.toNat_lt x.toNat_lt hx1 hnp hpos (by rw [← hloss]; exact hq)
  rw [← hloss] at h2
  obtain ⟨l1, l2⟩ := Exit.sale_le h1
  have hyq : y.toNat ≤ q.destination_amount_swapped := by
    have : (y.toNat : ℝ) < q.destination_amount_swapped := lt_of_le_of_lt hy h2
    exact le_of_lt (by exact_mod_cast this)
  obtain ⟨w', hw', b1, b2, b3, b4⟩ := C52_linear env K he w hr k s hp c hc pda hpda signers u hu hun
    .BtoA src dst x y tB tA hB hA q h1 l2 hyq (Exit.canPay_le hpay l1) (Exit.canReceive_le hroom l1)
    hthaw (Exit.canReceive_le hrecv l2) hdst
  exact ⟨w', _, _, hw', l1, l2, h2, b1, b2, b3, b4⟩

/-- C98.  Selling the whole position (plus blur, notch and one token of margin) empties vault A, and takes no
more than the position plus blur and notch plus half a token. -/
theorem C98_everything (env : Env) (K : Pubkey → Prop) (he : EnvOk env K) (w : World)
    (hr : Reachable env K w) (k : Pubkey) (s : SwapV1) (hp : PoolAt env w k s)
    (c : LinearPriceCurve) (hc : s.swap_curve = .linear c) (pda : Pubkey)
    (hpda : env.createPda k s.bump_seed = some pda) (signers : List Pubkey) (u : Pubkey)
    (hu : u ∈ signers) (hun : ¬ IsPda env K u) (src dst : Pubkey) (x y : UInt64)
    (tA tB : TokenAccount) (hA : tokenAt w s.token_a = some tA) (hB : tokenAt w s.token_b = some tB)
    (hA1 : 1 ≤ tA.amount.toNat) (hnp : bValue c (tA.amount.toNat * 10 ^ 18) true ≠ .panic)
    (hpos : 1 + grain c tA.amount.toNat ≤ position c tA.amount.toNat)
    (hx : position c tA.amount.toNat + blur c tA.amount.toNat + notch c + 1 ≤ x.toNat)
    (hy : y ≤ tA.amount)
    (hpay : CanPay env w src s.token_b_mint u x.toNat)
    (hroom : CanReceive env w s.token_b s.token_b_mint x.toNat) (hthaw : Thawed w s.token_a)
    (hrecv : CanReceive env w dst s.token_a_mint tA.amount.toNat) (hdst : dst ≠ s.token_a) :
    ∃ (w' : World) (paid : Nat), exec env signers (.swap ⟨k, pda, u, src, s.token_b, s.token_a, dst,
        s.pool_mint, s.pool_fee_account, env.tokenProgramId⟩ x y) w = .ok w' ∧
      (paid : ℝ) ≤ position c tA.amount.toNat + blur c tA.amount.toNat + notch c + 1 / 2 ∧
      bal w' src = bal w src - paid ∧ bal w' s.token_b = bal w s.token_b + paid ∧
      bal w' s.token_a = 0 ∧ bal w' dst = bal w dst + tA.amount.toNat := by
  have hv := Exit.valid he hr hp hc
  have hm : max 0 (position c tA.amount.toNat + blur c tA.amount.toNat + notch c - x.toNat + 1) = 0 :=
    max_eq_left (by linarith)
  have h0 : costR c 0 = 0 := by unfold costR; ring
  have hx1 : 1 ≤ x.toNat := by
    have hb := blur_nonneg hv tA.amount.toNat
    have hno := notch_nonneg hv
    have hgr := grain_nonneg hv tA.amount.toNat
    have : (1 : ℝ) ≤ x.toNat := by linarith
    exact_mod_cast this
  have hA1' : (1 : ℝ) ≤ tA.amount.toNat := by exact_mod_cast hA1
  obtain ⟨q, h1, h2⟩ := C98_curve_sell c hv x.toNat tA.amount.toNat tB.amount.toNat
    tA.amount.toNat_lt x.toNat_lt hx1 hnp hpos (by rw [hm, h0]; linarith)
  rw [hm, h0] at h2
  obtain ⟨l1, l2⟩ := Exit.sale_le h1
  have ey : q.destination_amount_swapped = tA.amount.toNat := by
    have : (tA.amount.toNat : ℝ) < (q.destination_amount_swapped + 1 : Nat) := by
      push_cast; linarith
    have : tA.amount.toNat < q.destination_amount_swapped + 1 := by exact_mod_cast this
    omega
  have hAl := tA.amount.toNat_lt
  have hp' : (q.source_amount_swapped : ℝ) ≤
      position c tA.amount.toNat + blur c tA.amount.toNat + notch c + 1 / 2 := by
    have ho := Linear.oneR_pos
    obtain ⟨g1, _, _⟩ := swapWithoutFees_sell h1
    obtain ⟨b0, hb0, hcase⟩ := swapBToA_ok g1
    obtain ⟨_, p2⟩ := up_any (nz_of_valid hv) (by omega) hb0
    rw [← Linear.oneR] at p2
    have hqb : (q.source_amount_swapped : ℝ) ≤ (b0 : ℝ) / Dfs.ONE + 1 / 2 := by
      rcases hcase with ⟨_, _, hxx⟩ | ⟨hge, _, _⟩
      · have := Nat.div_mul_le_self (b0 + Dfs.roundingCorrection) Dfs.ONE
        rw [← hxx] at this
        have hrc : (Dfs.roundingCorrection : ℝ) = (Dfs.ONE : ℝ) / 2 := by
          have : Dfs.ONE = 2 * Dfs.roundingCorrection := one_eq_two_rc
          rw [this]; push_cast; ring
        have h3 : (q.source_amount_swapped : ℝ) * Dfs.ONE ≤ b0 + Dfs.roundingCorrection := by
          exact_mod_cast this
        rw [hrc] at h3
        have e : (b0 : ℝ) / Dfs.ONE + 1 / 2 = (b0 + Dfs.ONE / 2) / Dfs.ONE := by field_simp
        rw [e, le_div_iff₀ ho]; exact h3
      · exfalso
        have h4 : ((x.toNat * Dfs.ONE : Nat) : ℝ) ≤ (b0 : ℝ) := by exact_mod_cast hge
        rw [Nat.cast_mul] at h4
        have h3 : (x.toNat : ℝ) ≤ (b0 : ℝ) / Dfs.ONE := by rw [le_div_iff₀ ho]; exact h4
        linarith
    linarith
  obtain ⟨w', hw', b1, b2, b3, b4⟩ := C52_linear env K he w hr k s hp c hc pda hpda signers u hu hun
    .BtoA src dst x y tB tA hB hA q h1 l2 (by rw [ey]; exact UInt64.le_iff_toNat_le.1 hy)
    (Exit.canPay_le hpay l1) (Exit.canReceive_le hroom l1)
    hthaw (Exit.canReceive_le hrecv l2) hdst
  refine ⟨w', _, hw', hp', b1, b2, ?_, by rw [b4, ey]⟩
  have b3' : bal w' s.token_a = bal w s.token_a - q.destination_amount_swapped := b3
  rw [b3', ey, bal_some hA]
  omega

/-- A purchase that leaves half a token A worth in the vault does not hand out more than the vault
holds. -/
theorem Exit.buy_le_any {c : LinearPriceCurve} (hv : isCurveParamValid c = .ok ())
    {s A B : Nat} (hA : A < 2 ^ 64) (hs : s < 2 ^ 64) 
    (hw : 1 / 2 + 2 / 10 ^ 18 ≤ costR c (max 0 (position c A - grain c A - 1 / 10 ^ 18 + B)) - A)
    {q : SwapWithoutFeesResult} (h : Linear.swapWithoutFees c s A B .AtoB = .ok q) :
    q.source_amount_swapped ≤ s ∧ q.destination_amount_swapped ≤ B := by
  have nz := nz_of_valid hv
  have ho := Linear.oneR_pos
  have hO : ((Dfs.ONE : Nat) : ℝ) = 10 ^ 18 := by rw [Dfs.ONE_val]; norm_num
  obtain ⟨h1, _, _⟩ := swapWithoutFees_buy h
  generalize q.source_amount_swapped = x at *
  generalize q.destination_amount_swapped = y at *
  obtain ⟨b0, hb0, hm | ⟨hm, hx, b1, hb1, hle, hy⟩⟩ := swapAToB_inv h1
  · obtain ⟨hyB, hxs, _⟩ := maximumARemaining_ok hm
    exact ⟨hxs, by omega⟩
  · refine ⟨by omega, ?_⟩
    by_contra hn
    have hB1 : (B + 1) * Dfs.ONE ≤ b1 - b0 := by
      rw [← Nat.le_div_iff_mul_le Dfs.ONE_pos, ← hy]; omega
    have hb : b0 + B * Dfs.ONE ≤ b1 := by rw [Nat.add_mul] at hB1; omega
    obtain ⟨p1, _⟩ := up_any nz (by omega) hb0
    rw [← hO] at p1
    obtain ⟨_, q2⟩ := down_any (A := A + s) nz (by omega) hb1
    rw [← hO] at q2
    have hno := notch_le_one hv
    have up := (amtF_bounds nz (b0 + B * Dfs.ONE)).2
    have lo := (amtF_bounds nz (b0 + B * Dfs.ONE)).1
    have eb : ((b0 + B * Dfs.ONE : Nat) : ℝ) / Dfs.ONE = (b0 : ℝ) / Dfs.ONE + B := by
      push_cast; field_simp
    rw [eb] at lo up
    have hb0n : (0 : ℝ) ≤ (b0 : ℝ) / Dfs.ONE := by positivity
    have hBn : (0 : ℝ) ≤ B := Nat.cast_nonneg _
    have hb' : (b0 : ℝ) / Dfs.ONE + B + 1 ≤ (b1 : ℝ) / Dfs.ONE := by
      have h3 : b0 + (B + 1) * Dfs.ONE ≤ b1 := by omega
      have h4 : (b0 : ℝ) + (B + 1) * Dfs.ONE ≤ b1 := by exact_mod_cast h3
      rw [le_div_iff₀ ho, add_assoc, add_mul, div_mul_cancel₀ _ ho.ne']
      exact h4
    have hc1 : costR c ((b0 : ℝ) / Dfs.ONE + B) ≤ (A + s : Nat) := by
      rw [← Exit.cost_position hv (A + s)]
      exact costR_mono hv (by linarith) (by linarith)
    have hA1 : A * Dfs.ONE ≤ amtF c (b0 + B * Dfs.ONE) := by
      rw [← hO] at hw
      have hcase : (A : ℝ) + 1 / 2 < (amtF c (b0 + B * Dfs.ONE) : ℝ) / Dfs.ONE := by
        have m2 : costR c (max 0 (position c A - grain c A - 1 / Dfs.ONE + B)) ≤
            costR c ((b0 : ℝ) / Dfs.ONE + B) :=
          costR_mono hv (le_max_left _ _) (max_le (by linarith) (by linarith))
        linarith
      rw [lt_div_iff₀ ho] at hcase
      have : (A : ℝ) * Dfs.ONE ≤ amtF c (b0 + B * Dfs.ONE) := by nlinarith
      exact_mod_cast this
    have hA2 : amtF c (b0 + B * Dfs.ONE) ≤ (A + s) * Dfs.ONE + 1 := by
      have h3 : (amtF c (b0 + B * Dfs.ONE) : ℝ) / Dfs.ONE ≤ (A + s : Nat) + 1 / Dfs.ONE := by linarith
      have e : ((A + s : Nat) : ℝ) + 1 / Dfs.ONE = (((A + s : Nat) : ℝ) * Dfs.ONE + 1) / Dfs.ONE := by
        field_simp
      rw [e, div_le_div_iff_of_pos_right ho] at h3
      exact_mod_cast h3
    have hbl := bValue_lt_U hv (A := A + s) (by omega) hb1
    rw [maximumARemaining_of nz (by omega) (by omega) (by omega) hA1 hA2] at hm
    cases hm

/-- C98.  Whoever offers token A to a linear pool is served: if the offer moves the exact position by more
than one token B plus the allowances of both ends, and what the vault holds is worth half a token A or more,
the instruction goes through, takes at most the offer and hands out at least one token B. -/
theorem C98_purchase (env : Env) (K : Pubkey → Prop) (he : EnvOk env K) (w : World)
    (hr : Reachable env K w) (k : Pubkey) (s : SwapV1) (hp : PoolAt env w k s)
    (c : LinearPriceCurve) (hc : s.swap_curve = .linear c) (pda : Pubkey)
    (hpda : env.createPda k s.bump_seed = some pda) (signers : List Pubkey) (u : Pubkey)
    (hu : u ∈ signers) (hun : ¬ IsPda env K u) (src dst : Pubkey) (x y : UInt64)
    (tA tB : TokenAccount) (hA : tokenAt w s.token_a = some tA) (hB : tokenAt w s.token_b = some tB)
    (hB1 : 1 ≤ tB.amount.toNat) (hnp : bValue c (tA.amount.toNat * 10 ^ 18) true ≠ .panic)
    (hw : 1 / 2 + 2 / 10 ^ 18 ≤
      costR c (max 0 (position c tA.amount.toNat - grain c tA.amount.toNat - 1 / 10 ^ 18 +
        tB.amount.toNat)) - tA.amount.toNat)
    (hq : 1 + blur c tA.amount.toNat + blur c (tA.amount.toNat + x.toNat) +
      grain c (tA.amount.toNat + x.toNat) + notch c + 1 / 10 ^ 18 ≤
      position c (tA.amount.toNat + x.toNat) - position c tA.amount.toNat)
    (hy : y ≤ 1)
    (hpay : CanPay env w src s.token_a_mint u x.toNat)
    (hroom : CanReceive env w s.token_a s.token_a_mint x.toNat) (hthaw : Thawed w s.token_b)
    (hrecv : CanReceive env w dst s.token_b_mint tB.amount.toNat) (hdst : dst ≠ s.token_b) :
    ∃ (w' : World) (paid got : Nat), exec env signers (.swap ⟨k, pda, u, src, s.token_a, s.token_b,
        dst, s.pool_mint, s.pool_fee_account, env.tokenProgramId⟩ x y) w = .ok w' ∧
      1 ≤ paid ∧ paid ≤ x.toNat ∧ 1 ≤ got ∧ got ≤ tB.amount.toNat ∧
      bal w' src = bal w src - paid ∧ bal w' s.token_a = bal w s.token_a + paid ∧
      bal w' s.token_b = bal w s.token_b - got ∧ bal w' dst = bal w dst + got := by
  have hv := Exit.valid he hr hp hc
  obtain ⟨q, h1⟩ := C98_curve_buy c hv x.toNat tA.amount.toNat tB.amount.toNat
    tA.amount.toNat_lt x.toNat_lt hB1 hnp hw hq
  obtain ⟨l1, l2⟩ := Exit.buy_le_any hv tA.amount.toNat_lt x.toNat_lt hw h1
  obtain ⟨_, hx0, hy0⟩ := swapWithoutFees_buy h1
  have hy1 : y.toNat ≤ 1 := UInt64.le_iff_toNat_le.1 hy
  obtain ⟨w', hw', b1, b2, b3, b4⟩ := C52_linear env K he w hr k s hp c hc pda hpda signers u hu hun
    .AtoB src dst x y tA tB hA hB q h1 l2 (by omega) (Exit.canPay_le hpay l1)
    (Exit.canReceive_le hroom l1) hthaw (Exit.canReceive_le hrecv l2) hdst
  exact ⟨w', _, _, hw', by omega, l1, by omega, l2, b1, b2, b3, b4⟩

/-! ### With slope 1/3 and price 1/7

300 token A are the exact cost of 42 token B. -/

theorem third_position : position thirdCurve 300 = 42 ∧ blur thirdCurve 300 = 297 / (7 * 2 ^ 30) ∧
    notch thirdCurve = 3 / 10 ^ 18 ∧ grain thirdCurve 300 = 105 / (99 * 10 ^ 18) ∧
    position thirdCurve 0 = 0 ∧ blur thirdCurve 0 = 3 / (7 * 2 ^ 30) ∧
    grain thirdCurve 0 = 105 / 10 ^ 18 := by
  have e1 : ((slope thirdCurve : ℚ) : ℝ) = 1 / 3 := by simp [slope, thirdCurve]
  have e2 : ((Spec.price thirdCurve : ℚ) : ℝ) = 1 / 7 := by simp [Spec.price, thirdCurve]
  have m1 : marginal thirdCurve 300 = 99 / 7 := by
    unfold marginal
    rw [e1, e2, Real.sqrt_eq_iff_mul_self_eq (by norm_num) (by norm_num)]
    norm_num
  have m2 : marginal thirdCurve 0 = 1 / 7 := by
    unfold marginal
    rw [e1, e2, Real.sqrt_eq_iff_mul_self_eq (by norm_num) (by norm_num)]
    norm_num
  unfold position blur notch grain
  rw [m1, m2, e1, e2]
  norm_num

/-- Ten token B sold back into a vault of 300 token A bring more than 112. -/
example : ∃ r, Linear.swapWithoutFees thirdCurve 10 58 300 .BtoA = .ok r ∧
    112 < r.destination_amount_swapped := by
  obtain ⟨p, b, n, g, _⟩ := third_position
  have e1 : ((slope thirdCurve : ℚ) : ℝ) = 1 / 3 := by simp [slope, thirdCurve]
  have e2 : ((Spec.price thirdCurve : ℚ) : ℝ) = 1 / 7 := by simp [Spec.price, thirdCurve]
  have hm : max (0 : ℝ) (position thirdCurve 300 + blur thirdCurve 300 + notch thirdCurve -
      ((10 : Nat) : ℝ) + 1) = 33 + 297 / (7 * 2 ^ 30) + 3 / 10 ^ 18 := by
    rw [p, b, n, max_eq_right] <;> norm_num
  have hc : costR thirdCurve (33 + 297 / (7 * 2 ^ 30) + 3 / 10 ^ 18) < 187 := by
    unfold costR; rw [e1, e2]; norm_num
  obtain ⟨r, h1, h2⟩ := C98_curve_sell thirdCurve (by decide +kernel) 10 300 58 (by decide) (by decide)
    (by decide) (by decide +kernel) (by rw [p, g]; norm_num) (by rw [hm]; norm_num; linarith)
  rw [hm] at h2
  refine ⟨r, h1, ?_⟩
  have : (112 : ℝ) < r.destination_amount_swapped := by
    norm_num at h2; linarith
  exact_mod_cast this

/-- 300 token A buy from a fresh pool with 100 token B. -/
example : ∃ r, Linear.swapWithoutFees thirdCurve 300 0 100 .AtoB = .ok r := by
  obtain ⟨p, b, n, g, p0, b0, g0⟩ := third_position
  have e1 : ((slope thirdCurve : ℚ) : ℝ) = 1 / 3 := by simp [slope, thirdCurve]
  have e2 : ((Spec.price thirdCurve : ℚ) : ℝ) = 1 / 7 := by simp [Spec.price, thirdCurve]
  have hm : max (0 : ℝ) (0 - 105 / 10 ^ 18 - 1 / 10 ^ 18 + ((100 : Nat) : ℝ)) = 100 - 106 / 10 ^ 18 := by
    rw [max_eq_right] <;> norm_num
  refine C98_curve_buy thirdCurve (by decide +kernel) 300 0 100 (by decide) (by decide) (by decide)
    (by decide +kernel) ?_ ?_
  · rw [p0, g0, hm]; unfold costR; rw [e1, e2]; norm_num
  · rw [Nat.zero_add, p, b, n, g, p0, b0]; norm_num

/-! ### On the sample ledger

The linear pool holds 18 token A, position 3 on the curve of slope 2 and initial price 3. -/

theorem lin_grain : notch Sample.lin = 1 / (2 * 10 ^ 18) ∧ grain Sample.lin 18 = 5 / (18 * 10 ^ 18) ∧
    grain Sample.lin 70 = 5 / (34 * 10 ^ 18) := by
  have e1 : ((slope Sample.lin : ℚ) : ℝ) = 2 := by simp [slope, Sample.lin]
  have e2 : ((Spec.price Sample.lin : ℚ) : ℝ) = 3 := by simp [Spec.price, Sample.lin]
  have m1 : marginal Sample.lin 18 = 9 := by
    unfold marginal
    rw [e1, e2, Real.sqrt_eq_iff_mul_self_eq (by norm_num) (by norm_num)]
    norm_num
  have m2 : marginal Sample.lin 70 = 17 := by
    unfold marginal
    rw [e1, e2, Real.sqrt_eq_iff_mul_self_eq (by norm_num) (by norm_num)]
    norm_num
  unfold notch grain
  rw [m1, m2, e1]
  norm_num

/-- Two token B bring in at least 7 token A. -/
example : ∃ (w' : World) (paid got : Nat), exec Sample.env [Sample.key 50] (.swap ⟨Sample.key 1,
    Sample.key 129, Sample.key 50, Sample.key 31, Sample.key 4, Sample.key 3, Sample.key 30,
    Sample.key 5, Sample.key 6, Sample.key 101⟩ 2 6) live = .ok w' ∧ paid ≤ 2 ∧ 7 ≤ got ∧
    bal w' (Sample.key 30) = bal live (Sample.key 30) + got := by
  obtain ⟨p, b, _, _⟩ := lin_position
  obtain ⟨n, g, _⟩ := lin_grain
  have g' : grain Sample.lin (plain 20 129 18).amount.toNat = 5 / (18 * 10 ^ 18) := g
  have e1 : ((slope Sample.lin : ℚ) : ℝ) = 2 := by simp [slope, Sample.lin]
  have e2 : ((Spec.price Sample.lin : ℚ) : ℝ) = 3 := by simp [Spec.price, Sample.lin]
  have p' : position Sample.lin (plain 20 129 18).amount.toNat = 3 := p
  have b' : blur Sample.lin (plain 20 129 18).amount.toNat = 9 / 2 ^ 31 := b
  have a' : (((plain 20 129 18).amount.toNat : Nat) : ℝ) = 18 := by
    rw [show (plain 20 129 18).amount.toNat = 18 from rfl]; norm_num
  have hm : max (0 : ℝ) (3 + 9 / 2 ^ 31 + 1 / (2 * 10 ^ 18) - ((2 : UInt64).toNat : Nat) + 1) =
      2 + 9 / 2 ^ 31 + 1 / (2 * 10 ^ 18) := by
    rw [show (2 : UInt64).toNat = 2 from rfl, max_eq_right] <;> norm_num
  obtain ⟨w', paid, got, h, h1, _, h3, _, _, _, h4⟩ := C98_sale _ _ sample_ok _ live_reachable _ _
    live_pool1 Sample.lin rfl (Sample.key 129) (by decide) [Sample.key 50] _
    (by decide) user (Sample.key 31) (Sample.key 30) 2 6 (plain 20 129 18) (plain 21 129 98)
    (live_tok (by decide +kernel)) (live_tok (by decide +kernel)) (by decide) (by decide +kernel)
    (by rw [p', g']; norm_num) (costR Sample.lin (2 + 9 / 2 ^ 31 + 1 / (2 * 10 ^ 18)))
    (by rw [p', b', n, hm])
    (by rw [a']; unfold costR; rw [e1, e2]; norm_num)
    (by rw [a']; unfold costR; rw [e1, e2, show (6 : UInt64).toNat = 6 from rfl]; norm_num)
    (pays 20141 (by decide +kernel) (by decide +kernel))
    (takes 129 98 (by decide +kernel) (by decide +kernel))
    ⟨plain 20 129 18, live_tok (by decide +kernel), rfl⟩
    (takes 50 18987 (by decide +kernel) (by decide +kernel)) (by decide)
  refine ⟨w', paid, got, h, h1, ?_, h4⟩
  have hc : costR Sample.lin (2 + 9 / 2 ^ 31 + 1 / (2 * 10 ^ 18)) < 11 := by unfold costR; rw [e1, e2]; norm_num
  rw [a'] at h3
  have : (6 : ℝ) < got := by linarith
  have : 6 < got := by exact_mod_cast this
  omega

/-- Five token B empty vault A; only three are taken. -/
example : ∃ (w' : World) (paid : Nat), exec Sample.env [Sample.key 50] (.swap ⟨Sample.key 1,
    Sample.key 129, Sample.key 50, Sample.key 31, Sample.key 4, Sample.key 3, Sample.key 30,
    Sample.key 5, Sample.key 6, Sample.key 101⟩ 5 18) live = .ok w' ∧ paid ≤ 3 ∧
    bal w' (Sample.key 3) = 0 ∧ bal w' (Sample.key 30) = bal live (Sample.key 30) + 18 := by
  obtain ⟨p, b, _, _⟩ := lin_position
  obtain ⟨n, g, _⟩ := lin_grain
  have g' : grain Sample.lin (plain 20 129 18).amount.toNat = 5 / (18 * 10 ^ 18) := g
  have p' : position Sample.lin (plain 20 129 18).amount.toNat = 3 := p
  have b' : blur Sample.lin (plain 20 129 18).amount.toNat = 9 / 2 ^ 31 := b
  obtain ⟨w', paid, h, h1, _, _, h3, h4⟩ := C98_everything _ _ sample_ok _ live_reachable _ _
    live_pool1 Sample.lin rfl (Sample.key 129) (by decide) [Sample.key 50] _
    (by decide) user (Sample.key 31) (Sample.key 30) 5 18 (plain 20 129 18) (plain 21 129 98)
    (live_tok (by decide +kernel)) (live_tok (by decide +kernel)) (by decide) (by decide +kernel)
    (by rw [p', g']; norm_num)
    (by rw [p', b', n, show (5 : UInt64).toNat = 5 from rfl]; norm_num) (by decide)
    (pays 20141 (by decide +kernel) (by decide +kernel))
    (takes 129 98 (by decide +kernel) (by decide +kernel))
    ⟨plain 20 129 18, live_tok (by decide +kernel), rfl⟩
    (takes 50 18987 (by decide +kernel) (by decide +kernel)) (by decide)
  refine ⟨w', paid, h, ?_, h3, h4⟩
  rw [p', b', n] at h1
  have : (paid : ℝ) < 4 := by
    have : (9 : ℝ) / 2 ^ 31 + 1 / (2 * 10 ^ 18) < 1 / 2 := by norm_num
    linarith
  have : paid < 4 := by exact_mod_cast this
  omega

/-- 52 token A buy from the same pool. -/
example : ∃ (w' : World) (paid got : Nat), exec Sample.env [Sample.key 50] (.swap ⟨Sample.key 1,
    Sample.key 129, Sample.key 50, Sample.key 30, Sample.key 3, Sample.key 4, Sample.key 31,
    Sample.key 5, Sample.key 6, Sample.key 101⟩ 52 1) live = .ok w' ∧ 1 ≤ paid ∧ paid ≤ 52 ∧
    1 ≤ got ∧ bal w' (Sample.key 31) = bal live (Sample.key 31) + got := by
  obtain ⟨p, b, p2, b2⟩ := lin_position
  obtain ⟨n, g, g2⟩ := lin_grain
  have g' : grain Sample.lin (plain 20 129 18).amount.toNat = 5 / (18 * 10 ^ 18) := g
  have g2' : grain Sample.lin ((plain 20 129 18).amount.toNat + (52 : UInt64).toNat) =
    5 / (34 * 10 ^ 18) := g2
  have e1 : ((slope Sample.lin : ℚ) : ℝ) = 2 := by simp [slope, Sample.lin]
  have e2 : ((Spec.price Sample.lin : ℚ) : ℝ) = 3 := by simp [Spec.price, Sample.lin]
  have p' : position Sample.lin (plain 20 129 18).amount.toNat = 3 := p
  have b' : blur Sample.lin (plain 20 129 18).amount.toNat = 9 / 2 ^ 31 := b
  have p2' : position Sample.lin ((plain 20 129 18).amount.toNat + (52 : UInt64).toNat) = 7 := p2
  have b2' : blur Sample.lin ((plain 20 129 18).amount.toNat + (52 : UInt64).toNat) =
    17 / 2 ^ 31 := b2
  have a' : (((plain 20 129 18).amount.toNat : Nat) : ℝ) = 18 := by
    rw [show (plain 20 129 18).amount.toNat = 18 from rfl]; norm_num
  have c' : (((plain 21 129 98).amount.toNat : Nat) : ℝ) = 98 := by
    rw [show (plain 21 129 98).amount.toNat = 98 from rfl]; norm_num
  obtain ⟨w', paid, got, h, h1, h2, h3, _, _, _, _, h4⟩ := C98_purchase _ _ sample_ok _
    live_reachable _ _ live_pool1 Sample.lin rfl (Sample.key 129) (by decide)
    [Sample.key 50] _ (by decide) user (Sample.key 30) (Sample.key 31) 52 1 (plain 20 129 18)
    (plain 21 129 98) (live_tok (by decide +kernel)) (live_tok (by decide +kernel)) (by decide)
    (by decide +kernel)
    (by rw [p', a', c', g', max_eq_right (by norm_num)]; unfold costR; rw [e1, e2]; norm_num)
    (by rw [p', b', p2', b2', g2', n]; norm_num) (by decide)
    (pays 18987 (by decide +kernel) (by decide +kernel))
    (takes 129 18 (by decide +kernel) (by decide +kernel))
    ⟨plain 21 129 98, live_tok (by decide +kernel), rfl⟩
    (takes 50 20141 (by decide +kernel) (by decide +kernel)) (by decide)
  exact ⟨w', paid, got, h, h1, h2, h3, h4⟩

end Props
end Verif
