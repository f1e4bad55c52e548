import Verif.Lemmas.Emptied
import Verif.Props.Backed

/-
C60 when the B vault may be emptied, for steep curves on which the last token is not cheap.
-/

namespace Verif
namespace Props
open Spec Processor
open Linear hiding price

theorem held_start {c : LinearPriceCurve} {A0 B0 T : Nat} (hT : T ≤ B0) (o : Nat) (ho : B0 + o = T) :
    Held c A0 o := by
  have h0 : o = 0 := by omega
  rw [h0]
  exact Held.zero

/-- What every history of a steep, moored pool maintains, if it holds at the start. -/
theorem emptied_inv {c : LinearPriceCurve} (hz : Nz c) (hst : Steeper c) {A0 B0 T F : Nat}
    (hstart : ∀ o, B0 + o = T → Held c A0 o) (hmoor : Moor c T F) (hA0 : A0 < 2 ^ 64) {y : Nat × Nat}
    (hy : History c (A0, B0) y) : y.1 < 2 ^ 64 ∧
      ((∀ o, y.2 + o = T → Held c y.1 o) ∨ (y.2 = 0 ∧ T ≠ 0 ∧ Full c T y.1)) := by
  have htr := tenth_le
  induction hy with
  | refl =>
    exact ⟨hA0, Or.inl hstart⟩
  | tail _ hstep ih =>
    obtain ⟨h1, h2⟩ := ih
    cases hstep with
    | @buy A B s r hs hr hd hA =>
      refine ⟨hA, ?_⟩
      simp only [] at h1 h2 ⊢
      obtain ⟨h3, _, h5⟩ := swapWithoutFees_buy hr
      rcases h2 with h2 | ⟨h2, _, _⟩
      swap
      · omega
      obtain ⟨b0, hb0, hc⟩ := swapAToB_ok h3
      rcases hc with ⟨e, _, v, hv', hAv, hx⟩ | ⟨hx, b1, hb1, hle, hy⟩
      · rcases Nat.eq_zero_or_pos T with hB0 | hB0
        · left
          intro o ho
          have h0 : o = 0 := by omega
          rw [h0]
          exact Held.zero
        right
        refine ⟨by omega, by omega, ?_⟩
        have hzb : T * Dfs.ONE ≤ b0 + B * Dfs.ONE + tenth := by
          rcases Nat.lt_or_ge B T with hlt | hge
          · obtain ⟨k, rfl⟩ := Nat.exists_eq_add_of_le hlt.le
            have hk := (h2 k rfl).up hz hst (by omega) hb0
            rw [Nat.add_mul]
            omega
          · have : T * Dfs.ONE ≤ B * Dfs.ONE := Nat.mul_le_mul_right _ hge
            omega
        have hxv : v < (A + r.source_amount_swapped) * Dfs.ONE + Dfs.roundingCorrection := by
          have h6 : v - A * Dfs.ONE + Dfs.roundingCorrection <
              Dfs.ONE * ((v - A * Dfs.ONE + Dfs.roundingCorrection) / Dfs.ONE + 1) :=
            Nat.lt_mul_div_succ _ Dfs.ONE_pos
          rw [← hx, Nat.mul_add, Nat.mul_comm Dfs.ONE r.source_amount_swapped, Nat.mul_one] at h6
          have h7 := one_eq_two_rc
          rw [Nat.add_mul]
          omega
        have hV : v < VMAX := by
          refine lt_trans hxv ?_
          rw [Dfs.ONE_val, Dfs.rc_eq, VMAX_val]
          omega
        have hvF := (amt_eq_ok hz.sn hv' hV).1
        rw [hvF] at hxv
        exact hmoor.full hz (by omega) hzb hxv
      left
      intro o ho
      have hfl : r.destination_amount_swapped * Dfs.ONE ≤ b1 - b0 := by
        rw [hy]; exact Nat.div_mul_le_self _ _
      rw [hx]
      refine Or.inl ⟨b1, hb1, ?_⟩
      rcases Nat.lt_or_ge o r.destination_amount_swapped with hlt | hge
      · have : o * Dfs.ONE ≤ r.destination_amount_swapped * Dfs.ONE :=
          Nat.mul_le_mul_right _ hlt.le
        omega
      · obtain ⟨k, rfl⟩ := Nat.exists_eq_add_of_le hge
        have hk := (h2 k (by omega)).up hz hst (by omega) hb0
        rw [Nat.add_mul]
        omega
    | @sell A B s r hs hr hd hB =>
      obtain ⟨h3, _, h5⟩ := swapWithoutFees_sell hr
      simp only [] at h1 h2 ⊢
      refine ⟨by omega, Or.inl fun o ho => ?_⟩
      obtain ⟨b0, hb0, hc⟩ := swapBToA_ok h3
      have hk : (o + r.source_amount_swapped) * Dfs.ONE ≤ b0 + Dfs.roundingCorrection := by
        rcases h2 with h2 | ⟨h2, h20, h2f⟩
        · exact le_trans ((h2 (o + r.source_amount_swapped) (by omega)).up hz hst (by omega) hb0)
            (Nat.add_le_add_left htr _)
        · have e : o + r.source_amount_swapped = T := by omega
          rw [e]
          exact h2f.up hz hst h20 (by omega) hb0
      rw [Nat.add_mul] at hk
      rcases hc with ⟨hlt, hy, hx⟩ | ⟨hle, hx, v, hv', hvA, hy⟩
      · have h0 : o = 0 := by
          have h6 : b0 + Dfs.roundingCorrection <
              Dfs.ONE * ((b0 + Dfs.roundingCorrection) / Dfs.ONE + 1) :=
            Nat.lt_mul_div_succ _ Dfs.ONE_pos
          rw [← hx, Nat.mul_add, Nat.mul_comm Dfs.ONE r.source_amount_swapped, Nat.mul_one] at h6
          rcases Nat.eq_zero_or_pos o with h7 | h7
          · exact h7
          · have : 1 * Dfs.ONE ≤ o * Dfs.ONE := Nat.mul_le_mul_right _ h7
            omega
        rw [h0]
        exact Held.zero
      · obtain ⟨k1, k2, k3⟩ := sell_keeps hz (lt64 h1) hv' hvA hy
        rw [k1] at k3
        have hce := le_ceil (b0 - s * Dfs.ONE)
        rw [hx] at hk
        have hon : o ≤ (b0 - s * Dfs.ONE + (Dfs.ONE - 1)) / Dfs.ONE := le_of_half (by omega)
        exact Or.inr (le_trans (amtF_mono c (Nat.mul_le_mul_right _ hon)) k3)
    | @donate A B u w hA hB =>
      refine ⟨hA, ?_⟩
      simp only [] at h1 h2 ⊢
      rcases h2 with h2 | ⟨h2, h20, h2f⟩
      · left
        intro o ho
        exact ((h2 (o + w) (by omega)).mono_a hz (Nat.le_add_right A u) (by omega)).mono_o
          (Nat.le_add_right o w)
      · have h2f' := h2f.mono (Nat.le_add_right A u)
        rcases Nat.eq_zero_or_pos w with hw | hw
        · exact Or.inr ⟨by omega, h20, h2f'⟩
        · exact Or.inl fun o ho => h2f'.held hz (by omega)

/-- The slope of a valid curve, and what it makes of the allowance of `10^-18`. -/
theorem slack_bounds {c : LinearPriceCurve} (hv : isCurveParamValid c = .ok ()) :
    (0 : ℝ) < ((slope c : ℚ) : ℝ) ∧ 0 ≤ 1 / 10 ^ 18 / ((slope c : ℚ) : ℝ) ∧
      1 / 10 ^ 18 / ((slope c : ℚ) : ℝ) ≤ 1 := by
  have h1 := ((C11_params c).1 (by simp only [Curve.validate, hv])).2.2.2
  have h2 : ((1 : ℝ) / 10 ^ 18) ≤ ((slope c : ℚ) : ℝ) := by
    have : (((1 : ℚ) / 10 ^ 18 : ℚ) : ℝ) ≤ ((slope c : ℚ) : ℝ) := by exact_mod_cast h1
    push_cast at this
    exact this
  have h3 : (0 : ℝ) < ((slope c : ℚ) : ℝ) := lt_of_lt_of_le (by norm_num) h2
  exact ⟨h3, div_nonneg (by norm_num) h3.le, by rw [div_le_one h3]; exact h2⟩

/-- Up to the exact position, what is out costs no more than what is held. -/
theorem costR_of_position {c : LinearPriceCurve} (hv : isCurveParamValid c = .ok ()) {A : Nat} {x : ℝ}
    (hx : 0 ≤ x) (h : x ≤ position c A) : costR c x ≤ A := by
  have hm := marginal_sq hv A
  have hm0 : 0 ≤ marginal c A := Real.sqrt_nonneg _
  have hp0 : (0 : ℝ) ≤ ((price c : ℚ) : ℝ) := priceR_nonneg c
  have hs0 := (slack_bounds hv).1
  unfold position at h
  rw [le_div_iff₀ hs0] at h
  unfold costR
  generalize ((price c : ℚ) : ℝ) = p at *
  generalize ((slope c : ℚ) : ℝ) = s at *
  generalize marginal c A = M at *
  have h1 : s * x + p ≤ M := by linarith
  have h2 : (s * x + p) * (s * x + p) ≤ M * M := mul_self_le_mul_self (by positivity) h1
  rw [hm] at h2
  have h3 : 2 * s * (s / 2 * x ^ 2 + p * x) ≤ 2 * s * A := by nlinarith
  exact le_of_mul_le_mul_left h3 (by positivity)

theorem cost_cast (c : LinearPriceCurve) (k : Nat) : ((cost c k : ℚ) : ℝ) = costR c k := by
  unfold cost costR
  push_cast
  rfl

/-- C60 for steep curves over every history, sales and emptied vaults included, when the last of the pool's
token B costs two units of token A or more: the token B outside exceed the exact curve's position for the A
held by at most `10^-18` over the slope plus one half; all but two of them are worth no more than the A
held.  Missing from the full claim: curves that are neither steep nor representable (`C60_false`), and
steep curves whose last token costs between 7/10 and two units when the vault is emptied. -/
theorem C60_dear_partial (c : LinearPriceCurve) (hv : isCurveParamValid c = .ok ()) (hst : Steeper c)
    (A0 B0 A B : Nat) (hdear : Dear c B0) (hA0 : A0 < 2 ^ 64) (h : History c (A0, B0) (A, B)) (out : Nat)
    (ho : B + out = B0) :
    (out : ℝ) ≤ position c A + 1 / 10 ^ 18 / (slope c : ℝ) + 1 / 2 ∧
      ∀ k, out = k + 2 → cost c k ≤ A := by
  have hz := nz_of_valid hv
  obtain ⟨hpos, hslack, hone⟩ := slack_bounds hv
  obtain ⟨F, hF⟩ := moor_dear hz hdear
  obtain ⟨hA, hk⟩ := emptied_inv hz hst (held_start (le_refl _)) hF hA0 h
  simp only [] at hA hk
  have hmain : (out : ℝ) ≤ position c A + 1 / 10 ^ 18 / (slope c : ℝ) + 1 / 2 := by
    rcases hk with hk | ⟨hk, hk0, hkf⟩
    · exact (hk out ho).covered.position hz (steeper_steep hst) (by omega) hslack
    · have h1 := hkf.position hz hk0
      have e : out = B0 := by omega
      rw [e]
      linarith
  refine ⟨hmain, ?_⟩
  intro k hk2
  subst hk2
  push_cast at hmain
  have := costR_of_position hv (Nat.cast_nonneg k) (show (k : ℝ) ≤ position c A by linarith)
  rw [← cost_cast] at this
  exact_mod_cast this

/-- Bought out, and sold to again. -/
example : isCurveParamValid thirdCurve = .ok () ∧ ¬ Representable thirdCurve ∧ Steeper thirdCurve ∧
    Dear thirdCurve 100 ∧ History thirdCurve (0, 100) (1681 - 575, 20) := by
  refine ⟨by decide +kernel, by decide +kernel, ?_, ?_, ?_⟩
  · unfold Steeper slope Spec.price thirdCurve
    simp only [show UInt64.toNat 1 = 1 from rfl, show UInt64.toNat 3 = 3 from rfl,
      show UInt64.toNat 7 = 7 from rfl]
    norm_num
  · unfold Dear slope Spec.price thirdCurve
    simp only [show UInt64.toNat 1 = 1 from rfl, show UInt64.toNat 3 = 3 from rfl,
      show UInt64.toNat 7 = 7 from rfl]
    norm_num
  · refine (Relation.ReflTransGen.single (b := (1681, 0))
      (PoolStep.buy (c := thirdCurve) (A := 0) (B := 100) 2000 ⟨1681, 100⟩ (by decide)
        (by decide +kernel) (by decide) (by decide))).tail ?_
    exact PoolStep.sell (c := thirdCurve) (A := 1681) (B := 0) 20 ⟨20, 575⟩ (by decide)
      (by decide +kernel) (by decide) (by decide)

/-- Slope 1/300, initial price 1/7. -/
def cheapCurve : LinearPriceCurve := ⟨1, 300, 1, 7⟩

/-- C60 for steep curves over every history, sales and emptied vaults included, when no token of the pool
costs more than 7/10 of a unit of token A: the token B outside are worth less than two units of token A
more than is held. -/
theorem C60_cheap_partial (c : LinearPriceCurve) (hv : isCurveParamValid c = .ok ()) (hst : Steeper c)
    (A0 B0 A B : Nat) (hcheap : Cheap c B0) (hA0 : A0 < 2 ^ 64) (h : History c (A0, B0) (A, B)) (out : Nat)
    (ho : B + out = B0) : cost c out < A + 2 := by
  have hz := nz_of_valid hv
  obtain ⟨hpos, hslack, hone⟩ := slack_bounds hv
  have hp := priceR_nonneg c
  obtain ⟨T, F, hT, hgap, hF⟩ := moor_cheap hz hcheap
  obtain ⟨hA, hk⟩ := emptied_inv hz hst (held_start hT) hF hA0 h
  simp only [] at hA hk
  have hd' : ((slope c : ℚ) : ℝ) * B0 + ((price c : ℚ) : ℝ) ≤ 7 / 10 := by
    unfold Cheap at hcheap
    have : ((slope c * (B0 : ℚ) + price c : ℚ) : ℝ) ≤ (((7 / 10 : ℚ)) : ℝ) := Rat.cast_le.2 hcheap
    push_cast at this
    exact this
  suffices hR : costR c out < (A : ℝ) + 2 by
    rw [← cost_cast] at hR
    exact_mod_cast hR
  have hA0' : (0 : ℝ) ≤ A := Nat.cast_nonneg A
  obtain ⟨N, hN⟩ := Nat.exists_eq_add_of_le hT
  rcases Nat.lt_or_ge T B with hTB | hTB
  · have h1 : (out : ℝ) + T ≤ B0 := by
      have : out + T ≤ B0 := by omega
      exact_mod_cast this
    have h2 : (0 : ℝ) ≤ out := Nat.cast_nonneg _
    have h3 : (0 : ℝ) ≤ T := Nat.cast_nonneg _
    have h4 : costR c ((out : ℝ) + T) ≤ costR c B0 := costR_le hz (by linarith) h1
    have h5 : costR c out + costR c T ≤ costR c ((out : ℝ) + T) := by
      unfold costR
      have : 0 ≤ ((slope c : ℚ) : ℝ) * (out * T) := by positivity
      nlinarith
    linarith
  · obtain ⟨n, hn⟩ := Nat.exists_eq_add_of_le hTB
    have hsl : 1 / 10 ^ 18 / ((slope c : ℚ) : ℝ) ≤ 1 / 2 := by
      have hst' : (1 : ℝ) / 10 ^ 32 ≤ ((slope c : ℚ) : ℝ) ^ 2 *
          (((price c : ℚ) : ℝ) ^ 2 + 2 * ((slope c : ℚ) : ℝ)) := by
        have h1 : (((1 / 10 ^ 32 : ℚ)) : ℝ) ≤
            ((slope c ^ 2 * (price c ^ 2 + 2 * slope c) : ℚ) : ℝ) := by exact_mod_cast hst
        push_cast at h1
        exact h1
      have hp7 : ((price c : ℚ) : ℝ) ≤ 7 / 10 := by
        have : 0 ≤ ((slope c : ℚ) : ℝ) * B0 := by positivity
        linarith
      rw [div_le_iff₀ hpos]
      generalize ((price c : ℚ) : ℝ) = p at *
      generalize ((slope c : ℚ) : ℝ) = s at *
      by_contra hcon
      have h1 : s < 2 / 10 ^ 18 := by linarith
      have h2 : s ^ 2 ≤ (2 / 10 ^ 18) ^ 2 := pow_le_pow_left₀ hpos.le h1.le 2
      have h3 : p ^ 2 ≤ (7 / 10) ^ 2 := pow_le_pow_left₀ hp hp7 2
      have h4 : s ^ 2 * (p ^ 2 + 2 * s) ≤ (2 / 10 ^ 18) ^ 2 * ((7 / 10) ^ 2 + 2 * (2 / 10 ^ 18)) :=
        mul_le_mul h2 (by linarith) (by positivity) (by positivity)
      have h5 : ((2 : ℝ) / 10 ^ 18) ^ 2 * ((7 / 10) ^ 2 + 2 * (2 / 10 ^ 18)) < 1 / 10 ^ 32 := by norm_num
      linarith
    have hnp : (n : ℝ) ≤ position c A + 1 / 10 ^ 18 / (slope c : ℝ) + 1 / 2 := by
      rcases hk with hk | ⟨hk, hk0, hkf⟩
      · exact (hk n (by omega)).covered.position hz (steeper_steep hst) (by omega) hslack
      · have h1 := hkf.position hz hk0
        have e : n = T := by omega
        rw [e]
        linarith
    have hnc : costR c n ≤ A + 7 / 10 := by
      rcases Nat.eq_zero_or_pos n with h0 | h0
      · rw [h0]
        unfold costR
        simp
        linarith
      · have h1 : (1 : ℝ) ≤ n := by exact_mod_cast h0
        have h2 : (n : ℝ) ≤ B0 := by
          have : n ≤ B0 := by omega
          exact_mod_cast this
        have h3 := costR_of_position hv (x := (n : ℝ) - 1) (by linarith) (show _ ≤ position c A by linarith)
        have h4 : ((slope c : ℚ) : ℝ) * n ≤ ((slope c : ℚ) : ℝ) * B0 :=
          mul_le_mul_of_nonneg_left h2 hpos.le
        have h5 : costR c n ≤ costR c ((n : ℝ) - 1) + 7 / 10 := by
          unfold costR
          nlinarith
        linarith
    have hout : out = n + N := by omega
    have hconv : costR c out + costR c T ≤ costR c n + costR c B0 := by
      have h1 : (n : ℝ) ≤ T := by
        have : n ≤ T := by omega
        exact_mod_cast this
      have h2 : (0 : ℝ) ≤ N := Nat.cast_nonneg _
      rw [hout, hN]
      push_cast
      unfold costR
      have : 0 ≤ ((slope c : ℚ) : ℝ) * (N * ((T : ℝ) - n)) :=
        mul_nonneg hpos.le (mul_nonneg h2 (by linarith))
      nlinarith
    linarith

/-- Bought out, and sold to again: 80 token B are out for 23 token A. -/
example : isCurveParamValid cheapCurve = .ok () ∧ ¬ Representable cheapCurve ∧ Steeper cheapCurve ∧
    Cheap cheapCurve 100 ∧ History cheapCurve (0, 100) (31 - 8, 20) := by
  refine ⟨by decide +kernel, by decide +kernel, ?_, ?_, ?_⟩
  · unfold Steeper slope Spec.price cheapCurve
    simp only [show UInt64.toNat 1 = 1 from rfl, show UInt64.toNat 300 = 300 from rfl,
      show UInt64.toNat 7 = 7 from rfl]
    norm_num
  · unfold Cheap slope Spec.price cheapCurve
    simp only [show UInt64.toNat 1 = 1 from rfl, show UInt64.toNat 300 = 300 from rfl,
      show UInt64.toNat 7 = 7 from rfl]
    norm_num
  · refine (Relation.ReflTransGen.single (b := (31, 0))
      (PoolStep.buy (c := cheapCurve) (A := 0) (B := 100) 2000 ⟨31, 100⟩ (by decide)
        (by decide +kernel) (by decide) (by decide))).tail ?_
    exact PoolStep.sell (c := cheapCurve) (A := 31) (B := 0) 20 ⟨20, 8⟩ (by decide)
      (by decide +kernel) (by decide) (by decide)

/-- Both over whole executions: after a linear pool has been initialised, whatever happens afterwards. -/
theorem C60_executions_partial (env : Env) (K : Pubkey → Prop) (he : EnvOk env K) (signers : List Pubkey)
    (a : InitAccounts) (c : LinearPriceCurve) (hst : Steeper c) (w0 w1 w : World)
    (hK : K a.swap) (hinit : exec env signers (.initLinearPrice a c) w0 = .ok w1)
    (h : Steps env K w1 w) (B0 : Nat) (hB0 : bal w0 a.tokenB = B0) :
    (Dear c B0 → ∀ k : Nat, bal w a.tokenB + (k + 2 : Nat) = bal w0 a.tokenB → cost c k ≤ bal w a.tokenA) ∧
      (Cheap c B0 → ∀ k : Nat, bal w a.tokenB + k = bal w0 a.tokenB → cost c k < bal w a.tokenA + 2) := by
  obtain ⟨s, p, hp, hc, hcf, hl, hf, ea, eb, hv, hA, hB⟩ := linear_init he hK hinit
  obtain ⟨_, _, hist⟩ := linear_history he hK hp hc hcf hl hf h
  rw [ea, eb, hA] at hist
  have n1 := nbal_cast w a.tokenB
  have n2 := nbal_cast w1 a.tokenB
  have e0 : nbal w1 a.tokenB = B0 := by omega
  rw [e0] at hist
  constructor
  · intro hd k hk
    have := (C60_dear_partial c hv hst 0 _ _ _ hd (by decide) hist (k + 2) (by omega)).2 k rfl
    rw [← nbal_cast]
    exact_mod_cast this
  · intro hd k hk
    have := C60_cheap_partial c hv hst 0 _ _ _ hd (by decide) hist k (by omega)
    rw [← nbal_cast]
    exact_mod_cast this

end Props
end Verif
