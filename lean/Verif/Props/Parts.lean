import Verif.Spec.Parts
import Verif.Lemmas.Plain
import Verif.Props.Level

/-
C05 and C70 for any number of parts.
-/

namespace Verif
namespace Props
open Spec
open Linear hiding price marginal_sq position_nonneg

variable {c : LinearPriceCurve}

/-- What a row of purchases does to the computed positions: either none took the rest of the vault, or the
last did and paid what the rest costs. -/
theorem parts_inv (hv : isCurveParamValid c = .ok ()) {x z : Nat × Nat} {l : List Nat}
    (h : Purchases c x l z) (hl : l ≠ []) (hA : x.1 + l.sum < 18446744073709551616)
    (hB : x.2 < 18446744073709551616) :
    z.2 < x.2 ∧ ∃ b0, bValue c (x.1 * Dfs.ONE) true = .ok b0 ∧
      (∀ y, maximumARemaining c (x.1 * Dfs.ONE) b0 0 x.2 ≠ .ok (0, y)) ∧
      ((z.1 = x.1 + l.sum ∧ ∃ b1, bValue c ((x.1 + l.sum) * Dfs.ONE) false = .ok b1 ∧
          b0 + (x.2 - z.2) * Dfs.ONE ≤ b1) ∨
        (z.2 = 0 ∧ z.1 ≤ x.1 + l.sum ∧
          amtF c (b0 + x.2 * Dfs.ONE) + Dfs.roundingCorrection < (z.1 + 1) * Dfs.ONE)) := by
  have hz := nz_of_valid hv
  induction h with
  | none x => exact absurd rfl hl
  | @first A B s l z r h hd hr ih =>
    simp only [] at *
    rw [List.sum_cons] at hA ⊢
    obtain ⟨hsw, hn1, hn2⟩ := swapWithoutFees_buy h
    generalize r.source_amount_swapped = x at *
    generalize r.destination_amount_swapped = y at *
    obtain ⟨b0, hb0, hm | ⟨hm, hx, b1, hb1, hle, hy⟩⟩ := swapAToB_inv hsw
    · obtain ⟨e, hxs, _⟩ := maximumARemaining_ok hm
      subst e
      have hnil : l = [] ∧ z = (A + x, y - y) := by
        cases hr with
        | none => exact ⟨rfl, rfl⟩
        | first h' hd' _ =>
          have := (swapWithoutFees_buy h').2.2
          omega
      obtain ⟨e1, e2⟩ := hnil
      subst e1 e2
      refine ⟨by simp only []; omega, b0, hb0, ?_, Or.inr ⟨by simp, ?_, ?_⟩⟩
      · intro y' h'
        have := maximumARemaining_of_le (Nat.zero_le s) h'
        rw [hm] at this
        cases this
        exact hn1 rfl
      · simp only [List.sum_nil]; omega
      · rw [maximumARemaining_plain hv (by omega) (by omega) hB hb0] at hm
        split at hm
        · rename_i hc
          have h1 := Prod.mk.inj (Res.ok.inj hm)
          have h2 := Nat.lt_mul_div_succ (amtF c (b0 + y * Dfs.ONE) - A * Dfs.ONE + Dfs.roundingCorrection)
            Dfs.ONE_pos
          rw [h1.1, Nat.mul_comm Dfs.ONE (x + 1)] at h2
          simp only []
          rw [Nat.add_assoc, Nat.add_mul A]
          omega
        · cases hm
    · subst hx
      have hfl : b0 + y * Dfs.ONE ≤ b1 := by
        have := Nat.div_mul_le_self (b1 - b0) Dfs.ONE
        rw [← hy] at this
        omega
      have h0 : ∀ y, maximumARemaining c (A * Dfs.ONE) b0 0 B ≠ .ok (0, y) := by
        intro y' h'
        have := maximumARemaining_of_le (Nat.zero_le x) h'
        rw [hm] at this
        cases this
      cases l with
      | nil =>
        cases hr
        simp only [List.sum_nil, Nat.add_zero]
        refine ⟨by omega, b0, hb0, h0, Or.inl ⟨trivial, b1, hb1, ?_⟩⟩
        rw [show B - (B - y) = y by omega]
        exact hfl
      | cons s' l =>
        obtain ⟨i1, b0', j1, _, j2⟩ := ih (by simp) (by omega) (by omega)
        have hmn := bValue_down_le_up hz (by omega) hb1 j1
        refine ⟨by omega, b0, hb0, h0, ?_⟩
        rcases j2 with ⟨k1, b2, k2, k3⟩ | ⟨k1, k2, k3⟩
        · rw [Nat.add_assoc] at k1 k2
          refine Or.inl ⟨k1, b2, k2, ?_⟩
          rw [show B - z.2 = y + (B - y - z.2) by omega, Nat.add_mul]
          omega
        · refine Or.inr ⟨k1, by omega, lt_of_le_of_lt ?_ k3⟩
          have : b0 + B * Dfs.ONE ≤ b0' + (B - y) * Dfs.ONE := by
            rw [show B = y + (B - y) by omega, Nat.add_mul, Nat.add_sub_cancel_left]
            omega
          exact Nat.add_le_add_right (amtF_mono c this) _

/-- On a steep curve the position of a balance is computed to within half a token from below. -/
theorem steep_grain (hc : Nz c) (h : Steep c) {A : Nat} (hA : 1 ≤ A) : grain c A ≤ 1 / 2 := by
  have hs := slopeR_pos hc
  have hz : (1 : ℝ) / 10 ^ 34 ≤ ((slope c : ℚ) : ℝ) ^ 2 *
      (((price c : ℚ) : ℝ) ^ 2 + 2 * ((slope c : ℚ) : ℝ)) := by
    have h1 : (((1 / 10 ^ 34 : ℚ)) : ℝ) ≤
        ((slope c ^ 2 * (price c ^ 2 + 2 * slope c) : ℚ) : ℝ) := by exact_mod_cast h
    push_cast at h1
    exact h1
  have hm := marginal_sqE c A
  have hm0 : 0 ≤ marginal c A := Real.sqrt_nonneg _
  have hA1 : (1 : ℝ) ≤ A := by exact_mod_cast hA
  unfold grain
  generalize ((slope c : ℚ) : ℝ) = s at *
  generalize ((price c : ℚ) : ℝ) = p at *
  generalize marginal c A = M at *
  have hsA : s ≤ s * A := le_mul_of_one_le_right hs.le hA1
  have h1 : 1 / 10 ^ 17 ≤ s * M := by
    refine le_of_sq_le_sq ?_ (by positivity)
    have e : (s * M) ^ 2 = s ^ 2 * (M * M) := by ring
    rw [e, hm]
    refine le_trans (by norm_num at hz ⊢; exact hz) (mul_le_mul_of_nonneg_left ?_ (by positivity))
    linarith
  have h2 : (0 : ℝ) < 10 ^ 18 * s * M := by
    rw [mul_assoc]
    exact mul_pos (by norm_num) (lt_of_lt_of_le (by norm_num) h1)
  rw [div_le_div_iff₀ h2 (by norm_num), mul_assoc (10 ^ 18)]
  linarith

/-- One token further than the position computed for `A` costs at least `A`. -/
theorem further (hv : isCurveParamValid c = .ok ()) (hk : Representable c ∨ Steep c) {A b B : Nat}
    (hA : A < 18446744073709551616) (hB : 1 ≤ B) (hb : bValue c (A * Dfs.ONE) true = .ok b) :
    A * Dfs.ONE ≤ amtF c (b + B * Dfs.ONE) := by
  rcases Nat.eq_zero_or_pos A with h0 | h0
  · rw [h0, Nat.zero_mul]; exact Nat.zero_le _
  have hz := nz_of_valid hv
  have ho := oneR_pos
  have hO : ((Dfs.ONE : Nat) : ℝ) = 10 ^ 18 := by rw [Dfs.ONE_val]; norm_num
  have hlow : position c A - 3 / 4 ≤ (b : ℝ) / Dfs.ONE := by
    rcases hk with hr | hst
    · obtain ⟨H, P, Q, hrep⟩ := Rep_of_spec hz hr
      have h1 := (hrep.up_bounds (by omega) hb).1
      have h2 : (1 : ℝ) / Dfs.ONE ≤ 3 / 4 := by rw [hO]; norm_num
      linarith
    · have h1 := (up_any hz (by omega) hb).1
      have h2 := steep_grain hz hst h0
      rw [hO]
      have h3 : (1 : ℝ) / 10 ^ 18 ≤ 1 / 4 := by norm_num
      linarith
  have lo := (amtF_bounds hz (b + B * Dfs.ONE)).1
  have eb : ((b + B * Dfs.ONE : Nat) : ℝ) / Dfs.ONE = (b : ℝ) / Dfs.ONE + B := by
    push_cast; field_simp
  have hB1 : (1 : ℝ) ≤ B := by exact_mod_cast hB
  have hpos := position_nonneg hv A
  have hmono : costR c (position c A + 1 / 4) ≤ costR c ((b : ℝ) / Dfs.ONE + B) :=
    costR_mono hv (by linarith) (by linarith)
  have hcost : (A : ℝ) + 2 / Dfs.ONE ≤ costR c (position c A + 1 / 4) := by
    have hp := Exit.cost_position hv A
    have hA1 : (1 : ℝ) ≤ A := by exact_mod_cast h0
    have hsl : ((1 : ℝ) / 10 ^ 18) ≤ ((slope c : ℚ) : ℝ) := by
      have h1 := ((C11_params c).1 (by simp only [Curve.validate, hv])).2.2.2
      have : (((1 : ℚ) / 10 ^ 18 : ℚ) : ℝ) ≤ ((slope c : ℚ) : ℝ) := by exact_mod_cast h1
      push_cast at this
      exact this
    have hm := marginal_sqE c A
    have hm0 : 0 ≤ marginal c A := Real.sqrt_nonneg _
    have hpr := priceR_nonneg c
    have hmp : marginal c A = ((slope c : ℚ) : ℝ) * position c A + ((price c : ℚ) : ℝ) := by
      unfold position
      have := slopeR_pos hz
      field_simp
      ring
    unfold costR at hp ⊢
    rw [hO]
    generalize position c A = t at *
    generalize ((slope c : ℚ) : ℝ) = s at *
    generalize ((price c : ℚ) : ℝ) = p at *
    generalize marginal c A = M at *
    have hM : 1 / 10 ^ 9 ≤ M := by
      refine le_of_sq_le_sq ?_ hm0
      have h5 : s ≤ s * A := le_mul_of_one_le_right (le_trans (by positivity) hsl) hA1
      have h6 := sq_nonneg p
      have : (1 : ℝ) / 10 ^ 18 ≤ M * M := by rw [hm]; linarith
      rw [sq, sq]
      norm_num at this ⊢
      exact this
    have e : s / 2 * (t + 1 / 4) ^ 2 + p * (t + 1 / 4) =
        (s / 2 * t ^ 2 + p * t) + (s * t + p) / 4 + s / 32 := by ring
    rw [e, hp, ← hmp]
    have h7 : (2 : ℝ) / 10 ^ 18 ≤ 1 / 10 ^ 9 / 4 := by norm_num
    linarith [le_trans (show (0 : ℝ) ≤ 1 / 10 ^ 18 by positivity) hsl]
  rw [eb] at lo
  have hfin : (A : ℝ) < (amtF c (b + B * Dfs.ONE) : ℝ) / Dfs.ONE := by linarith
  rw [lt_div_iff₀ ho] at hfin
  have : A * Dfs.ONE < amtF c (b + B * Dfs.ONE) := by exact_mod_cast hfin
  exact this.le

/-- C05 for any number of parts.  On a valid curve, buying one after the other for the amounts in a list
yields no more than one purchase for their sum, which succeeds and takes no more token A.  The last
purchase may take all that is left in the vault if the curve is representable or steep. -/
theorem C05_many (c : LinearPriceCurve) (hv : isCurveParamValid c = .ok ()) (l : List Nat) (hl : l ≠ [])
    (A B A' B' : Nat) (hA : A + l.sum < 2 ^ 64) (hB : B < 2 ^ 64)
    (h : Purchases c (A, B) l (A', B')) (hk : B' ≠ 0 ∨ Representable c ∨ Steep c) :
    ∃ r, Linear.swapWithoutFees c l.sum A B .AtoB = .ok r ∧
      B ≤ r.destination_amount_swapped + B' ∧ A + r.source_amount_swapped ≤ A' := by
  have hz := nz_of_valid hv
  obtain ⟨h1, b0, hb0, h0, hc⟩ := parts_inv hv h hl hA hB
  simp only [] at *
  have hcase : ∀ x y, maximumARemaining c (A * Dfs.ONE) b0 l.sum B = .ok (x, y) → A + x ≤ A' →
      ∃ r, Linear.swapWithoutFees c l.sum A B .AtoB = .ok r ∧
        B ≤ r.destination_amount_swapped + B' ∧ A + r.source_amount_swapped ≤ A' := by
    intro x y hm hx
    have e := (maximumARemaining_ok hm).1
    refine ⟨⟨x, y⟩, swapWithoutFees_of_buy ?_ ?_ (by omega), by simp only []; omega, hx⟩
    · rw [swapAToB_of (by omega) hb0, hm]
    · intro hx0
      subst hx0
      exact h0 y (maximumARemaining_down (Nat.le_refl 0) hm)
  rcases hc with ⟨e, b1, hb1, hle⟩ | ⟨e, hle, hlt⟩
  · rcases hm : maximumARemaining c (A * Dfs.ONE) b0 l.sum B with ⟨x, y⟩ | _ | _
    · refine hcase x y hm ?_
      have := (maximumARemaining_ok hm).2.1
      omega
    · have hq : B - B' ≤ (b1 - b0) / Dfs.ONE := by
        rw [Nat.le_div_iff_mul_le Dfs.ONE_pos]
        omega
      have hsw := swapAToB_none (lt64 (show A < 2 ^ 64 by omega)) (by omega) hb0 hb1
        (le_trans (Nat.le_add_right _ _) hle) (out_lt_u128 hv (by omega) hb1) hm
      have hs0 : l.sum ≠ 0 := by
        intro h00
        rw [h00, Nat.add_zero] at hb1
        have := bValue_down_le_up hz (by omega) hb1 hb0
        have h2 : 1 * Dfs.ONE ≤ (B - B') * Dfs.ONE := Nat.mul_le_mul_right _ (by omega)
        have := Dfs.ONE_pos
        omega
      exact ⟨_, swapWithoutFees_of_buy hsw hs0 (by omega), by simp only []; omega, by simp only []; omega⟩
    · exact absurd hm maximumARemaining_ne_panic
  · have hk' : Representable c ∨ Steep c := by
      rcases hk with hk | hk
      · exact absurd e hk
      · exact hk
    have hlow := further hv hk' (show A < 18446744073709551616 by omega) (show 1 ≤ B by omega) hb0
    have hx : (amtF c (b0 + B * Dfs.ONE) - A * Dfs.ONE + Dfs.roundingCorrection) / Dfs.ONE < A' - A + 1 := by
      rw [Nat.div_lt_iff_lt_mul Dfs.ONE_pos]
      have hAA : A ≤ A' := by
        by_contra hn
        have : (A' + 1) * Dfs.ONE ≤ A * Dfs.ONE := Nat.mul_le_mul_right _ (by omega)
        omega
      have : (A' + 1) * Dfs.ONE = A * Dfs.ONE + (A' - A + 1) * Dfs.ONE := by
        rw [← Nat.add_mul]; congr 1; omega
      omega
    have hAA : A ≤ A' := by
      by_contra hn
      have : (A' + 1) * Dfs.ONE ≤ A * Dfs.ONE := Nat.mul_le_mul_right _ (by omega)
      omega
    refine hcase _ B (by
      rw [maximumARemaining_plain hv (by omega) (by omega) hB hb0, if_pos ⟨hlow, by omega⟩]) (by omega)

/-- The last purchase takes the two tokens left. -/
theorem parts_buy : Purchases thirdCurve (0, 10) [5, 7, 100] (18, 0) :=
  .first (r := ⟨5, 5⟩) (by decide +kernel) (by decide) <|
    .first (r := ⟨7, 3⟩) (by decide +kernel) (by decide) <|
      .first (r := ⟨6, 2⟩) (by decide +kernel) (by decide) <| .none _

example : isCurveParamValid thirdCurve = .ok () ∧ Steep thirdCurve ∧ ¬ Representable thirdCurve ∧
    Linear.swapWithoutFees thirdCurve 112 0 10 .AtoB = .ok ⟨18, 10⟩ :=
  ⟨by decide +kernel, thirdCurve_steep, by decide +kernel, by decide +kernel⟩

/-- The induction for `C70_many_partial`. -/
theorem sales_inv (hv : isCurveParamValid c = .ok ()) (hk : Representable c ∨ Steep c) {x z : Nat × Nat}
    {l : List Nat} (h : Sales c x l z) (hl : l ≠ [])
    (hA : x.1 < 18446744073709551616) (hs : l.sum < 18446744073709551616) :
    ∃ r, Linear.swapWithoutFees c l.sum x.2 x.1 .BtoA = .ok r ∧
      x.1 ≤ r.destination_amount_swapped + z.1 := by
  induction h with
  | none x => exact absurd rfl hl
  | @first A B s l z r h hd hr ih =>
    simp only [] at *
    rw [List.sum_cons] at hs ⊢
    cases l with
    | nil =>
      cases hr
      exact ⟨r, by simpa using h, by simp only []; omega⟩
    | cons s' l =>
      obtain ⟨r2, h2, h3⟩ := ih (by simp) (lt_of_le_of_lt (Nat.sub_le _ _) hA)
        (lt_of_le_of_lt (Nat.le_add_left _ s) hs)
      rcases hk with hr' | hst
      · obtain ⟨r3, h4, h5⟩ := C70_split_sale_partial c hv hr' s _ A B r r2 hA hs h h2
        exact ⟨r3, h4, by omega⟩
      · obtain ⟨r3, h4, h5⟩ := C70_steep_partial c hv hst s _ A B r r2 hA hs h h2
        exact ⟨r3, h4, by omega⟩

/-- C70 for any number of parts.  On a representable or steep curve, selling one after the other the amounts
in a list yields no more token A than selling their sum at once, which succeeds.  Missing from the full
claim: other curves (`C70_false`). -/
theorem C70_many_partial (c : LinearPriceCurve) (hv : isCurveParamValid c = .ok ())
    (hk : Representable c ∨ Steep c) (l : List Nat) (hl : l ≠ []) (A B A' B' : Nat) (hA : A < 2 ^ 64)
    (hs : l.sum < 2 ^ 64) (h : Sales c (A, B) l (A', B')) :
    ∃ r, Linear.swapWithoutFees c l.sum B A .BtoA = .ok r ∧ A ≤ r.destination_amount_swapped + A' := by
  have := sales_inv (x := (A, B)) (z := (A', B')) hv hk h hl (lt64 hA) (lt64 hs)
  exact this

/-- Three sales for 945; the whole at once pays 989. -/
theorem parts_sell : Sales thirdCurve (1681, 20) [30, 5, 2] (1681 - 830 - 93 - 22, 57) :=
  .first (r := ⟨30, 830⟩) (by decide +kernel) (by decide) <|
    .first (r := ⟨5, 93⟩) (by decide +kernel) (by decide) <|
      .first (r := ⟨2, 22⟩) (by decide +kernel) (by decide) <| .none _

example : Linear.swapWithoutFees thirdCurve 37 20 1681 .BtoA = .ok ⟨37, 989⟩ := by decide +kernel

end Props
end Verif
