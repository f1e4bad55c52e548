import Verif.Lemmas.LinearHistory

/-
Round trips, splitting and monotonicity of linear trades.
-/

namespace Verif
namespace Linear
open Dfs

variable {c : LinearPriceCurve} {H P Q : Nat}

theorem le_floor_add {x y z : Nat} : x / ONE + y / ONE ≤ z / ONE ∨ ¬ x + y ≤ z := by
  by_cases h : x + y ≤ z
  · left
    rw [Nat.le_div_iff_mul_le ONE_pos, Nat.add_mul]
    exact le_trans (Nat.add_le_add (Nat.div_mul_le_self _ _) (Nat.div_mul_le_self _ _)) h
  · exact Or.inr h

/-- `b ≤ ceil b`. -/
theorem le_ceil (b : Nat) : b ≤ (b + (ONE - 1)) / ONE * ONE := by
  have h1 : b + (ONE - 1) < ONE * ((b + (ONE - 1)) / ONE + 1) := Nat.lt_mul_div_succ _ ONE_pos
  rw [Nat.mul_add, Nat.mul_comm ONE, Nat.mul_one] at h1
  have := ONE_pos
  generalize (b + (ONE - 1)) / ONE * ONE = X at *
  generalize ONE = O at *
  omega

/-- Sell, then buy back with the proceeds without exhausting the pool. -/
theorem Rep.sell_buy (h : Rep c H P Q) {s A B x y x' y' : Nat} (hA : A < 18446744073709551616)
    (hsell : swapBToA c s A = .ok (x, y)) (hbuy : swapAToB c y (A - y) (B + x) = .ok (x', y'))
    (hy' : y' < B + x) : y' ≤ x := by
  obtain ⟨b0, hb0, hcase⟩ := swapBToA_ok hsell
  obtain ⟨b2, hb2, hcase'⟩ := swapAToB_ok hbuy
  rcases hcase' with ⟨hyB, _⟩ | ⟨_, b1, hb1, hle, hyb⟩
  · omega
  rcases hcase with ⟨hlt, hy, hx⟩ | ⟨hle2, hx, v, hv, hvA, hy⟩
  · have e : A - y + y = A := by omega
    rw [e] at hb1
    have h1 := bValue_down_le_up h.nz (by omega) hb1 hb0
    rw [hyb, hx]
    exact Nat.div_le_div_right (le_trans (Nat.sub_le _ _) (le_trans h1 (Nat.le_add_right _ _)))
  · have hyA : y * ONE ≤ A * ONE - v := by rw [hy]; exact Nat.div_mul_le_self _ _
    have hyA' : y ≤ A := Nat.le_of_mul_le_mul_right (le_trans hyA (Nat.sub_le _ _)) ONE_pos
    have e : A - y + y = A := by omega
    rw [e] at hb1
    have h1 := bValue_down_le_up h.nz (by omega) hb1 hb0
    have hV : v < VMAX := by
      refine lt_of_le_of_lt hvA ?_
      rw [ONE_val, VMAX_val]; omega
    have hvF := (amt_eq_ok h.nz.sn hv hV).1
    rw [h.amtF_whole] at hvF
    have h2 : (b0 - s * ONE + (ONE - 1)) / ONE * ONE ≤ b2 := by
      refine h.up_ge_whole (by omega) hb2 ?_
      rw [← hvF, Nat.sub_mul]
      omega
    have h3 := le_trans (le_ceil _) h2
    rw [hyb, hx]
    have : b1 - b2 ≤ s * ONE := by omega
    calc (b1 - b2) / ONE ≤ s * ONE / ONE := Nat.div_le_div_right this
      _ = s := Nat.mul_div_cancel _ ONE_pos

/-- Core estimate behind `buy_sell`: a whole position `m` at or above the rounded-up position of `A`
costs at least `A` up to the marginal price times `10^-18`. -/
theorem Rep.up_cost (h : Rep c H P Q) {A b m : Nat} (hA : A < 36893488147419103232)
    (hb : bValue c (A * ONE) true = .ok b) (hm : b ≤ m * ONE) :
    A * ONE * (ONE * ONE) < L H P m * (ONE * ONE) + (P + 2 * H * m) * ONE + H := by
  obtain ⟨root, h1, h2⟩ := bValue_ok h.nz hA hb
  have hsq := sqrtU64_up_sq (rad_lt c (whole_le_AMAX hA)) h1
  rw [h.rad_one] at hsq
  have hH := h.H_pos
  rw [h2, h.price_eq, h.scale] at hm
  have h3 : (root - P) * ONE < (m * ONE + 1) * (2 * H) := by
    have := Nat.lt_mul_div_succ ((root - P) * ONE) (Nat.mul_pos (by decide : 0 < 2) hH)
    refine lt_of_lt_of_le this ?_
    rw [Nat.mul_comm (2 * H)]
    exact Nat.mul_le_mul_right _ (Nat.add_le_add_right hm 1)
  have h4 : root * ONE < (P + 2 * H * m) * ONE + 2 * H := by
    have e : (m * ONE + 1) * (2 * H) = 2 * H * m * ONE + 2 * H := by ring
    rw [e, Nat.sub_mul] at h3
    rw [Nat.add_mul]
    omega
  have h5 : root * ONE * (root * ONE) <
      ((P + 2 * H * m) * ONE + 2 * H) * ((P + 2 * H * m) * ONE + 2 * H) := Nat.mul_lt_mul'' h4 h4
  have h6 : (P * P + 4 * H * A * ONE) * (ONE * ONE) ≤ root * ONE * (root * ONE) := by
    calc (P * P + 4 * H * A * ONE) * (ONE * ONE) ≤ root * root * (ONE * ONE) :=
          Nat.mul_le_mul_right _ hsq
      _ = _ := by ring
  have h7 := lt_of_le_of_lt h6 h5
  have e1 : (P * P + 4 * H * A * ONE) * (ONE * ONE) =
      P * P * (ONE * ONE) + 4 * H * (A * ONE * (ONE * ONE)) := by ring
  have e2 : ((P + 2 * H * m) * ONE + 2 * H) * ((P + 2 * H * m) * ONE + 2 * H) =
      P * P * (ONE * ONE) +
        4 * H * (L H P m * (ONE * ONE) + (P + 2 * H * m) * ONE + H) := by
    unfold L; ring
  rw [e1, e2] at h7
  have h8 := Nat.lt_of_add_lt_add_left h7
  exact Nat.lt_of_mul_lt_mul_left h8

/-- Buy without exhausting the pool, then sell everything back: the position returned to. -/
theorem Rep.buy_sell (h : Rep c H P Q) {s A B x y x' y' : Nat} (hA : A < 18446744073709551616)
    (hs : s < 18446744073709551616)
    (hbuy : swapAToB c s A B = .ok (x, y)) (hy : y < B)
    (hsell : swapBToA c y (A + x) = .ok (x', y')) :
    ∃ m, y' * ONE + L H P m ≤ (A + s) * ONE ∧
      A * ONE * (ONE * ONE) < L H P m * (ONE * ONE) + (P + 2 * H * m) * ONE + H := by
  obtain ⟨b0, hb0, hcase⟩ := swapAToB_ok hbuy
  rcases hcase with ⟨hyB, _⟩ | ⟨hx, b1, hb1, hle, hyb⟩
  · omega
  rw [hx] at hsell
  obtain ⟨b2, hb2, hcase'⟩ := swapBToA_ok hsell
  have h1 := bValue_down_le_up h.nz (by omega) hb1 hb2
  have hyle : y * ONE ≤ b1 - b0 := by rw [hyb]; exact Nat.div_mul_le_self _ _
  rcases hcase' with ⟨hlt, _⟩ | ⟨hle2, _, v, hv, hvA, hy'⟩
  · omega
  have hV : v < VMAX := by
    refine lt_of_le_of_lt hvA ?_
    rw [ONE_val, VMAX_val]; omega
  have hvF := (amt_eq_ok h.nz.sn hv hV).1
  rw [h.amtF_whole] at hvF
  refine ⟨(b2 - y * ONE + (ONE - 1)) / ONE, ?_, ?_⟩
  · rw [← hvF]
    have : y' * ONE ≤ (A + s) * ONE - v := by rw [hy']; exact Nat.div_mul_le_self _ _
    omega
  · refine h.up_cost (by omega) hb0 ?_
    refine le_trans ?_ (le_ceil _)
    omega

/-- If the marginal price is at most `10^18`, the deficiency is below one unit. -/
theorem deficiency_core {A Lm W : Nat} {H P O : Nat} (hW : W * W = P * P + 4 * H * Lm) (hO : 0 < O)
    (hR : P * P + 4 * H * (A * O) ≤ O * O * (O * O))
    (hlt : A * O * (O * O) < Lm * (O * O) + W * O + H) : A * O < Lm + O := by
  by_contra hc
  have hc' : Lm + O ≤ A * O := Nat.le_of_not_lt hc
  have h1 : W * W + 4 * H * O ≤ O * O * (O * O) := by
    rw [hW]
    calc P * P + 4 * H * Lm + 4 * H * O = P * P + 4 * H * (Lm + O) := by ring
      _ ≤ P * P + 4 * H * (A * O) := by gcongr
      _ ≤ _ := hR
  have h2 : O * O * O ≤ W * O + H := by
    have h3 : (Lm + O) * (O * O) ≤ A * O * (O * O) := Nat.mul_le_mul_right _ hc'
    have e : (Lm + O) * (O * O) = Lm * (O * O) + O * O * O := by ring
    omega
  rcases Nat.eq_zero_or_pos H with hH | hH
  · subst hH
    have h4 : W ≤ O * O := by
      apply le_of_sq_le
      simpa using h1
    rcases Nat.lt_or_ge W (O * O) with h5 | h5
    · have : W * O < O * O * O := Nat.mul_lt_mul_of_pos_right h5 hO
      omega
    · have h6 : W = O * O := le_antisymm h4 h5
      subst h6
      -- `A·O³ < Lm·O² + O³`
      have h7 : A * O * (O * O) < (Lm + O) * (O * O) := by
        have e : (Lm + O) * (O * O) = Lm * (O * O) + O * O * O := by ring
        omega
      exact absurd (Nat.lt_of_mul_lt_mul_right h7) (by omega)
  · -- `(W·O + H)² < O^6`, contradiction
    have h4 : W ≤ O * O := by
      apply le_of_sq_le; omega
    have h5 : 4 * H * O ≤ O * O * (O * O) := by omega
    have h6 : 4 * H ≤ O * O * O := by
      have : 4 * H * O ≤ O * O * O * O := by
        calc 4 * H * O ≤ O * O * (O * O) := h5
          _ = _ := by ring
      exact Nat.le_of_mul_le_mul_right this hO
    have h7 : (O * O * O) * (O * O * O) ≤ (W * O + H) * (W * O + H) := Nat.mul_le_mul h2 h2
    have h8 : (W * O + H) * (W * O + H) < (O * O * O) * (O * O * O) := by
      have e1 : (W * O + H) * (W * O + H) = W * W * (O * O) + 2 * (W * (H * O)) + H * H := by ring
      have e2 : (W * W + 4 * H * O) * (O * O) ≤ O * O * (O * O) * (O * O) :=
        Nat.mul_le_mul_right _ h1
      have e3 : (W * W + 4 * H * O) * (O * O) = W * W * (O * O) + 4 * (O * O * (H * O)) := by ring
      have e4 : O * O * (O * O) * (O * O) = (O * O * O) * (O * O * O) := by ring
      have e5 : W * (H * O) ≤ O * O * (H * O) := Nat.mul_le_mul_right _ h4
      have e6 : 4 * (H * H) ≤ O * O * (H * O) := by
        calc 4 * (H * H) = 4 * H * H := by ring
          _ ≤ O * O * O * H := Nat.mul_le_mul_right _ h6
          _ = _ := by ring
      have e7 : 0 < O * O * (H * O) := by positivity
      omega
    omega

theorem W_sq (H P m : Nat) :
    (P + 2 * H * m) * (P + 2 * H * m) = P * P + 4 * H * L H P m := by unfold L; ring

theorem Rep.buy_sell_le (h : Rep c H P Q) {s A B x y x' y' : Nat} (hA : A < 18446744073709551616)
    (hs : s < 18446744073709551616)
    (hR : P * P + 4 * H * (A * ONE) ≤ ONE * ONE * (ONE * ONE))
    (hbuy : swapAToB c s A B = .ok (x, y)) (hy : y < B)
    (hsell : swapBToA c y (A + x) = .ok (x', y')) : y' ≤ s := by
  obtain ⟨m, h1, h2⟩ := h.buy_sell hA hs hbuy hy hsell
  have h3 := deficiency_core (W_sq H P m) ONE_pos hR h2
  by_contra hc
  have h4 : (s + 1) * ONE ≤ y' * ONE := Nat.mul_le_mul_right _ (by omega)
  rw [Nat.add_mul] at h1 h4
  omega

/-- For all representable parameters: the gain is below 33 units. -/
theorem Rep.buy_sell_slack (h : Rep c H P Q) {s A B x y x' y' : Nat}
    (hA : A < 18446744073709551616) (hs : s < 18446744073709551616)
    (hbuy : swapAToB c s A B = .ok (x, y)) (hy : y < B)
    (hsell : swapBToA c y (A + x) = .ok (x', y')) : y' ≤ s + 32 := by
  obtain ⟨m, h1, h2⟩ := h.buy_sell hA hs hbuy hy hsell
  have b1 : sn c < 18446744073709551616 := u64_lt _
  have b3 : pn c < 18446744073709551616 := u64_lt _
  by_contra hc
  have h4 : (s + 33) * ONE ≤ y' * ONE := Nat.mul_le_mul_right _ (by omega)
  rw [Nat.add_mul] at h1 h4
  have h5 : L H P m + 33 * ONE ≤ A * ONE := by omega
  have hPle : P ≤ 18446744073709551616 * ONE := by
    have : 1 * P ≤ pd c * P := Nat.mul_le_mul_right _ (Nat.pos_of_ne_zero h.nz.pd)
    rw [Nat.one_mul, ← h.hP] at this
    exact le_trans this (Nat.mul_le_mul_right _ (le_of_lt b3))
  have hHle : 2 * H ≤ 18446744073709551616 * ONE := by
    have : 1 * (2 * H) ≤ sd c * (2 * H) := Nat.mul_le_mul_right _ (Nat.pos_of_ne_zero h.nz.sd)
    have e : sd c * (2 * H) = 2 * sd c * H := by ring
    rw [Nat.one_mul, e, ← h.hH] at this
    exact le_trans this (Nat.mul_le_mul_right _ (le_of_lt b1))
  have hLle : L H P m ≤ 18446744073709551616 * ONE := by
    have : A * ONE ≤ 18446744073709551616 * ONE := Nat.mul_le_mul_right _ (le_of_lt hA)
    omega
  have hW : P + 2 * H * m ≤ 32000000000000000000 * ONE := by
    apply le_of_sq_le
    rw [W_sq]
    calc P * P + 4 * H * L H P m = P * P + 2 * (2 * H) * L H P m := by ring
      _ ≤ 18446744073709551616 * ONE * (18446744073709551616 * ONE) +
          2 * (18446744073709551616 * ONE) * (18446744073709551616 * ONE) := by gcongr
      _ ≤ _ := by rw [ONE_val]; norm_num
  have h6 : L H P m * (ONE * ONE) + 33 * ONE * (ONE * ONE) ≤ A * ONE * (ONE * ONE) := by
    rw [← Nat.add_mul]; exact Nat.mul_le_mul_right _ h5
  have h7 : 33 * ONE * (ONE * ONE) < (P + 2 * H * m) * ONE + H := by omega
  have h8 : (P + 2 * H * m) * ONE + H ≤
      32000000000000000000 * ONE * ONE + 18446744073709551616 * ONE :=
    Nat.add_le_add (Nat.mul_le_mul_right _ hW) (by omega)
  have h9 := lt_of_lt_of_le h7 h8
  rw [ONE_val] at h9
  norm_num at h9

/-! ### A computed position presupposes usable parameters -/

theorem div_zero_none (x : Nat) : div x (0 * ONE) = .none := by
  unfold div; rw [Nat.zero_mul, if_pos rfl]

theorem div_ok_ne {x y r : Nat} (h : div x y = .ok r) : y ≠ 0 := by
  intro h0
  unfold div at h
  rw [if_pos h0] at h
  cases h

theorem mul_zero_ok (k : Nat) : mul (0 * ONE) k = .ok 0 := by
  have : mul (0 * ONE) k = .ok (0 * k) := mul_new_ok' (by
    rw [Nat.zero_mul, Nat.zero_mul, rc_eq, U256_val]; norm_num)
  exact this.trans (by rw [Nat.zero_mul])

theorem nz_of_bValue {a b : Nat} {up : Bool} (h : bValue c a up = .ok b) : Nz c := by
  unfold bValue at h
  rw [new_u64, Res.ok_bind, new_u64, Res.ok_bind, new1, Res.ok_bind, Res.bind_eq_ok] at h
  obtain ⟨kn, hkn, h⟩ := h
  rw [new2, Res.ok_bind, Res.bind_eq_ok] at h
  obtain ⟨kd, hkd, h⟩ := h
  rw [new_u64, Res.ok_bind, new_u64, Res.ok_bind] at h
  unfold solveQuadraticPositiveRoot at h
  rw [new4, Res.ok_bind, Res.bind_eq_ok] at h
  obtain ⟨f1, hf1, h⟩ := h
  rw [Res.bind_eq_ok] at h
  obtain ⟨f2, hf2, h⟩ := h
  rw [Res.bind_eq_ok] at h
  obtain ⟨f3, hf3, h⟩ := h
  rw [Res.bind_eq_ok] at h
  obtain ⟨e1, he1, h⟩ := h
  rw [Res.bind_eq_ok] at h
  obtain ⟨e2, he2, h⟩ := h
  rw [Res.bind_eq_ok] at h
  obtain ⟨e3, he3, h⟩ := h
  rw [Res.bind_eq_ok] at h
  obtain ⟨rd, hrd, h⟩ := h
  rw [Res.bind_eq_ok] at h
  obtain ⟨root, hroot, h⟩ := h
  rw [Res.bind_eq_ok] at h
  obtain ⟨e, he, h⟩ := h
  rw [Res.bind_eq_ok] at h
  obtain ⟨nm, hnm, h⟩ := h
  rw [Res.bind_eq_ok] at h
  obtain ⟨n1, hn1, h⟩ := h
  rw [Res.bind_eq_ok] at h
  obtain ⟨n2, hn2, h⟩ := h
  have hkn0 := div_ok_ne hn2
  have hkd0 := div_ok_ne hf3
  have hpd0 := div_ok_ne he2
  refine ⟨?_, ?_, ?_⟩
  · intro h0
    rw [show c.slope_numerator.toNat = 0 from h0, mul_zero_ok] at hkn
    exact hkn0 (Res.ok.inj hkn).symm
  · intro h0
    rw [show c.slope_denominator.toNat = 0 from h0, mul_zero_ok] at hkd
    exact hkd0 (Res.ok.inj hkd).symm
  · intro h0
    exact hpd0 (by rw [show c.initial_token_a_price_denominator.toNat = 0 from h0, Nat.zero_mul])

/-! ### No aborts outside the square root -/

theorem bind_ne_panic {α β : Type} {x : Res α} {f : α → Res β} (hx : x ≠ .panic)
    (hf : ∀ a, f a ≠ .panic) : (x >>= f) ≠ .panic := by
  cases x with
  | ok a => exact hf a
  | none => intro h; cases h
  | panic => exact absurd rfl hx

theorem mul_ne_panic {x y : Nat} : mul x y ≠ .panic := by
  unfold mul
  rcases hq : cmul U256 x y with v | _ | _
  · exact bind_ne_panic cadd_ne_panic fun _ => cdiv_ne_panic
  · simp only []
    split
    · exact bind_ne_panic cdiv_ne_panic fun _ => cmul_ne_panic
    · exact bind_ne_panic cdiv_ne_panic fun _ => cmul_ne_panic
  · exact absurd hq cmul_ne_panic

theorem div_ne_panic {x y : Nat} : div x y ≠ .panic := by
  unfold div
  split
  · simp
  rcases hq : cmul U256 x ONE with v | _ | _
  · exact bind_ne_panic cadd_ne_panic fun _ => cdiv_ne_panic
  · exact bind_ne_panic cadd_ne_panic fun _ => bind_ne_panic cdiv_ne_panic fun _ => cmul_ne_panic
  · exact absurd hq cmul_ne_panic

theorem toImprecise_ne_panic {x : Nat} : toImprecise x ≠ .panic := by
  unfold toImprecise
  refine bind_ne_panic cadd_ne_panic fun a => bind_ne_panic cdiv_ne_panic fun q => ?_
  split <;> simp

theorem amtALocked_ne_panic {b : Nat} : amtALocked c b ≠ .panic := by
  unfold amtALocked
  refine bind_ne_panic cmul_ne_panic fun _ => bind_ne_panic mul_ne_panic fun _ =>
    bind_ne_panic mul_ne_panic fun _ => bind_ne_panic cmul_ne_panic fun _ =>
    bind_ne_panic div_ne_panic fun _ => bind_ne_panic cmul_ne_panic fun _ =>
    bind_ne_panic div_ne_panic fun _ => bind_ne_panic cmul_ne_panic fun _ =>
    bind_ne_panic mul_ne_panic fun _ => bind_ne_panic cmul_ne_panic fun _ =>
    bind_ne_panic div_ne_panic fun _ => cadd_ne_panic

theorem maximumARemaining_ne_panic {a0 b0 s B : Nat} :
    maximumARemaining c a0 b0 s B ≠ .panic := by
  unfold maximumARemaining
  refine bind_ne_panic cmul_ne_panic fun _ => bind_ne_panic cadd_ne_panic fun _ =>
    bind_ne_panic amtALocked_ne_panic fun _ => bind_ne_panic csub_ne_panic fun _ =>
    bind_ne_panic toImprecise_ne_panic fun _ => ?_
  split <;> simp

/-- The buy-out test depends on the offered amount only through the final comparison. -/
theorem maximumARemaining_of_le {a0 b0 s s' B x y : Nat} (hss : s ≤ s')
    (h : maximumARemaining c a0 b0 s B = .ok (x, y)) :
    maximumARemaining c a0 b0 s' B = .ok (x, y) := by
  unfold maximumARemaining at *
  rw [Res.bind_eq_ok] at h ⊢
  obtain ⟨d, hd, h⟩ := h
  refine ⟨d, hd, ?_⟩
  rw [Res.bind_eq_ok] at h ⊢
  obtain ⟨mb, hmb, h⟩ := h
  refine ⟨mb, hmb, ?_⟩
  rw [Res.bind_eq_ok] at h ⊢
  obtain ⟨v, hv, h⟩ := h
  refine ⟨v, hv, ?_⟩
  rw [Res.bind_eq_ok] at h ⊢
  obtain ⟨df, hdf, h⟩ := h
  refine ⟨df, hdf, ?_⟩
  rw [Res.bind_eq_ok] at h ⊢
  obtain ⟨rem, hrem, h⟩ := h
  refine ⟨rem, hrem, ?_⟩
  split at h
  · rename_i hle
    rw [if_pos (le_trans hle hss)]
    exact h
  · cases h

/-- If a larger offer would buy the pool out at a price within the smaller offer, so does the
smaller offer. -/
theorem maximumARemaining_down {a0 b0 s s' B x y : Nat} (hx : x ≤ s)
    (h : maximumARemaining c a0 b0 s' B = .ok (x, y)) :
    maximumARemaining c a0 b0 s B = .ok (x, y) := by
  unfold maximumARemaining at *
  rw [Res.bind_eq_ok] at h ⊢
  obtain ⟨d, hd, h⟩ := h
  refine ⟨d, hd, ?_⟩
  rw [Res.bind_eq_ok] at h ⊢
  obtain ⟨mb, hmb, h⟩ := h
  refine ⟨mb, hmb, ?_⟩
  rw [Res.bind_eq_ok] at h ⊢
  obtain ⟨v, hv, h⟩ := h
  refine ⟨v, hv, ?_⟩
  rw [Res.bind_eq_ok] at h ⊢
  obtain ⟨df, hdf, h⟩ := h
  refine ⟨df, hdf, ?_⟩
  rw [Res.bind_eq_ok] at h ⊢
  obtain ⟨rem, hrem, h⟩ := h
  refine ⟨rem, hrem, ?_⟩
  split at h
  · have h' := Res.ok.inj h
    rw [Prod.mk.injEq] at h'
    rw [if_pos (by omega)]
    exact h
  · cases h

/-- Full description of a purchase given the starting position. -/
theorem swapAToB_of {s A B b0 : Nat} (hA : A < 36893488147419103232)
    (hb0 : bValue c (A * ONE) true = .ok b0) :
    swapAToB c s A B = match maximumARemaining c (A * ONE) b0 s B with
      | .ok r => .ok r
      | .panic => .panic
      | .none => (do
        let s' ← Dfs.new s
        let aEnd ← Dfs.add (A * ONE) s'
        let bEnd ← bValue c aEnd false
        let diff ← Dfs.sub bEnd b0
        let fl ← Dfs.floor diff
        let out ← Dfs.toImprecise fl
        .ok (s, out)) := by
  have hn : new A = .ok (A * ONE) := by
    refine new_ok ?_
    rw [ONE_val, U256_val]; omega
  unfold swapAToB
  rw [hn, Res.ok_bind, hb0, Res.ok_bind]
  cases maximumARemaining c (A * ONE) b0 s B <;> rfl

/-- A non-exhausting purchase fails the buy-out test. -/
theorem swapAToB_normal {s A B b0 x y : Nat} (hA : A < 36893488147419103232)
    (hb0 : bValue c (A * ONE) true = .ok b0) (h : swapAToB c s A B = .ok (x, y)) (hy : y ≠ B) :
    maximumARemaining c (A * ONE) b0 s B = .none := by
  rw [swapAToB_of hA hb0] at h
  rcases hm : maximumARemaining c (A * ONE) b0 s B with r | _ | _
  · rw [hm] at h
    have h' := Res.ok.inj h
    rw [h'] at hm
    exact absurd (maximumARemaining_ok hm).1 hy
  · rfl
  · rw [hm] at h; cases h

/-- Success of the ordinary branch from its two positions. -/
theorem swapAToB_none {s A B b0 b1 : Nat} (hA : A < 18446744073709551616)
    (hs : s < 18446744073709551616)
    (hb0 : bValue c (A * ONE) true = .ok b0) (hb1 : bValue c ((A + s) * ONE) false = .ok b1)
    (hle : b0 ≤ b1) (hout : (b1 - b0) / ONE < U128)
    (hm : maximumARemaining c (A * ONE) b0 s B = .none) :
    swapAToB c s A B = .ok (s, (b1 - b0) / ONE) := by
  have hc := nz_of_bValue hb0
  have hb1l := bValue_lt hc (by omega) hb1
  have hb1l' : b1 < U256 := lt_of_le_of_lt hb1l (by rw [U256_val]; unfold SQRT_ONE; norm_num)
  have hs' : new s = .ok (s * ONE) := by
    refine new_ok ?_
    rw [ONE_val, U256_val]; omega
  have ha' : add (A * ONE) (s * ONE) = .ok ((A + s) * ONE) := by
    rw [Nat.add_mul]
    refine cadd_ok ?_
    rw [ONE_val, U256_val]; omega
  rw [swapAToB_of (by omega) hb0, hm]
  simp only []
  rw [hs', Res.ok_bind, ha', Res.ok_bind, hb1, Res.ok_bind,
    show sub b1 b0 = .ok (b1 - b0) from csub_ok hle, Res.ok_bind,
    floor_ok (lt_of_le_of_lt (Nat.sub_le _ _) hb1l'), Res.ok_bind, toImprecise_new hout,
    Res.ok_bind]

theorem toImprecise_u128 {x y : Nat} (h : toImprecise x = .ok y) : y < U128 := by
  unfold toImprecise at h
  rw [Res.bind_eq_ok] at h
  obtain ⟨s, hs, h⟩ := h
  rw [(cadd_eq_ok.1 hs).2, cdiv_ok ONE_ne, Res.ok_bind] at h
  split at h
  · rename_i hh; rw [← Res.ok.inj h]; exact hh
  · cases h

/-- The amounts produced by a purchase are u128. -/
theorem swapAToB_u128 {s A B x y : Nat} (h : swapAToB c s A B = .ok (x, y)) :
    y = B ∨ y < U128 := by
  unfold swapAToB at h
  rw [Res.bind_eq_ok] at h
  obtain ⟨a0, ha0, h⟩ := h
  rw [Res.bind_eq_ok] at h
  obtain ⟨b0, hb0, h⟩ := h
  rcases hm : maximumARemaining c a0 b0 s B with r | _ | _
  · rw [hm] at h
    have h' := Res.ok.inj h
    rw [h'] at hm
    exact Or.inl (maximumARemaining_ok hm).1
  · rw [hm] at h
    simp only [] at h
    rw [Res.bind_eq_ok] at h
    obtain ⟨sr, hsr, h⟩ := h
    rw [Res.bind_eq_ok] at h
    obtain ⟨a1, ha1, h⟩ := h
    rw [Res.bind_eq_ok] at h
    obtain ⟨b1, hb1, h⟩ := h
    rw [Res.bind_eq_ok] at h
    obtain ⟨df, hdf, h⟩ := h
    rw [Res.bind_eq_ok] at h
    obtain ⟨fl, hfl, h⟩ := h
    rw [Res.bind_eq_ok] at h
    obtain ⟨out, hout, h⟩ := h
    have h' := Res.ok.inj h
    rw [Prod.mk.injEq] at h'
    right
    rw [← h'.2]; exact toImprecise_u128 hout
  · rw [hm] at h; cases h

/-- On validated curves every position is below `2^97·10^27`. -/
theorem bValue_lt_valid (hv : isCurveParamValid c = .ok ()) {A b : Nat} {up : Bool}
    (hA : A < 36893488147419103232) (h : bValue c (A * ONE) up = .ok b) :
    b ≤ 2 ^ 97 * SQRT_ONE * ONE := by
  obtain ⟨root, h1, h2⟩ := bValue_ok (nz_of_valid hv) hA h
  have hr := root_le (rad_le c (whole_le_AMAX hA)) h1
  obtain ⟨n1, _, _, hle⟩ := (valid_iff c).1 hv
  rw [h2, Nat.div_le_iff_le_mul_add_pred (Nat.pos_of_ne_zero n1)]
  refine le_trans ?_ (Nat.le_add_right _ _)
  calc (root - price c) * sd c ≤ 2 ^ 97 * SQRT_ONE * (sn c * ONE) :=
        Nat.mul_le_mul (le_trans (Nat.sub_le _ _) hr) hle
    _ = _ := by ring

theorem out_lt_u128 (hv : isCurveParamValid c = .ok ()) {A b b0 : Nat} {up : Bool}
    (hA : A < 36893488147419103232) (h : bValue c (A * ONE) up = .ok b) :
    (b - b0) / ONE < U128 := by
  have hb := bValue_lt_valid hv hA h
  have : (b - b0) / ONE ≤ 2 ^ 97 * SQRT_ONE * ONE / ONE :=
    Nat.div_le_div_right (le_trans (Nat.sub_le _ _) hb)
  rw [Nat.mul_div_cancel _ ONE_pos] at this
  refine lt_of_le_of_lt this ?_
  rw [U128_val]; unfold SQRT_ONE; norm_num

theorem bValue_down_total (hc : Nz c) {A : Nat} (hA : A < 36893488147419103232) :
    ∃ b, bValue c (A * ONE) false = .ok b := by
  obtain ⟨root, h⟩ := sqrtU64_down_total (rad_lt c (whole_le_AMAX hA))
  refine ⟨(root - price c) * sd c / sn c, ?_⟩
  rw [bValue_eq c hc.sn hc.sd hc.pd (whole_le_AMAX hA), h, Res.ok_bind]

theorem swapWithoutFees_of_buy {s A B x y : Nat} (h : swapAToB c s A B = .ok (x, y)) (hx : x ≠ 0)
    (hy : y ≠ 0) : swapWithoutFees c s A B .AtoB = .ok ⟨x, y⟩ := by
  unfold swapWithoutFees mapZeroToNone
  simp only []
  rw [h, Res.ok_bind]
  simp only []
  rw [if_neg hx, if_neg hy, Res.ok_bind, Res.ok_bind]

end Linear
end Verif
