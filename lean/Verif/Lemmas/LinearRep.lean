import Verif.Lemmas.LinearSwap

/-
Linear curves whose half-slope `H`, initial price `P` and squared price are whole multiples of
`10^-18`: the curve position brackets the exact one.
-/

namespace Verif
namespace Linear
open Dfs

/-- Representable parameters, with the raw half-slope `H`, price `P` and squared price `Q`. -/
structure Rep (c : LinearPriceCurve) (H P Q : Nat) : Prop where
  nz : Nz c
  hH : sn c * ONE = 2 * sd c * H
  hP : pn c * ONE = pd c * P
  hQ : pn c * pn c * ONE = pd c * pd c * Q

/-- Raw cost of `n` whole tokens: `H n² + P n`. -/
def L (H P n : Nat) : Nat := H * (n * n) + P * n

theorem L_mono {H P m n : Nat} (h : m ≤ n) : L H P m ≤ L H P n := by
  unfold L; gcongr

variable {c : LinearPriceCurve} {H P Q : Nat}

theorem Rep.H_pos (h : Rep c H P Q) : 0 < H := by
  rcases Nat.eq_zero_or_pos H with h0 | h0
  · have := h.hH
    rw [h0, Nat.mul_zero] at this
    rcases Nat.mul_eq_zero.1 this with h1 | h1
    · exact absurd h1 h.nz.sn
    · exact absurd h1 ONE_ne
  · exact h0

theorem Rep.price_eq (h : Rep c H P Q) : price c = P := by
  unfold price
  rw [h.hP]
  exact Nat.mul_div_cancel_left _ (Nat.pos_of_ne_zero h.nz.pd)

theorem Rep.PP (h : Rep c H P Q) : P * P = Q * ONE := by
  have hp : 0 < pd c := Nat.pos_of_ne_zero h.nz.pd
  have h1 : pd c * pd c * (P * P) = pd c * pd c * (Q * ONE) := by
    calc pd c * pd c * (P * P) = (pd c * P) * (pd c * P) := by ring
      _ = (pn c * ONE) * (pn c * ONE) := by rw [h.hP]
      _ = (pn c * pn c * ONE) * ONE := by ring
      _ = (pd c * pd c * Q) * ONE := by rw [h.hQ]
      _ = _ := by ring
  exact Nat.eq_of_mul_eq_mul_left (Nat.mul_pos hp hp) h1

theorem Rep.rad_eq (h : Rep c H P Q) (A : Nat) : rad c (A * ONE) = Q + 4 * H * A := by
  have hp : 0 < pd c := Nat.pos_of_ne_zero h.nz.pd
  have hs : 0 < sd c := Nat.pos_of_ne_zero h.nz.sd
  unfold rad
  rw [h.hQ, Nat.mul_div_cancel_left _ (Nat.mul_pos hp hp)]
  have e : 2 * sn c * (A * ONE) = sd c * (4 * H * A) := by
    calc 2 * sn c * (A * ONE) = 2 * A * (sn c * ONE) := by ring
      _ = 2 * A * (2 * sd c * H) := by rw [h.hH]
      _ = _ := by ring
  rw [e, Nat.mul_div_cancel_left _ hs]

theorem Rep.rad_one (h : Rep c H P Q) (A : Nat) :
    rad c (A * ONE) * ONE = P * P + 4 * H * A * ONE := by
  rw [h.rad_eq, Nat.add_mul, ← h.PP]

theorem Rep.scale (h : Rep c H P Q) (x : Nat) : x * sd c / sn c = x * ONE / (2 * H) := by
  have hs : 0 < sn c := Nat.pos_of_ne_zero h.nz.sn
  have hH : 0 < 2 * H := Nat.mul_pos (by decide) h.H_pos
  rw [← Nat.mul_div_mul_right (x * sd c) (sn c) hH, ← Nat.mul_div_mul_left (x * ONE) (2 * H) hs]
  congr 1
  calc x * sd c * (2 * H) = x * (2 * sd c * H) := by ring
    _ = x * (sn c * ONE) := by rw [h.hH]
    _ = _ := by ring

theorem le_of_sq_le {x y : Nat} (h : x * x ≤ y * y) : x ≤ y := by
  by_contra hc
  have : y * y < x * x := Nat.mul_lt_mul'' (by omega) (by omega)
  omega

/-- Rounding up, the position is at least every half-integer position it should reach. -/
theorem Rep.up_ge (h : Rep c H P Q) {A b k : Nat} (hA : A < 36893488147419103232)
    (hb : bValue c (A * ONE) true = .ok b) (hk : H * (k * k) + 2 * P * k ≤ 4 * A * ONE) :
    k * roundingCorrection ≤ b := by
  obtain ⟨root, h1, h2⟩ := bValue_ok h.nz hA hb
  have hsq := sqrtU64_up_sq (rad_lt c (whole_le_AMAX hA)) h1
  rw [h.rad_one] at hsq
  have hle : P + H * k ≤ root := by
    apply le_of_sq_le
    calc (P + H * k) * (P + H * k) = P * P + H * (H * (k * k) + 2 * P * k) := by ring
      _ ≤ P * P + H * (4 * A * ONE) := by gcongr
      _ = P * P + 4 * H * A * ONE := by ring
      _ ≤ _ := hsq
  rw [h2, h.price_eq, h.scale, Nat.le_div_iff_mul_le (Nat.mul_pos (by decide) h.H_pos)]
  have e2 : ONE = 2 * roundingCorrection := by decide
  calc k * roundingCorrection * (2 * H) = H * k * (2 * roundingCorrection) := by ring
    _ = H * k * ONE := by rw [← e2]
    _ ≤ _ := Nat.mul_le_mul_right _ (by omega)

theorem Rep.up_ge_whole (h : Rep c H P Q) {A b n : Nat} (hA : A < 36893488147419103232)
    (hb : bValue c (A * ONE) true = .ok b) (hn : L H P n ≤ A * ONE) : n * ONE ≤ b := by
  have := h.up_ge (k := 2 * n) hA hb (by
    unfold L at hn
    calc H * (2 * n * (2 * n)) + 2 * P * (2 * n) = 4 * (H * (n * n) + P * n) := by ring
      _ ≤ 4 * (A * ONE) := by gcongr
      _ = _ := by ring)
  have e2 : ONE = 2 * roundingCorrection := by decide
  rw [e2]
  calc n * (2 * roundingCorrection) = 2 * n * roundingCorrection := by ring
    _ ≤ b := this

/-- Rounding down, every whole position reached is paid for. -/
theorem Rep.down_le (h : Rep c H P Q) {A b n : Nat} (hA : A < 36893488147419103232)
    (hb : bValue c (A * ONE) false = .ok b) (hn : n * ONE ≤ b) : L H P n ≤ A * ONE := by
  obtain ⟨root, h1, h2⟩ := bValue_ok h.nz hA hb
  have hsq := sqrtU64_down_sq (rad_lt c (whole_le_AMAX hA)) h1
  rw [h.rad_one] at hsq
  have hH := h.H_pos
  rw [h2, h.price_eq, h.scale, Nat.le_div_iff_mul_le (Nat.mul_pos (by decide) hH)] at hn
  have h3 : 2 * H * n ≤ root - P := by
    have : 2 * H * n * ONE ≤ (root - P) * ONE := by
      calc 2 * H * n * ONE = n * ONE * (2 * H) := by ring
        _ ≤ _ := hn
    exact Nat.le_of_mul_le_mul_right this ONE_pos
  rcases Nat.eq_zero_or_pos n with hn0 | hn0
  · rw [hn0]; unfold L; simp
  have h4 : 0 < 2 * H * n := Nat.mul_pos (Nat.mul_pos (by decide) hH) hn0
  have h5 : P + 2 * H * n ≤ root := by omega
  have h6 : (P + 2 * H * n) * (P + 2 * H * n) ≤ root * root := Nat.mul_le_mul h5 h5
  have h7 : P * P + 4 * H * L H P n ≤ P * P + 4 * H * (A * ONE) := by
    unfold L
    calc P * P + 4 * H * (H * (n * n) + P * n) = (P + 2 * H * n) * (P + 2 * H * n) := by ring
      _ ≤ root * root := h6
      _ ≤ P * P + 4 * H * A * ONE := hsq
      _ = _ := by ring
  have h8 : 4 * H * L H P n ≤ 4 * H * (A * ONE) := Nat.le_of_add_le_add_left h7
  exact Nat.le_of_mul_le_mul_left h8 (Nat.mul_pos (by decide) hH)

theorem Rep.amtF_whole (h : Rep c H P Q) (n : Nat) : amtF c (n * ONE) = L H P n := by
  have hp : 0 < pd c := Nat.pos_of_ne_zero h.nz.pd
  have hs : 0 < sd c := Nat.pos_of_ne_zero h.nz.sd
  rw [Linear.amtF_whole]
  have e1 : sn c * n * n * ONE = 2 * sd c * (H * (n * n)) := by
    calc sn c * n * n * ONE = (sn c * ONE) * (n * n) := by ring
      _ = 2 * sd c * H * (n * n) := by rw [h.hH]
      _ = _ := by ring
  have e2 : pn c * n * ONE = pd c * (P * n) := by
    calc pn c * n * ONE = (pn c * ONE) * n := by ring
      _ = pd c * P * n := by rw [h.hP]
      _ = _ := by ring
  rw [e1, e2, Nat.mul_div_cancel_left _ hp, Nat.mul_div_cancel_left _ (by omega)]
  rfl

/-! ### Effects of single swaps on the backing -/

/-- `A` covers every whole position `n` with `n + B = T`. -/
def Inv (H P T A B : Nat) : Prop := ∀ n, n + B = T → L H P n ≤ A * ONE

theorem VMAX_of_le {A s v x : Nat} (hA : A < 18446744073709551616) (hs : s < 18446744073709551616)
    (hx : x = (v - A * ONE + roundingCorrection) / ONE) (hxs : x ≤ s) : v < VMAX := by
  have h1 : v - A * ONE + roundingCorrection < ONE * (x + 1) := by
    rw [hx]; exact Nat.lt_mul_div_succ _ ONE_pos
  rw [ONE_val, rc_eq] at h1
  rw [VMAX_val]
  omega

theorem Rep.buy_inv (h : Rep c H P Q) {T s A B x y : Nat}
    (hA : A < 18446744073709551616) (hs : s < 18446744073709551616)
    (hsw : swapAToB c s A B = .ok (x, y)) (hy : y ≤ B) (hI : Inv H P T A B) :
    Inv H P T (A + x) (B - y) ∨ (y = B ∧ (L H P T + roundingCorrection) / ONE ≤ A + x) := by
  obtain ⟨b0, hb0, hcase⟩ := swapAToB_ok hsw
  rcases hcase with ⟨hyB, hxs, v, hv, hAv, hx⟩ | ⟨hx, b1, hb1, hle, hyb⟩
  · right
    refine ⟨hyB, ?_⟩
    have hV : v < VMAX := VMAX_of_le hA hs hx hxs
    have hvF := (amt_eq_ok h.nz.sn hv hV).1
    have hT : T * ONE ≤ b0 + B * ONE := by
      rcases Nat.lt_or_ge T B with hTB | hTB
      · exact le_trans (Nat.mul_le_mul_right _ (le_of_lt hTB)) (Nat.le_add_left _ _)
      · have := h.up_ge_whole (by omega) hb0 (hI (T - B) (by omega))
        calc T * ONE = (T - B) * ONE + B * ONE := by rw [← Nat.add_mul]; congr 1; omega
          _ ≤ _ := Nat.add_le_add_right this _
    have hL : L H P T ≤ v := by
      rw [hvF, ← h.amtF_whole]
      exact amtF_mono c hT
    have e : A + x = (v + roundingCorrection) / ONE := by
      rw [hx]
      have : v + roundingCorrection = (v - A * ONE + roundingCorrection) + A * ONE := by omega
      rw [this, Nat.add_mul_div_right _ _ ONE_pos, Nat.add_comm]
    rw [e]
    exact Nat.div_le_div_right (Nat.add_le_add_right hL _)
  · left
    intro n hn
    have hA' : A + s < 36893488147419103232 := by omega
    rw [hx]
    refine h.down_le hA' hb1 ?_
    have hyle : y * ONE ≤ b1 - b0 := by rw [hyb]; exact Nat.div_mul_le_self _ _
    rcases Nat.lt_or_ge n y with hny | hny
    · exact le_trans (Nat.mul_le_mul_right _ (le_of_lt hny)) (le_trans hyle (Nat.sub_le _ _))
    · have := h.up_ge_whole (by omega) hb0 (hI (n - y) (by omega))
      calc n * ONE = (n - y) * ONE + y * ONE := by rw [← Nat.add_mul]; congr 1; omega
        _ ≤ b0 + (b1 - b0) := Nat.add_le_add this hyle
        _ = b1 := by omega

/-- A purchase that leaves some B in the pool keeps the invariant exactly. -/
theorem Rep.buy_inv_partial (h : Rep c H P Q) {T s A B x y : Nat}
    (hA : A < 18446744073709551616) (hs : s < 18446744073709551616)
    (hsw : swapAToB c s A B = .ok (x, y)) (hy : y < B) (hI : Inv H P T A B) :
    Inv H P T (A + x) (B - y) := by
  rcases h.buy_inv hA hs hsw (le_of_lt hy) hI with h1 | h1
  · exact h1
  · omega

theorem ceil_ge {n s b0 : Nat} (hle : s * ONE ≤ b0) (h : (n + s) * ONE ≤ b0 + roundingCorrection) :
    n ≤ (b0 - s * ONE + (ONE - 1)) / ONE := by
  rw [Nat.le_div_iff_mul_le ONE_pos]
  have hr : roundingCorrection ≤ ONE - 1 := by decide
  rw [Nat.add_mul] at h
  generalize s * ONE = S at *
  generalize n * ONE = N at *
  generalize ONE - 1 = K at *
  generalize roundingCorrection = R at *
  omega

/-- Sale outcome, given that the position before is at least `T' - 1/2` and `B` tokens are in the
pool already: covers every `n` with `n + B + x = T`. -/
theorem Rep.sell_inv (h : Rep c H P Q) {T s A B x y : Nat} (hA : A < 18446744073709551616)
    (hsw : swapBToA c s A = .ok (x, y))
    (hpos : ∀ b0 m, bValue c (A * ONE) true = .ok b0 → m + B = T →
      m * ONE ≤ b0 + roundingCorrection) :
    y ≤ A ∧ Inv H P T (A - y) (B + x) := by
  obtain ⟨b0, hb0, hcase⟩ := swapBToA_ok hsw
  rcases hcase with ⟨hlt, hy, hx⟩ | ⟨hle, hx, v, hv, hvA, hy⟩
  · refine ⟨le_of_eq hy, ?_⟩
    intro n hn
    have h1 := hpos b0 (n + x) hb0 (by omega)
    have h2 : b0 + roundingCorrection < ONE * (x + 1) := by
      rw [hx]; exact Nat.lt_mul_div_succ _ ONE_pos
    have h3 : (n + x) * ONE < (x + 1) * ONE := by
      rw [Nat.mul_comm (x + 1)]; exact lt_of_le_of_lt h1 h2
    have h4 : n + x < x + 1 := Nat.lt_of_mul_lt_mul_right h3
    have hn0 : n = 0 := by omega
    rw [hn0]; unfold L; simp
  · have hyA : y * ONE ≤ A * ONE - v := by rw [hy]; exact Nat.div_mul_le_self _ _
    have hyA' : y ≤ A := Nat.le_of_mul_le_mul_right (le_trans hyA (Nat.sub_le _ _)) ONE_pos
    refine ⟨hyA', ?_⟩
    intro n hn
    have hV : v < VMAX := by
      refine lt_of_le_of_lt hvA ?_
      rw [ONE_val, VMAX_val]; omega
    have hvF := (amt_eq_ok h.nz.sn hv hV).1
    rw [h.amtF_whole] at hvF
    have h1 := hpos b0 (n + s) hb0 (by omega)
    have hm := ceil_ge hle h1
    have h2 : L H P n ≤ v := by rw [hvF]; exact L_mono hm
    have h3 : (A - y) * ONE = A * ONE - y * ONE := Nat.sub_mul _ _ _
    rw [h3]
    omega

/-- From an exact invariant. -/
theorem Rep.sell_inv' (h : Rep c H P Q) {T s A B x y : Nat} (hA : A < 18446744073709551616)
    (hsw : swapBToA c s A = .ok (x, y)) (hI : Inv H P T A B) :
    y ≤ A ∧ Inv H P T (A - y) (B + x) := by
  refine h.sell_inv hA hsw ?_
  intro b0 m hb0 hm
  exact le_trans (h.up_ge_whole (by omega) hb0 (hI m hm)) (Nat.le_add_right _ _)

theorem Inv_donate {T A B u w : Nat} (hI : Inv H P T A B) : Inv H P T (A + u) (B + w) := by
  intro n hn
  have h1 := hI (n + w) (by omega)
  calc L H P n ≤ L H P (n + w) := L_mono (Nat.le_add_right _ _)
    _ ≤ A * ONE := h1
    _ ≤ _ := Nat.mul_le_mul_right _ (Nat.le_add_right _ _)

end Linear
end Verif
