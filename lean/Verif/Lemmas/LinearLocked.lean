import Verif.Lemmas.LinearBasic

/-
The "A locked at position b" function of the linear curve: whenever its result is small enough to
matter (below `2^126` raw) no overflow fallback was taken and it equals a simple closed form.
-/

namespace Verif
namespace Linear
open Dfs

/-- `mul` loses at most one unit of each operand. -/
theorem mul_lb {x y r : Nat} (h : mul x y = .ok r) : (x - ONE) * (y - ONE) ≤ r * ONE := by
  have fb : ∀ x y : Nat, (x - ONE) * (y - ONE) ≤ x / ONE * y * ONE := by
    intro x y
    have h1 : x < ONE * (x / ONE + 1) := Nat.lt_mul_div_succ x ONE_pos
    rw [Nat.mul_add] at h1
    have h2 : x - ONE ≤ x / ONE * ONE := by rw [Nat.mul_comm]; omega
    calc (x - ONE) * (y - ONE) ≤ x / ONE * ONE * y := Nat.mul_le_mul h2 (Nat.sub_le _ _)
      _ = _ := by ring
  unfold mul at h
  by_cases hf : x * y < U256
  · rw [cmul_ok hf] at h
    simp only [] at h
    rw [Res.bind_eq_ok] at h
    obtain ⟨s, hs, h⟩ := h
    rw [cadd_eq_ok] at hs
    rw [hs.2, cdiv_ok ONE_ne] at h
    have h2 : x * y + roundingCorrection < ONE * ((x * y + roundingCorrection) / ONE + 1) :=
      Nat.lt_mul_div_succ _ ONE_pos
    rw [Res.ok.inj h, Nat.mul_add, Nat.mul_comm ONE r] at h2
    rcases Nat.lt_or_ge x ONE with hx | hx
    · rw [Nat.sub_eq_zero_of_le (le_of_lt hx), Nat.zero_mul]; omega
    rcases Nat.lt_or_ge y ONE with hy | hy
    · rw [Nat.sub_eq_zero_of_le (le_of_lt hy), Nat.mul_zero]; omega
    obtain ⟨x', rfl⟩ := Nat.exists_eq_add_of_le hx
    obtain ⟨y', rfl⟩ := Nat.exists_eq_add_of_le hy
    rw [Nat.add_sub_cancel_left, Nat.add_sub_cancel_left]
    have e : (ONE + x') * (ONE + y') = ONE * ONE + ONE * y' + x' * ONE + x' * y' := by ring
    have h3 : ONE * 1 ≤ ONE * ONE := Nat.mul_le_mul_left _ ONE_pos
    omega
  · rw [show cmul U256 x y = .none from if_neg hf] at h
    simp only [] at h
    split at h
    · rw [cdiv_ok ONE_ne, Res.ok_bind, cmul_eq_ok] at h
      rw [h.2]; exact fb x y
    · rw [cdiv_ok ONE_ne, Res.ok_bind, cmul_eq_ok] at h
      rw [h.2, Nat.mul_comm (x - ONE)]; exact fb y x

theorem sub_one_le_div_mul (b : Nat) : b - ONE ≤ b / ONE * ONE := by
  have h1 : b < ONE * (b / ONE + 1) := Nat.lt_mul_div_succ b ONE_pos
  rw [Nat.mul_add, Nat.mul_comm ONE (b / ONE)] at h1
  omega

theorem mul_lb_aux {y n b r L : Nat} (e : y * b = n * b * ONE) (ed : y / ONE = n)
    (le1 : L ≤ n * b) (le2 : L ≤ b / ONE * y) (h : mul y b = .ok r) : L ≤ r := by
  unfold mul at h
  by_cases hf : y * b < U256
  · rw [cmul_ok hf] at h
    simp only [] at h
    rw [Res.bind_eq_ok] at h
    obtain ⟨s, hs, h⟩ := h
    rw [cadd_eq_ok] at hs
    rw [hs.2, cdiv_ok ONE_ne, e, round_cancel] at h
    rw [← Res.ok.inj h]
    exact le1
  · rw [show cmul U256 y b = .none from if_neg hf] at h
    simp only [] at h
    split at h
    · rw [cdiv_ok ONE_ne, Res.ok_bind, cmul_eq_ok, ed] at h
      rw [h.2]
      exact le1
    · rw [cdiv_ok ONE_ne, Res.ok_bind, cmul_eq_ok] at h
      rw [h.2]
      exact le2

theorem mul_new_lb {n b r : Nat} (h : mul (n * ONE) b = .ok r) : n * (b - ONE) ≤ r := by
  refine mul_lb_aux (n := n) (Nat.mul_right_comm _ _ _) (Nat.mul_div_cancel _ ONE_pos)
    (Nat.mul_le_mul_left _ (Nat.sub_le _ _)) ?_ h
  calc n * (b - ONE) ≤ n * (b / ONE * ONE) := Nat.mul_le_mul_left _ (sub_one_le_div_mul b)
    _ = _ := by rw [Nat.mul_left_comm]

theorem div_lb {x y r : Nat} (h : div x (y * ONE) = .ok r) : x < (r + ONE) * y := by
  unfold div at h
  split at h
  · cases h
  rename_i hy0
  have hy : 0 < y * ONE := Nat.pos_of_ne_zero hy0
  have hyp : 0 < y := Nat.pos_of_mul_pos_right hy
  by_cases hf : x * ONE < U256
  · rw [cmul_ok hf] at h
    simp only [] at h
    rw [Res.bind_eq_ok] at h
    obtain ⟨s, hs, h⟩ := h
    rw [cadd_eq_ok] at hs
    rw [hs.2, cdiv_ok hy0, Nat.mul_comm y, ← Nat.div_div_eq_div_mul, round_cancel] at h
    have h2 : x < y * (x / y + 1) := Nat.lt_mul_div_succ x hyp
    rw [Res.ok.inj h] at h2
    calc x < y * (r + 1) := h2
      _ ≤ y * (r + ONE) := Nat.mul_le_mul_left _ (Nat.add_le_add_left ONE_pos _)
      _ = _ := Nat.mul_comm _ _
  · rw [show cmul U256 x ONE = .none from if_neg hf] at h
    simp only [] at h
    rw [Res.bind_eq_ok] at h
    obtain ⟨s, hs, h⟩ := h
    rw [cadd_eq_ok] at hs
    rw [hs.2, cdiv_ok hy0, Res.ok_bind, cmul_eq_ok] at h
    have h2 : x + roundingCorrection < y * ONE * ((x + roundingCorrection) / (y * ONE) + 1) :=
      Nat.lt_mul_div_succ _ hy
    rw [h.2]
    calc x ≤ x + roundingCorrection := Nat.le_add_right _ _
      _ < _ := h2
      _ = _ := by ring

/-- Closed form of the locked amount. -/
def amtF (c : LinearPriceCurve) (b : Nat) : Nat :=
  (sn c * b * b + roundingCorrection) / ONE / sd c / 2 + pn c * b / pd c

/-- Bound on the result below which no fallback is possible: `2^126`. -/
def VMAX : Nat := 85070591730234615865843651857942052864
theorem VMAX_val : VMAX = 85070591730234615865843651857942052864 := rfl

/-- `2^254`. -/
def SMAX : Nat := 28948022309329048855892746252171976963317496166410141009864396001978282409984
theorem SMAX_val : SMAX =
  28948022309329048855892746252171976963317496166410141009864396001978282409984 := rfl
/-- `2^128`. -/
def BMAX : Nat := 340282366920938463463374607431768211456
theorem BMAX_val : BMAX = 340282366920938463463374607431768211456 := rfl

theorem r2_bound {d r2 r3 r4 : Nat} (hd : d < 18446744073709551616) (h3 : r2 < (r3 + ONE) * d)
    (h4 : r3 < (r4 + ONE) * 2) (h5 : r4 < VMAX) :
    r2 ≤ 170141183460469236731687303715884105728 * 18446744073709551616 := by
  have e1 : r3 ≤ 170141183460469235731687303715884105728 := by
    clear h3
    rw [VMAX_val] at h5; rw [ONE_val] at h4; omega
  · refine le_trans (le_of_lt h3) (Nat.mul_le_mul ?_ (le_of_lt hd))
    clear h3 h4
    rw [ONE_val]; omega

/-- Pure arithmetic core: small results force small operands. -/
theorem bounds_core {s d b r1 r2 r3 r4 : Nat} (hs1 : 1 ≤ s)
    (hd : d < 18446744073709551616) (h1 : s * (b - ONE) ≤ r1)
    (h2 : (r1 - ONE) * (b - ONE) ≤ r2 * ONE) (h3 : r2 < (r3 + ONE) * d) (h4 : r3 < (r4 + ONE) * 2)
    (h5 : r4 < VMAX) : b < BMAX := by
  by_contra hc
  have e2 := r2_bound hd h3 h4 h5
  have e3 : BMAX - ONE ≤ b - ONE := Nat.sub_le_sub_right (Nat.le_of_not_lt hc) _
  have e4 : BMAX - ONE ≤ r1 := by
    refine le_trans ?_ h1
    calc BMAX - ONE ≤ b - ONE := e3
      _ = 1 * (b - ONE) := by rw [Nat.one_mul]
      _ ≤ _ := Nat.mul_le_mul_right _ hs1
  have e5 : BMAX - ONE - ONE ≤ r1 - ONE := Nat.sub_le_sub_right e4 _
  have e6 := Nat.mul_le_mul e5 e3
  have e7 : r2 * ONE ≤ 170141183460469236731687303715884105728 * 18446744073709551616 * ONE :=
    Nat.mul_le_mul_right _ e2
  have e8 := le_trans e6 (le_trans h2 e7)
  rw [BMAX_val, ONE_val] at e8
  norm_num at e8

theorem bounds_core2 {s d b r2 r3 r4 : Nat} (hs : s < 18446744073709551616)
    (hd : d < 18446744073709551616) (hb : b < BMAX)
    (h2 : (s * b - ONE) * (b - ONE) ≤ r2 * ONE) (h3 : r2 < (r3 + ONE) * d)
    (h4 : r3 < (r4 + ONE) * 2) (h5 : r4 < VMAX) : s * b * b ≤ SMAX := by
  have e2 := r2_bound hd h3 h4 h5
  have e7 : r2 * ONE ≤ 170141183460469236731687303715884105728 * 18446744073709551616 * ONE :=
    Nat.mul_le_mul_right _ e2
  have e8 := le_trans h2 e7
  have e9 : s * b * b ≤ (s * b - ONE) * (b - ONE) + ONE * b + ONE * (s * b) := by
    obtain ⟨x, hx⟩ : ∃ x, x = s * b := ⟨_, rfl⟩
    rw [← hx]
    rcases Nat.lt_or_ge x ONE with h | h
    · have : x * b ≤ ONE * b := Nat.mul_le_mul_right _ (le_of_lt h)
      omega
    rcases Nat.lt_or_ge b ONE with h' | h'
    · have : x * b ≤ x * ONE := Nat.mul_le_mul_left _ (le_of_lt h')
      rw [Nat.mul_comm x ONE] at this
      omega
    obtain ⟨x', rfl⟩ := Nat.exists_eq_add_of_le h
    obtain ⟨y', rfl⟩ := Nat.exists_eq_add_of_le h'
    rw [Nat.add_sub_cancel_left, Nat.add_sub_cancel_left]
    nlinarith [Nat.zero_le (ONE * ONE)]
  have e10 : ONE * b ≤ ONE * BMAX := Nat.mul_le_mul_left _ (le_of_lt hb)
  have e11 : ONE * (s * b) ≤ ONE * (18446744073709551616 * BMAX) :=
    Nat.mul_le_mul_left _ (Nat.mul_le_mul (le_of_lt hs) (le_of_lt hb))
  refine le_trans e9 (le_trans (Nat.add_le_add (Nat.add_le_add e8 e10) e11) ?_)
  rw [ONE_val, BMAX_val, SMAX_val]; norm_num

/-- The locked amount, when small, is the closed form. -/
theorem amt_eq_ok {c : LinearPriceCurve} (hsn : sn c ≠ 0) {b v : Nat}
    (h : amtALocked c b = .ok v) (hv : v < VMAX) :
    v = amtF c b ∧ sn c * b * b ≤ SMAX ∧ b < BMAX := by
  have b1 : sn c < 18446744073709551616 := u64_lt _
  have b2 : sd c < 18446744073709551616 := u64_lt _
  have b3 : pn c < 18446744073709551616 := u64_lt _
  unfold amtALocked at h
  rw [new_u64, Res.ok_bind, Res.bind_eq_ok] at h
  obtain ⟨m1, hm1, h⟩ := h
  rw [Res.bind_eq_ok] at h
  obtain ⟨m2, hm2, h⟩ := h
  rw [new_u64, Res.ok_bind, Res.bind_eq_ok] at h
  obtain ⟨m3, hm3, h⟩ := h
  rw [new2, Res.ok_bind, Res.bind_eq_ok] at h
  obtain ⟨m4, hm4, h⟩ := h
  rw [new_u64, Res.ok_bind, Res.bind_eq_ok] at h
  obtain ⟨p1, hp1, h⟩ := h
  rw [new_u64, Res.ok_bind, Res.bind_eq_ok] at h
  obtain ⟨p2, hp2, h⟩ := h
  have hsum := (cadd_eq_ok.1 h).2
  have hm4v : m4 < VMAX := by omega
  have hd0 : sd c ≠ 0 := by
    intro h0
    rw [show c.slope_denominator.toNat = 0 from h0] at hm3
    unfold div at hm3
    rw [Nat.zero_mul, if_pos rfl] at hm3
    cases hm3
  have hpd0 : pd c ≠ 0 := by
    intro h0
    rw [show c.initial_token_a_price_denominator.toNat = 0 from h0] at hp2
    unfold div at hp2
    rw [Nat.zero_mul, if_pos rfl] at hp2
    cases hp2
  have hB : b < BMAX := bounds_core (Nat.pos_of_ne_zero hsn) b2 (mul_new_lb hm1) (mul_lb hm2)
    (div_lb hm3) (div_lb hm4) hm4v
  have hfit : ∀ x, x < 18446744073709551616 → x * ONE * b + roundingCorrection < U256 := by
    intro x hx
    have : x * ONE * b ≤ 18446744073709551616 * ONE * BMAX := by gcongr
    refine lt_of_le_of_lt (Nat.add_le_add_right this _) ?_
    rw [ONE_val, BMAX_val, rc_eq, U256_val]; norm_num
  rw [mul_new_ok' (hfit _ b1)] at hm1
  have em1 := (Res.ok.inj hm1).symm
  rw [em1] at hm2
  have hS : sn c * b * b ≤ SMAX := bounds_core2 b1 b2 hB (mul_lb hm2) (div_lb hm3) (div_lb hm4) hm4v
  have hSf : sn c * b * b + roundingCorrection < U256 := by
    rw [SMAX_val] at hS; rw [rc_eq, U256_val]; omega
  rw [mul_ok hSf] at hm2
  have em2 := (Res.ok.inj hm2).symm
  have h2f : m2 * ONE + roundingCorrection < U256 := by
    have : m2 * ONE ≤ sn c * b * b + roundingCorrection := by
      rw [em2]; exact Nat.div_mul_le_self _ _
    rw [SMAX_val] at hS; rw [rc_eq] at *; rw [U256_val]; omega
  rw [div_new_ok hd0 h2f] at hm3
  have em3 := (Res.ok.inj hm3).symm
  have h3f : m3 * ONE + roundingCorrection < U256 := by
    refine lt_of_le_of_lt ?_ h2f
    rw [em3]
    exact Nat.add_le_add_right (Nat.mul_le_mul_right _ (Nat.div_le_self _ _)) _
  rw [div_new_ok (by decide) h3f] at hm4
  have em4 := (Res.ok.inj hm4).symm
  rw [mul_new_ok' (hfit _ b3)] at hp1
  have ep1 := (Res.ok.inj hp1).symm
  have hpf : p1 * ONE + roundingCorrection < U256 := by
    have e : p1 * ONE = pn c * ONE * b := by rw [ep1]; ring
    rw [e]; exact hfit _ b3
  rw [div_new_ok hpd0 hpf] at hp2
  have ep2 := (Res.ok.inj hp2).symm
  refine ⟨?_, hS, hB⟩
  unfold amtF
  rw [hsum, em4, em3, em2, ep2, ep1]

theorem amtF_mono (c : LinearPriceCurve) {b b' : Nat} (h : b ≤ b') : amtF c b ≤ amtF c b' := by
  unfold amtF
  gcongr

/-- At whole positions the closed form has no intermediate rounding of the square. -/
theorem amtF_whole (c : LinearPriceCurve) (n : Nat) :
    amtF c (n * ONE) = sn c * n * n * ONE / (2 * sd c) + pn c * n * ONE / pd c := by
  unfold amtF
  have e : sn c * (n * ONE) * (n * ONE) = sn c * n * n * ONE * ONE := by ring
  rw [e, round_cancel, Nat.div_div_eq_div_mul, Nat.mul_comm (sd c) 2, Nat.mul_assoc (pn c)]

end Linear
end Verif
