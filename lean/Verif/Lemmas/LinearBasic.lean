import Verif.Model.Linear
import Verif.Lemmas.Sqrt

/-
Closed forms of the linear curve's two conversion functions.
-/

namespace Verif
namespace Linear
open Dfs

/-- Slope numerator. -/
abbrev sn (c : LinearPriceCurve) : Nat := c.slope_numerator.toNat
/-- Slope denominator. -/
abbrev sd (c : LinearPriceCurve) : Nat := c.slope_denominator.toNat
/-- Initial price numerator. -/
abbrev pn (c : LinearPriceCurve) : Nat := c.initial_token_a_price_numerator.toNat
/-- Initial price denominator. -/
abbrev pd (c : LinearPriceCurve) : Nat := c.initial_token_a_price_denominator.toNat

theorem u64_lt (x : UInt64) : x.toNat < 18446744073709551616 := x.toNat_lt

/-- Radicand of the quadratic formula. -/
def rad (c : LinearPriceCurve) (a : Nat) : Nat :=
  pn c * pn c * ONE / (pd c * pd c) + 2 * sn c * a / sd c
/-- Initial price as a raw fixed-point number. -/
def price (c : LinearPriceCurve) : Nat := pn c * ONE / pd c

/-- Largest raw A balance considered: `2^65` tokens. -/
def AMAX : Nat := 36893488147419103232000000000000000000
theorem AMAX_val : AMAX = 36893488147419103232000000000000000000 := rfl

theorem mul_new_ok' {a n : Nat} (h : n * ONE * a + roundingCorrection < U256) :
    mul (n * ONE) a = .ok (n * a) := by
  rw [mul_ok h]
  refine congrArg Res.ok ?_
  have : n * ONE * a = n * a * ONE := by ring
  rw [this]
  exact round_cancel _

theorem new_u64 (x : UInt64) : new x.toNat = .ok (x.toNat * ONE) := by
  have := u64_lt x
  exact new_ok (by rw [ONE_val, U256_val]; omega)

theorem root_le {R root : Nat} {up : Bool} (hR : R ≤ 4 ^ 97) (h : sqrtU64 R up = .ok root) :
    root ≤ 2 ^ 97 * SQRT_ONE := by
  have hlt : R < U256 := lt_of_le_of_lt hR (by rw [U256_val]; norm_num)
  cases up
  · have h1 := sqrtU64_down_sq hlt h
    by_contra hc
    have h2 : (2 ^ 97 * SQRT_ONE) * (2 ^ 97 * SQRT_ONE) < root * root :=
      Nat.mul_lt_mul'' (by omega) (by omega)
    have h3 : (2 ^ 97 * SQRT_ONE) * (2 ^ 97 * SQRT_ONE) = 4 ^ 97 * ONE := by
      rw [four_pow' 97, ONE_eq]; ring
    have h4 : R * ONE ≤ 4 ^ 97 * ONE := Nat.mul_le_mul_right _ hR
    omega
  · exact up_le_pow hlt hR h

theorem rad_le (c : LinearPriceCurve) {a : Nat} (ha : a ≤ AMAX) : rad c a ≤ 4 ^ 97 := by
  have h1 : sn c < 18446744073709551616 := u64_lt _
  have h2 : pn c < 18446744073709551616 := u64_lt _
  unfold rad
  have e1 : pn c * pn c * ONE / (pd c * pd c) ≤ 18446744073709551616 * 18446744073709551616 * ONE :=
    le_trans (Nat.div_le_self _ _) (by gcongr)
  have e2 : 2 * sn c * a / sd c ≤ 2 * 18446744073709551616 * AMAX :=
    le_trans (Nat.div_le_self _ _) (by gcongr)
  refine le_trans (Nat.add_le_add e1 e2) ?_
  rw [ONE_val, AMAX_val]; norm_num

theorem rad_lt (c : LinearPriceCurve) {a : Nat} (ha : a ≤ AMAX) : rad c a < U256 :=
  lt_of_le_of_lt (rad_le c ha) (by rw [U256_val]; norm_num)

theorem subOrZero_eq (root e : Nat) : subOrZero root e = .ok (root - e) := by
  unfold subOrZero
  by_cases h : e ≤ root
  · rw [show sub root e = .ok (root - e) from csub_ok h]
  · have h1 : sub root e = .none := if_neg h
    have n0 : new 0 = .ok 0 := by decide +kernel
    rw [h1]
    simp only []
    rw [n0, Nat.sub_eq_zero_of_le (by omega)]

theorem new1 : new 1 = .ok (1 * ONE) := new_ok (by rw [ONE_val, U256_val]; norm_num)
theorem new2 : new 2 = .ok (2 * ONE) := new_ok (by rw [ONE_val, U256_val]; norm_num)
theorem new4 : new 4 = .ok (4 * ONE) := new_ok (by rw [ONE_val, U256_val]; norm_num)

theorem mul_small {x k : Nat} (hx : x < 18446744073709551616) (hk : k ≤ 4) :
    mul (x * ONE) (k * ONE) = .ok (k * x * ONE) := by
  have h : x * ONE * (k * ONE) + roundingCorrection < U256 := by
    have : x * ONE * (k * ONE) ≤ 18446744073709551616 * ONE * (4 * ONE) := by gcongr
    refine lt_of_le_of_lt (Nat.add_le_add_right this _) ?_
    rw [ONE_val, rc_eq, U256_val]; norm_num
  rw [mul_new_ok h]
  refine congrArg Res.ok ?_
  ring

theorem fourk_fits {x a : Nat} (hx : x < 18446744073709551616) (ha : a ≤ AMAX) :
    4 * x * ONE * a + roundingCorrection < U256 := by
  have : 4 * x * ONE * a ≤ 4 * 18446744073709551616 * ONE * AMAX := by gcongr
  refine lt_of_le_of_lt (Nat.add_le_add_right this _) ?_
  rw [ONE_val, AMAX_val, rc_eq, U256_val]; norm_num

theorem fourk_div {x y a : Nat} (hx : x < 18446744073709551616) (hy : y ≠ 0) (ha : a ≤ AMAX) :
    div (4 * x * a) (2 * y * ONE) = .ok (2 * x * a / y) := by
  have h := fourk_fits hx ha
  have e : 4 * x * ONE * a = 4 * x * a * ONE := by ring
  rw [e] at h
  rw [div_new_ok (by omega) h]
  refine congrArg Res.ok ?_
  have e2 : 4 * x * a = 2 * (2 * x * a) := by ring
  rw [e2, Nat.mul_div_mul_left _ _ (by decide : 0 < 2)]

theorem sq_fits {x : Nat} (hx : x < 18446744073709551616) :
    x * ONE * (x * ONE) + roundingCorrection < U256 := by
  have : x * ONE * (x * ONE) ≤ 18446744073709551616 * ONE * (18446744073709551616 * ONE) := by
    gcongr
  refine lt_of_le_of_lt (Nat.add_le_add_right this _) ?_
  rw [ONE_val, rc_eq, U256_val]; norm_num

theorem sq_div1 {x y : Nat} (hx : x < 18446744073709551616) (hy : y ≠ 0) :
    div (x * ONE * x) (y * ONE) = .ok (x * ONE * x / y) := by
  apply div_new_ok hy
  have h := sq_fits hx
  have e : x * ONE * (x * ONE) = x * ONE * x * ONE := by ring
  rwa [e] at h

theorem sq_div2 {x y : Nat} (hx : x < 18446744073709551616) (hy : y ≠ 0) :
    div (x * ONE * x / y) (y * ONE) = .ok (x * x * ONE / (y * y)) := by
  have h := sq_fits hx
  have e : x * ONE * (x * ONE) = x * ONE * x * ONE := by ring
  rw [e] at h
  have h4 : x * ONE * x / y * ONE ≤ x * ONE * x * ONE :=
    Nat.mul_le_mul_right _ (Nat.div_le_self _ _)
  rw [div_new_ok hy (lt_of_le_of_lt (Nat.add_le_add_right h4 _) h)]
  refine congrArg Res.ok ?_
  rw [Nat.div_div_eq_div_mul]
  have : x * ONE * x = x * x * ONE := by ring
  rw [this]

theorem price_div {x y : Nat} (hx : x < 18446744073709551616) (hy : y ≠ 0) :
    div (x * ONE) (y * ONE) = .ok (x * ONE / y) := by
  apply div_new_ok hy
  have : x * ONE * ONE ≤ 18446744073709551616 * ONE * ONE := by gcongr
  refine lt_of_le_of_lt (Nat.add_le_add_right this _) ?_
  rw [ONE_val, rc_eq, U256_val]; norm_num

theorem final_fits {N y : Nat} (hN : N ≤ 2 ^ 97 * SQRT_ONE) (hy : y < 18446744073709551616) :
    N * (2 * y * ONE) + roundingCorrection < U256 := by
  have : N * (2 * y * ONE) ≤ 2 ^ 97 * SQRT_ONE * (2 * 18446744073709551616 * ONE) := by gcongr
  refine lt_of_le_of_lt (Nat.add_le_add_right this _) ?_
  rw [SQRT_ONE_val, ONE_val, rc_eq, U256_val]; norm_num

theorem final_div {N x y : Nat} (hN : N ≤ 2 ^ 97 * SQRT_ONE) (hy : y < 18446744073709551616)
    (hx : x ≠ 0) :
    (mul N (2 * y * ONE) >>= fun n1 => div n1 (x * ONE) >>= fun n2 => new 2 >>= fun two =>
      div n2 two) = .ok (N * y / x) := by
  have hb := final_fits hN hy
  rw [mul_new_ok hb, Res.ok_bind]
  have hb2 : N * (2 * y) * ONE + roundingCorrection < U256 := by
    rw [Nat.mul_assoc]; exact hb
  rw [div_new_ok hx hb2, Res.ok_bind, new2, Res.ok_bind, div_new_ok (by decide)]
  · refine congrArg Res.ok ?_
    rw [Nat.div_div_eq_div_mul]
    have : N * (2 * y) = N * y * 2 := by ring
    rw [this, Nat.mul_div_mul_right _ _ (by decide : 0 < 2)]
  · refine lt_of_le_of_lt ?_ hb2
    exact Nat.add_le_add_right (Nat.mul_le_mul_right _ (Nat.div_le_self _ _)) _

/-- The curve position in closed form. -/
theorem bValue_eq (c : LinearPriceCurve) (hsn : sn c ≠ 0) (hsd : sd c ≠ 0) (hpd : pd c ≠ 0)
    {a : Nat} (ha : a ≤ AMAX) (up : Bool) :
    bValue c a up =
      (sqrtU64 (rad c a) up >>= fun root => Res.ok ((root - price c) * sd c / sn c)) := by
  have h1 : sn c < 18446744073709551616 := u64_lt _
  have h2 : sd c < 18446744073709551616 := u64_lt _
  have h3 : pn c < 18446744073709551616 := u64_lt _
  have kn : mul (sn c * ONE) (1 * ONE) = .ok (sn c * ONE) := by
    rw [mul_small h1 (by decide), Nat.one_mul]
  have f2 : mul (4 * sn c * ONE) a = .ok (4 * sn c * a) := mul_new_ok' (fourk_fits h1 ha)
  have e1 : mul (pn c * ONE) (pn c * ONE) = .ok (pn c * ONE * pn c) := mul_new_ok (sq_fits h3)
  have e4 : add (pn c * pn c * ONE / (pd c * pd c)) (2 * sn c * a / sd c) = .ok (rad c a) :=
    cadd_ok (rad_lt c ha)
  have e5 : div (pn c * ONE) (pd c * ONE) = .ok (price c) := price_div h3 hpd
  unfold bValue solveQuadraticPositiveRoot
  rw [new_u64, Res.ok_bind, new_u64, Res.ok_bind, new1, Res.ok_bind, kn, Res.ok_bind, new2,
    Res.ok_bind, mul_small h2 (by decide), Res.ok_bind, new_u64, Res.ok_bind, new_u64,
    Res.ok_bind, new4, Res.ok_bind, mul_small h1 (by decide), Res.ok_bind, f2, Res.ok_bind,
    fourk_div h1 hsd ha, Res.ok_bind, e1, Res.ok_bind, sq_div1 h3 hpd, Res.ok_bind,
    sq_div2 h3 hpd, Res.ok_bind, e4, Res.ok_bind, e5]
  rcases hs : sqrtU64 (rad c a) up with root | _ | _
  · rw [Res.ok_bind, Res.ok_bind, Res.ok_bind, subOrZero_eq, Res.ok_bind]
    have hN : root - price c ≤ 2 ^ 97 * SQRT_ONE :=
      le_trans (Nat.sub_le _ _) (root_le (rad_le c ha) hs)
    rw [← new2]
    exact final_div hN h2 hsn
  · rw [Res.none_bind, Res.none_bind]
  · rw [Res.panic_bind, Res.panic_bind]

end Linear
end Verif
