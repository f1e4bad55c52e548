import Verif.Spec.Plain
import Verif.Lemmas.LinearAcc
import Verif.Lemmas.LinearAny

/-
The program's arithmetic for linear pools against the plain formulas of `Spec/Plain`.
-/

namespace Verif

open Dfs Spec

/-- A missing result as an abort. -/
def orPanic : Option Nat → Res Nat
  | some r => .ok r
  | none => .panic

namespace Dfs

theorem half_eq_quads (v : Nat) : half v = quads v := by
  unfold half quads bits
  split <;> omega

theorem rdiv_eq_quotient {up : Bool} {a b : Nat} (hb : 0 < b) : rdiv up a b = quotient up a b := by
  unfold rdiv quotient
  cases up
  · rfl
  · simp only [if_true]
    have h1 := Nat.div_add_mod a b
    have h2 := Nat.mod_lt a hb
    have h3 : b * (a / b) = a / b * b := Nat.mul_comm _ _
    split
    · rename_i hlt
      symm
      rw [Nat.div_eq_iff hb, Nat.add_mul, Nat.one_mul]
      constructor <;> omega
    · rename_i hge
      symm
      rw [Nat.div_eq_iff hb]
      constructor <;> omega

theorem dsqrt_eq_intRoot (up : Bool) (n : Nat) : dsqrt up n = intRoot up n := by
  have h := Nat.sqrt_le n
  unfold dsqrt intRoot csqrt isqrt
  cases up
  · simp
  · simp only [if_true, true_and]
    split <;> split <;> omega

/-- The square root as an `Option`: the only other outcome is the abort. -/
theorem sqrtU64_plain {v : Nat} (up : Bool) (hv : v < U256) :
    sqrtU64 v up = orPanic (plainRoot up v) := by
  unfold plainRoot
  rw [← half_eq_quads]
  have hS : (10 : Nat) ^ 9 = SQRT_ONE := by decide
  have hU : (2 : Nat) ^ 64 = U64 := by decide
  rw [hS, hU]
  rcases Nat.lt_or_ge 32 (half v) with hh | hh
  · rw [sqrtU64_large up hv hh, if_neg (Nat.not_le.2 hh),
      rdiv_eq_quotient (Nat.pow_pos (show 0 < 4 by decide)), dsqrt_eq_intRoot]
    by_cases h : quotient up v (4 ^ (half v - 32)) < U64
    · rw [if_pos h, if_pos h]; rfl
    · rw [if_neg h, if_neg h]; rfl
  · rw [sqrtU64_small up hh, if_pos hh, rdiv_eq_quotient (Nat.pow_pos (show 0 < 2 by decide)),
      dsqrt_eq_intRoot]
    rfl

end Dfs

namespace Linear

variable {c : LinearPriceCurve}

theorem pow18 : (10 : Nat) ^ 18 = ONE := by decide
theorem half18 : 5 * (10 : Nat) ^ 17 = roundingCorrection := by decide

theorem rad_eq_rootArg (A : Nat) : rad c (A * ONE) = rootArg c A := by
  unfold rad rootArg
  rw [Nat.pow_two, Nat.pow_two, pow18]

theorem bValue_plain (hc : Nz c) {A : Nat} (hA : A < 36893488147419103232) (up : Bool) :
    bValue c (A * ONE) up = orPanic (plainPosition c up A) := by
  rw [bValue_eq c hc.sn hc.sd hc.pd (whole_le_AMAX hA),
    sqrtU64_plain up (rad_lt c (whole_le_AMAX hA)), rad_eq_rootArg]
  have e : ∀ r, (r - c.initial_token_a_price_numerator.toNat * 10 ^ 18 /
      c.initial_token_a_price_denominator.toNat) * c.slope_denominator.toNat /
      c.slope_numerator.toNat = (r - price c) * sd c / sn c := by
    intro r; rw [pow18]; unfold price; rfl
  unfold plainPosition
  simp only [e]
  generalize price c = p
  cases plainRoot up (rootArg c A) with
  | none => exact Res.panic_bind _
  | some r => exact Res.ok_bind _ _

theorem amtF_plain (b : Nat) : amtF c b = plainLocked c b := by
  unfold amtF plainLocked
  rw [Nat.div_div_eq_div_mul, Nat.mul_comm 2, pow18, half18]

theorem quotient_one (n : Nat) : quotient true n ONE = (n + (ONE - 1)) / ONE := by
  unfold quotient
  rw [if_pos rfl, Nat.add_sub_assoc ONE_pos]

theorem fit_position (hv : isCurveParamValid c = .ok ()) {A b0 B : Nat}
    (hA : A < 36893488147419103232) (hB : B < 18446744073709551616)
    (hb0 : bValue c (A * ONE) true = .ok b0) :
    b0 + B * ONE < 340282366920938463463374607431768211456 * ONE := by
  have h1 : B * ONE ≤ 18446744073709551616 * ONE := Nat.mul_le_mul_right _ (le_of_lt hB)
  refine lt_of_le_of_lt (Nat.add_le_add (bValue_lt_valid hv hA hb0) h1) ?_
  rw [ONE_val]; unfold SQRT_ONE; norm_num

/-- The buy-out test, exactly. -/
theorem maximumARemaining_plain (hv : isCurveParamValid c = .ok ()) {A b0 s B : Nat}
    (hA : A < 18446744073709551616) (hs : s < 18446744073709551616)
    (hB : B < 18446744073709551616) (hb0 : bValue c (A * ONE) true = .ok b0) :
    maximumARemaining c (A * ONE) b0 s B =
      if A * ONE ≤ amtF c (b0 + B * ONE) ∧
          (amtF c (b0 + B * ONE) - A * ONE + roundingCorrection) / ONE ≤ s then
        .ok ((amtF c (b0 + B * ONE) - A * ONE + roundingCorrection) / ONE, B)
      else .none := by
  have hc := nz_of_valid hv
  have hbl := bValue_lt_U hv (show A < 36893488147419103232 by omega) hb0
  have hfit : b0 + B * ONE < 340282366920938463463374607431768211456 * ONE :=
    fit_position hv (by omega) hB hb0
  have hrc : ONE = 2 * roundingCorrection := by decide
  have hop := ONE_pos
  split
  · rename_i h
    obtain ⟨h1, h2⟩ := h
    -- the closed form fits, so no step of the code fails
    have h3 : amtF c (b0 + B * ONE) ≤ (A + s + 1) * ONE := by
      have h4 : amtF c (b0 + B * ONE) - A * ONE + roundingCorrection < (s + 1) * ONE := by
        rw [← Nat.div_lt_iff_lt_mul hop]; omega
      have h5 : (A + s + 1) * ONE = A * ONE + (s + 1) * ONE := by ring
      omega
    have hU : (340282366920938463463374607431768211456 : Nat) * ONE < U256 := by
      rw [ONE_val, U256_val]; norm_num
    unfold maximumARemaining
    rw [new_ok (by omega), Res.ok_bind, show add b0 (B * ONE) = .ok (b0 + B * ONE) from
      cadd_ok (by omega), Res.ok_bind, amt_ok hc (by omega) h3, Res.ok_bind]
    generalize amtF c (b0 + B * ONE) = v at *
    have hb : v - A * ONE + roundingCorrection < U256 := by
      have e : (A + s + 1) * ONE + ONE < U256 := by rw [ONE_val, U256_val]; omega
      omega
    rw [show sub v (A * ONE) = .ok (v - A * ONE) from csub_ok h1, Res.ok_bind,
      toImprecise_ok hb (lt_of_le_of_lt h2 (by rw [U128_val]; omega)), Res.ok_bind, if_pos h2]
  · rename_i h
    rcases hm : maximumARemaining c (A * ONE) b0 s B with ⟨x, y⟩ | _ | _
    · exfalso
      obtain ⟨_, hxs, v, hv', hav, hx⟩ := maximumARemaining_ok hm
      have h1 : v - A * ONE + roundingCorrection < (s + 1) * ONE := by
        rw [← Nat.div_lt_iff_lt_mul hop]; omega
      have h2 : v < VMAX := by
        have : (s + 1) * ONE + A * ONE < VMAX := by rw [ONE_val, VMAX_val]; omega
        omega
      rw [← (amt_eq_ok hc.sn hv' h2).1] at h
      exact h ⟨hav, by omega⟩
    · rfl
    · exact absurd hm maximumARemaining_ne_panic

/-- A sale that would need more token A locked than there are gives no result. -/
theorem swapBToA_short (hv : isCurveParamValid c = .ok ()) {s A b0 : Nat}
    (hA : A < 18446744073709551616) (hs : s < 18446744073709551616)
    (hb0 : bValue c (A * ONE) true = .ok b0) (hle : s * ONE ≤ b0)
    (h : A * ONE < amtF c ((b0 - s * ONE + (ONE - 1)) / ONE * ONE)) :
    swapBToA c s A = .none := by
  have hc := nz_of_valid hv
  have hbl := bValue_lt_U hv (show A < 36893488147419103232 by omega) hb0
  have hU : (340282366920938463463374607431768211456 : Nat) * ONE < U256 := by
    rw [ONE_val, U256_val]; norm_num
  have hu : unsignedSub b0 (s * ONE) = (b0 - s * ONE, false) := if_pos hle
  have hce : b0 - s * ONE + ONE < U256 := by omega
  unfold swapBToA
  rw [new_u64' hA, Res.ok_bind, hb0, Res.ok_bind, new_u64' hs, Res.ok_bind]
  simp only []
  rw [hu, ceiling_ok hce, Res.ok_bind]
  simp only [Bool.false_eq_true, if_false]
  rcases ha : amtALocked c ((b0 - s * ONE + (ONE - 1)) / ONE * ONE) with v | _ | _
  · rw [Res.ok_bind, Res.ok_bind]
    have hlt : A * ONE < v := by
      by_contra hn
      have hvm : v < VMAX := by
        refine lt_of_le_of_lt (Nat.le_of_not_lt hn) ?_
        rw [ONE_val, VMAX_val]; omega
      have := (amt_eq_ok hc.sn ha hvm).1
      omega
    have : sub (A * ONE) v = .none := by
      unfold sub csub
      rw [if_neg (by omega)]
    rw [this]; rfl
  · rfl
  · exact absurd ha amtALocked_ne_panic

end Linear
end Verif
