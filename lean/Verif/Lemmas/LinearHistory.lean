import Verif.Lemmas.LinearRep
import Verif.Spec.Linear
import Mathlib.Tactic.FieldSimp

/-
Solvency of a representable linear pool over arbitrary histories.
-/

namespace Verif
namespace Linear
open Dfs

variable {c : LinearPriceCurve} {H P Q : Nat}

/-- A balance of A at buy-out: the cost of all `B0` tokens rounded to nearest. -/
def buyout (H P B0 : Nat) : Nat := (L H P B0 + roundingCorrection) / ONE

/-- Reference level `T ≤ B0` used by the invariant: the largest level whose half-step-below cost is
covered by the buy-out balance. -/
structure Anchor (H P B0 T : Nat) : Prop where
  le : T ≤ B0
  low : T = 0 ∨ H * ((2 * T - 1) * (2 * T - 1)) + 2 * P * (2 * T - 1) ≤ 4 * buyout H P B0 * ONE
  high : buyout H P B0 * ONE ≤ L H P T + roundingCorrection

theorem one_eq_two_rc : ONE = 2 * roundingCorrection := by decide

theorem buyout_lt (H P B0 : Nat) :
    L H P B0 < buyout H P B0 * ONE + roundingCorrection := by
  have h : L H P B0 + roundingCorrection < ONE * (buyout H P B0 + 1) :=
    Nat.lt_mul_div_succ _ ONE_pos
  rw [Nat.mul_add, Nat.mul_comm ONE (buyout H P B0), Nat.mul_one] at h
  have := one_eq_two_rc
  generalize buyout H P B0 * ONE = X at *
  generalize ONE = O at *
  generalize roundingCorrection = R at *
  omega

theorem anchor_exists_aux (H P B0 : Nat) : ∀ T, T ≤ B0 →
    buyout H P B0 * ONE ≤ L H P T + roundingCorrection → ∃ T', Anchor H P B0 T' := by
  intro T
  induction T with
  | zero => intro h1 h2; exact ⟨0, h1, Or.inl rfl, h2⟩
  | succ T ih =>
    intro h1 h2
    by_cases hg : H * ((2 * (T + 1) - 1) * (2 * (T + 1) - 1)) + 2 * P * (2 * (T + 1) - 1) ≤
        4 * buyout H P B0 * ONE
    · exact ⟨T + 1, h1, Or.inr hg, h2⟩
    · apply ih (by omega)
      have h3 : L H P (T + 1) ≤ L H P B0 := L_mono h1
      have h4 := buyout_lt H P B0
      have e : 2 * (T + 1) - 1 = 2 * T + 1 := by omega
      rw [e] at hg
      unfold L at *
      have e1 : H * ((2 * T + 1) * (2 * T + 1)) + 2 * P * (2 * T + 1) =
        4 * (H * (T * T)) + 4 * (H * T) + H + 4 * (P * T) + 2 * P := by ring
      have e2 : H * ((T + 1) * (T + 1)) + P * (T + 1) =
        H * (T * T) + 2 * (H * T) + H + P * T + P := by ring
      have e3 : 4 * buyout H P B0 * ONE = 4 * (buyout H P B0 * ONE) := by ring
      rw [e1, e3] at hg
      rw [e2] at h3
      clear h2
      generalize buyout H P B0 * ONE = X at *
      generalize H * (T * T) = t1 at *
      generalize H * T = t2 at *
      generalize P * T = t3 at *
      generalize H * (B0 * B0) + P * B0 = t4 at *
      generalize roundingCorrection = R at *
      omega

theorem anchor_exists (H P B0 : Nat) : ∃ T, Anchor H P B0 T := by
  refine anchor_exists_aux H P B0 B0 (le_refl _) ?_
  unfold buyout
  exact Nat.div_mul_le_self _ _

/-- The invariant of a pool that started with `B0` token B. -/
def GInv (H P B0 T A B : Nat) : Prop := Inv H P T A B ∨ (B = 0 ∧ buyout H P B0 ≤ A)

theorem GInv_start {B0 T : Nat} (hT : Anchor H P B0 T) (A0 : Nat) : GInv H P B0 T A0 B0 := by
  left
  intro n hn
  have := hT.le
  have h0 : n = 0 := by omega
  rw [h0]; unfold L; simp

theorem Rep.GInv_buy (h : Rep c H P Q) {B0 T s A B x y : Nat} (hT : Anchor H P B0 T)
    (hA : A < 18446744073709551616) (hs : s < 18446744073709551616)
    (hsw : swapAToB c s A B = .ok (x, y)) (hy : y ≤ B) (hy0 : y ≠ 0)
    (hI : GInv H P B0 T A B) : GInv H P B0 T (A + x) (B - y) := by
  rcases hI with hI | ⟨h0, _⟩
  · rcases h.buy_inv hA hs hsw hy hI with h1 | ⟨h1, h2⟩
    · exact Or.inl h1
    · right
      refine ⟨by omega, le_trans ?_ h2⟩
      rw [Nat.le_div_iff_mul_le ONE_pos]
      exact hT.high
  · omega

theorem Anchor.half_up {B0 T A : Nat} (hT : Anchor H P B0 T) (hA : buyout H P B0 ≤ A) :
    T = 0 ∨ H * ((2 * T - 1) * (2 * T - 1)) + 2 * P * (2 * T - 1) ≤ 4 * A * ONE := by
  rcases hT.low with h | h
  · exact Or.inl h
  · right
    refine le_trans h ?_
    gcongr

theorem Rep.GInv_sell (h : Rep c H P Q) {B0 T s A B x y : Nat} (hT : Anchor H P B0 T)
    (hA : A < 18446744073709551616)
    (hsw : swapBToA c s A = .ok (x, y))
    (hI : GInv H P B0 T A B) : y ≤ A ∧ GInv H P B0 T (A - y) (B + x) := by
  rcases hI with hI | ⟨h0, hA1⟩
  · obtain ⟨h1, h2⟩ := h.sell_inv' hA hsw hI
    exact ⟨h1, Or.inl h2⟩
  · have := h.sell_inv (T := T) (B := B) hA hsw (by
      intro b0 m hb0 hm
      have hmT : m = T := by omega
      rw [hmT]
      rcases hT.half_up hA1 with h2 | h2
      · rw [h2, Nat.zero_mul]; exact Nat.zero_le _
      · have h3 := h.up_ge (by omega) hb0 h2
        rcases Nat.eq_zero_or_pos T with h4 | h4
        · rw [h4, Nat.zero_mul]; exact Nat.zero_le _
        · have e : T * ONE = (2 * T - 1) * roundingCorrection + roundingCorrection := by
            rw [one_eq_two_rc]
            have : 2 * T = (2 * T - 1) + 1 := by omega
            calc T * (2 * roundingCorrection) = 2 * T * roundingCorrection := by ring
              _ = ((2 * T - 1) + 1) * roundingCorrection := by rw [← this]
              _ = _ := by ring
          rw [e]
          exact Nat.add_le_add_right h3 _)
    exact ⟨this.1, Or.inl this.2⟩

theorem GInv_donate {B0 T A B u w : Nat} (hT : Anchor H P B0 T) (hI : GInv H P B0 T A B) :
    GInv H P B0 T (A + u) (B + w) := by
  rcases hI with hI | ⟨h0, hA1⟩
  · exact Or.inl (Inv_donate hI)
  · rcases Nat.eq_zero_or_pos w with hw | hw
    · right
      exact ⟨by omega, by omega⟩
    · left
      intro n hn
      rcases hT.half_up (le_trans hA1 (Nat.le_add_right A u)) with h1 | h1
      · omega
      · have hk : 2 * n ≤ 2 * T - 1 := by omega
        have h2 : H * ((2 * n) * (2 * n)) + 2 * P * (2 * n) ≤
            H * ((2 * T - 1) * (2 * T - 1)) + 2 * P * (2 * T - 1) := by gcongr
        have h3 := le_trans h2 h1
        unfold L
        have e1 : H * ((2 * n) * (2 * n)) + 2 * P * (2 * n) = 4 * (H * (n * n) + P * n) := by ring
        have e2 : 4 * (A + u) * ONE = 4 * ((A + u) * ONE) := by ring
        rw [e1, e2] at h3
        exact Nat.le_of_mul_le_mul_left h3 (by decide)

/-- The invariant implies backing up to one unit. -/
theorem GInv_backed {B0 T A B o : Nat} (hT : Anchor H P B0 T) (hI : GInv H P B0 T A B)
    (ho : B + o = B0) : L H P o < (A + 1) * ONE := by
  have hb := buyout_lt H P B0
  have hh := hT.high
  have hle := hT.le
  have h1 := one_eq_two_rc
  rcases hI with hI | ⟨h0, hA1⟩
  · obtain ⟨N, hN⟩ := Nat.exists_eq_add_of_le hle
    have key : L H P o + L H P T ≤ A * ONE + L H P B0 := by
      rcases Nat.lt_or_ge T B with hTB | hTB
      · have hoN : L H P o ≤ L H P N := L_mono (by omega)
        have : L H P N + L H P T ≤ L H P B0 := by
          rw [hN]; unfold L
          have e : H * ((T + N) * (T + N)) + P * (T + N) =
            (H * (N * N) + P * N + (H * (T * T) + P * T)) + 2 * (H * T * N) := by ring
          rw [e]; exact Nat.le_add_right _ _
        omega
      · obtain ⟨n, hn⟩ := Nat.exists_eq_add_of_le hTB
        have hIn := hI n (by omega)
        have hon : o = n + N := by omega
        have hnT : n ≤ T := by omega
        have : L H P o + L H P T ≤ L H P n + L H P B0 := by
          rw [hN, hon]; unfold L
          have e1 : H * ((T + N) * (T + N)) + P * (T + N) =
            H * (T * T) + 2 * (H * N * T) + H * (N * N) + P * T + P * N := by ring
          have e2 : H * ((n + N) * (n + N)) + P * (n + N) =
            H * (n * n) + 2 * (H * N * n) + H * (N * N) + P * n + P * N := by ring
          have e3 : H * N * n ≤ H * N * T := Nat.mul_le_mul_left _ hnT
          rw [e1, e2]
          omega
        omega
    rw [Nat.add_mul, Nat.one_mul]
    generalize A * ONE = X at *
    generalize buyout H P B0 * ONE = Y at *
    generalize ONE = O at *
    generalize roundingCorrection = R at *
    omega
  · have ho' : o = B0 := by omega
    have h2 : buyout H P B0 * ONE ≤ A * ONE := Nat.mul_le_mul_right _ hA1
    rw [Nat.add_mul, Nat.one_mul, ho']
    generalize A * ONE = X at *
    generalize buyout H P B0 * ONE = Y at *
    generalize ONE = O at *
    generalize roundingCorrection = R at *
    omega

/-! ### Bridge to the rational specification -/

theorem sn_cast (h : Rep c H P Q) : Spec.slope c / 2 = (H : ℚ) / ONE := by
  have h1 : (sd c : ℚ) ≠ 0 := by exact_mod_cast h.nz.sd
  have h2 : (ONE : ℚ) ≠ 0 := by exact_mod_cast ONE_ne
  have h3 : (sn c : ℚ) * ONE = 2 * sd c * H := by exact_mod_cast h.hH
  unfold Spec.slope
  rw [div_div, div_eq_div_iff (by simpa using h1) h2]
  linarith

theorem pn_cast (h : Rep c H P Q) : Spec.price c = (P : ℚ) / ONE := by
  have h1 : (pd c : ℚ) ≠ 0 := by exact_mod_cast h.nz.pd
  have h2 : (ONE : ℚ) ≠ 0 := by exact_mod_cast ONE_ne
  have h3 : (pn c : ℚ) * ONE = pd c * P := by exact_mod_cast h.hP
  unfold Spec.price
  rw [div_eq_div_iff h1 h2]
  linarith

theorem cost_eq (h : Rep c H P Q) (n : Nat) : Spec.cost c n = (L H P n : ℚ) / ONE := by
  unfold Spec.cost L
  rw [sn_cast h, pn_cast h]
  push_cast
  ring

theorem cost_le (h : Rep c H P Q) {n A : Nat} (hL : L H P n ≤ A * ONE) : Spec.cost c n ≤ A := by
  rw [cost_eq h]
  have h2 : (0 : ℚ) < ONE := by exact_mod_cast ONE_pos
  rw [div_le_iff₀ h2]
  exact_mod_cast hL

theorem cost_lt (h : Rep c H P Q) {n A : Nat} (hL : L H P n < A * ONE) : Spec.cost c n < A := by
  rw [cost_eq h]
  have h2 : (0 : ℚ) < ONE := by exact_mod_cast ONE_pos
  rw [div_lt_iff₀ h2]
  exact_mod_cast hL

theorem Rep_of_spec (hnz : Nz c) (h : Spec.Representable c) : ∃ H P Q, Rep c H P Q := by
  obtain ⟨⟨H, hH⟩, ⟨P, hP⟩, ⟨Q, hQ⟩⟩ := h
  refine ⟨H, P, Q, hnz, ?_, ?_, ?_⟩
  · rw [ONE_val]; exact hH
  · rw [ONE_val]; exact hP
  · rw [ONE_val, ← Nat.pow_two, ← Nat.pow_two]; exact hQ

/-! ### Validation -/

theorem valid_iff (c : LinearPriceCurve) : isCurveParamValid c = .ok () ↔
    sn c ≠ 0 ∧ sd c ≠ 0 ∧ pd c ≠ 0 ∧ sd c ≤ sn c * ONE := by
  have b1 : sn c < 18446744073709551616 := u64_lt _
  have z : ∀ x : UInt64, x = 0 ↔ x.toNat = 0 := fun x => by
    rw [← UInt64.toNat_inj]; rfl
  unfold isCurveParamValid
  by_cases hz : c.slope_numerator = 0 ∨ c.slope_denominator = 0 ∨
      c.initial_token_a_price_denominator = 0
  · rw [if_pos hz, z, z, z] at *
    constructor
    · intro h; cases h
    · rintro ⟨h1, h2, h3, _⟩
      rcases hz with h | h | h
      · exact absurd h h1
      · exact absurd h h2
      · exact absurd h h3
  · rw [if_neg hz]
    rw [z, z, z] at hz
    have hn1 : sn c ≠ 0 := fun h => hz (Or.inl h)
    have hn2 : sd c ≠ 0 := fun h => hz (Or.inr (Or.inl h))
    have hn3 : pd c ≠ 0 := fun h => hz (Or.inr (Or.inr h))
    have e18 : new 1000000000000000000 = .ok (1000000000000000000 * ONE) :=
      new_ok (by rw [ONE_val, U256_val]; norm_num)
    have emin : div (1 * ONE) (1000000000000000000 * ONE) = .ok 1 := by decide +kernel
    have eq : div (sn c * ONE) (sd c * ONE) = .ok (sn c * ONE / sd c) := by
      refine div_new_ok hn2 ?_
      have : sn c * ONE * ONE ≤ 18446744073709551616 * ONE * ONE := by gcongr
      refine lt_of_le_of_lt (Nat.add_le_add_right this _) ?_
      rw [ONE_val, rc_eq, U256_val]; norm_num
    rw [new_u64, Res.ok_bind, new_u64, Res.ok_bind, new1, Res.ok_bind, e18, Res.ok_bind, emin,
      Res.ok_bind, eq, Res.ok_bind]
    have hiff : sn c * ONE / sd c ≥ 1 ↔ sd c ≤ sn c * ONE := by
      rw [ge_iff_le, Nat.le_div_iff_mul_le (Nat.pos_of_ne_zero hn2), Nat.one_mul]
    by_cases hle : sd c ≤ sn c * ONE
    · rw [if_pos (hiff.2 hle)]
      exact ⟨fun _ => ⟨hn1, hn2, hn3, hle⟩, fun _ => rfl⟩
    · rw [if_neg (fun hh => hle (hiff.1 hh))]
      exact ⟨(fun h => by cases h), fun h => absurd h.2.2.2 hle⟩

theorem nz_of_valid (h : isCurveParamValid c = .ok ()) : Nz c := by
  obtain ⟨h1, h2, h3, _⟩ := (valid_iff c).1 h
  exact ⟨h1, h2, h3⟩

end Linear
end Verif
