import Verif.Lemmas.Sqrt
import Mathlib.Tactic.Linarith

/-
C92: the square-root loop is short.
-/

namespace Verif
namespace Props
open Dfs

/-- Started within `T` of the root the loop ends with it after fewer than `n` rounds. -/
def Near (x s n T : Nat) : Prop :=
  ∀ fuel, n ≤ fuel → ∀ y z, s ≤ y → s ≤ z → z ≤ s + T → z ≤ (x + 1) / 2 → (y ≤ z → y ≤ s) →
    babLoop x fuel y z = .ok s

section
variable {x s : Nat} (hx : 2 ≤ x) (hx64 : x < U64) (hs : s * s ≤ x) (hs2 : x < (s + 1) * (s + 1))
include hx hx64 hs hs2

theorem bab_root_pos : 1 ≤ s := by
  rcases Nat.eq_zero_or_pos s with h | h
  · subst h; simp at hs2; omega
  · exact h

/-- One round. -/
theorem bab_round {fuel y z : Nat} (hsz : s ≤ z) (hz : z ≤ (x + 1) / 2) (hlt : z < y) :
    babLoop x (fuel + 1) y z = babLoop x fuel z ((x / z + z) / 2) ∧ s ≤ (x / z + z) / 2 ∧
      (x / z + z) / 2 ≤ (x + 1) / 2 ∧ (z ≤ (x / z + z) / 2 → z ≤ s) := by
  have hs1 := bab_root_pos hx hx64 hs hs2
  have hz0 : z ≠ 0 := by omega
  have hzpos : 0 < z := by omega
  have hdz : x / z + z ≤ x + 1 := by
    rcases Nat.lt_or_ge z 2 with h | h
    · have : z = 1 := by omega
      subst this; simp
    · have h1 : x / z ≤ x / 2 := Nat.div_le_div_left h (by omega)
      omega
  have hlim : x / z + z < U64 := by
    rcases Nat.lt_or_ge z 2 with h | h
    · have h1 : z = 1 := by omega
      have h2 : s = 1 := by omega
      subst h1; subst h2; rw [Nat.div_one, U64_val]; omega
    · have h1 : x / z ≤ x / 2 := Nat.div_le_div_left h (by omega)
      omega
  refine ⟨?_, amgm x z s hzpos hs, by omega, fun h => ?_⟩
  · conv_lhs => unfold babLoop
    simp only [hlt, if_true, cdiv_ok hz0, Res.ok_bind, cadd_ok hlim,
      cdiv_ok (show (2 : Nat) ≠ 0 by decide)]
  · have h1 : z ≤ x / z := by omega
    rw [Nat.le_div_iff_mul_le hzpos] at h1
    by_contra hc
    have : s + 1 ≤ z := by omega
    have := Nat.mul_le_mul this this
    omega

theorem bab_stop {fuel y z : Nat} (hf : 1 ≤ fuel) (hsy : s ≤ y) (h : ¬ z < y) (hyz : y ≤ z → y ≤ s) :
    babLoop x fuel y z = .ok s := by
  obtain ⟨f, rfl⟩ : ∃ f, fuel = f + 1 := ⟨fuel - 1, by omega⟩
  unfold babLoop
  rw [if_neg h]
  have := hyz (by omega)
  exact congrArg Res.ok (by omega)

/-- At the root one more round remains. -/
theorem near_zero : Near x s 2 0 := by
  intro fuel hf y z hsy hsz hz hzx hyz
  have hzs : z = s := by omega
  subst hzs
  by_cases hlt : z < y
  · obtain ⟨f, rfl⟩ : ∃ f, fuel = f + 1 := ⟨fuel - 1, by omega⟩
    obtain ⟨e, h1, _, _⟩ := bab_round hx hx64 hs hs2 (fuel := f) hsz hzx hlt
    rw [e]
    exact bab_stop hx hx64 hs hs2 (by omega) le_rfl (by omega) fun _ => le_rfl
  · exact bab_stop hx hx64 hs hs2 (by omega) hsy hlt hyz

/-- One round brings distances up to `T` to at most `T'`. -/
theorem near_step {n T T' : Nat} (hn : 2 ≤ n) (h : Near x s n T')
    (hT : ∀ t, 1 ≤ t → t ≤ T → t * t + 2 * s < 2 * (s + t) * (T' + 1)) : Near x s (n + 1) T := by
  intro fuel hf y z hsy hsz hz hzx hyz
  rcases Nat.eq_or_lt_of_le hsz with h0 | h0
  · exact near_zero hx hx64 hs hs2 fuel (by omega) y z hsy hsz (by omega) hzx hyz
  by_cases hlt : z < y
  · obtain ⟨f, rfl⟩ : ∃ f, fuel = f + 1 := ⟨fuel - 1, by omega⟩
    obtain ⟨e, h1, h2, h3⟩ := bab_round hx hx64 hs hs2 (fuel := f) hsz hzx hlt
    rw [e]
    refine h f (by omega) z _ hsz h1 ?_ h2 h3
    have hk := hT (z - s) (by omega) (by omega)
    obtain ⟨t, ht⟩ : ∃ t, z = s + t := ⟨z - s, by omega⟩
    subst ht
    rw [Nat.add_sub_cancel_left] at hk
    by_contra hc
    have h4 : 2 * (s + T' + 1) ≤ x / (s + t) + (s + t) := by omega
    have h5 : x / (s + t) * (s + t) ≤ x := Nat.div_mul_le_self _ _
    have h6 : 2 * (s + T' + 1) * (s + t) ≤ (x / (s + t) + (s + t)) * (s + t) :=
      Nat.mul_le_mul_right _ h4
    nlinarith
  · exact bab_stop hx hx64 hs hs2 (by omega) hsy hlt hyz

/-- Every round halves the distance. -/
theorem near_half {n T : Nat} (hn : 2 ≤ n) (h : Near x s n (T / 2)) : Near x s (n + 1) T := by
  have hs1 := bab_root_pos hx hx64 hs hs2
  refine near_step hx hx64 hs hs2 hn h fun t ht hT => ?_
  have h1 : t + 1 ≤ 2 * (T / 2 + 1) := by omega
  have h2 : (s + t) * (t + 1) ≤ (s + t) * (2 * (T / 2 + 1)) := Nat.mul_le_mul_left _ h1
  have h3 : 2 * s ≤ s * t + s := by nlinarith
  nlinarith

theorem near_halves {n T : Nat} (hn : 2 ≤ n) (h : Near x s n T) :
    ∀ k, Near x s (n + k) (T * 2 ^ k) := by
  intro k
  induction k with
  | zero => simpa using h
  | succ k ih =>
    have := near_half hx hx64 hs hs2 (n := n + k) (T := T * 2 ^ (k + 1)) (by omega) (by
      rw [pow_succ, ← Nat.mul_assoc, Nat.mul_div_cancel _ (by decide)]; exact ih)
    exact this

/-- Close to the root the distance is squared. -/
theorem near_square {n T T' : Nat} (hn : 2 ≤ n) (h : Near x s n T') (hT : T * T < 2 * s * T') :
    Near x s (n + 1) T := by
  refine near_step hx hx64 hs hs2 hn h fun t ht hT' => ?_
  have h1 : t * t ≤ T * T := Nat.mul_le_mul hT' hT'
  nlinarith

omit hx hx64 hs hs2 in
theorem near_mono {n n' T T' : Nat} (h : Near x s n T) (hn : n ≤ n') (hT : T' ≤ T) :
    Near x s n' T' :=
  fun fuel hf y z h1 h2 h3 h4 h5 => h fuel (by omega) y z h1 h2 (by omega) h4 h5

theorem near_start : Near x s 40 ((x + 1) / 2 - s) := by
  have hs1 := bab_root_pos hx hx64 hs hs2
  have z0 := near_zero hx hx64 hs hs2
  have z1 := near_half hx hx64 hs hs2 (T := 1) le_rfl z0
  have hlt : s < 4294967296 := by
    by_contra hc
    have := Nat.mul_le_mul (Nat.le_of_not_lt hc) (Nat.le_of_not_lt hc)
    rw [U64_val] at hx64
    omega
  rcases Nat.lt_or_ge s 65536 with hsm | hsm
  · refine near_mono (near_halves hx hx64 hs hs2 (by decide) z1 31) (by decide) ?_
    have : (s + 1) * (s + 1) ≤ 65536 * 65536 := Nat.mul_le_mul (by omega) (by omega)
    norm_num at this ⊢
    omega
  · have z2 := near_half hx hx64 hs hs2 (T := 3) (by decide) z1
    have z3 : Near x s 5 (s / 32768 + 3) := near_square hx hx64 hs hs2 (by decide) z2 (by
      obtain ⟨q, hq⟩ : ∃ q, q = s / 32768 := ⟨_, rfl⟩
      rw [← hq]
      have a1 : 32768 * q ≤ s := by omega
      have a2 : q < 131072 := by omega
      nlinarith)
    have z4 : Near x s 6 (s / 128 + 3) := near_square hx hx64 hs hs2 (by decide) z3 (by
      obtain ⟨q, hq⟩ : ∃ q, q = s / 32768 := ⟨_, rfl⟩
      obtain ⟨p, hp⟩ : ∃ p, p = s / 128 := ⟨_, rfl⟩
      rw [← hq, ← hp]
      have a1 : s < 32768 * (q + 1) := by omega
      have a2 : 128 * p ≤ s := by omega
      nlinarith)
    have z5 : Near x s 7 (s / 8 + 2) := near_square hx hx64 hs hs2 (by decide) z4 (by
      obtain ⟨q, hq⟩ : ∃ q, q = s / 128 := ⟨_, rfl⟩
      obtain ⟨p, hp⟩ : ∃ p, p = s / 8 := ⟨_, rfl⟩
      rw [← hq, ← hp]
      have a1 : s < 128 * (q + 1) := by omega
      have a2 : 8 * p ≤ s := by omega
      nlinarith)
    have z6 : Near x s 8 ((s + 1) / 2) := near_square hx hx64 hs hs2 (by decide) z5 (by
      obtain ⟨q, hq⟩ : ∃ q, q = s / 8 := ⟨_, rfl⟩
      obtain ⟨p, hp⟩ : ∃ p, p = (s + 1) / 2 := ⟨_, rfl⟩
      rw [← hq, ← hp]
      have a1 : s < 8 * (q + 1) := by omega
      have a2 : 2 * p ≤ s + 1 := by omega
      nlinarith)
    refine near_mono (near_halves hx hx64 hs hs2 (by decide) z6 32) (by decide) ?_
    have h1 : (s + 1) * (s + 1) ≤ 4294967296 * (s + 1) := Nat.mul_le_mul_right _ (by omega)
    have h2 : s * s ≤ 4294967295 * s := Nat.mul_le_mul_right _ (by omega)
    norm_num
    have h3 : (s + 1) * (s + 1) = s * s + 2 * s + 1 := by ring
    omega

end

/-- C92: on every 64-bit number the loop of `sqrt_babylonian` ends after fewer than 40 rounds, with the
root. -/
theorem C92_rounds (x : Nat) (hx : x < 2 ^ 64) (fuel : Nat) (hf : 40 ≤ fuel) (z : Nat)
    (hz : z = (x + 1) / 2 ∨ (x + 1 = 2 ^ 64 ∧ z = x / 2)) :
    ∃ s, babLoop x fuel x z = .ok s ∧ s ^ 2 ≤ x ∧ x < (s + 1) ^ 2 := by
  obtain ⟨s, hs⟩ : ∃ s, s = isqrt x := ⟨_, rfl⟩
  have h1 := isqrt_sq_le x
  have h2 := lt_isqrt_succ x
  rw [← hs] at h1 h2
  refine ⟨s, ?_, by rw [pow_two]; exact h1, by rw [pow_two]; exact h2⟩
  rcases Nat.lt_or_ge x 2 with hx2 | hx2
  · obtain ⟨f, rfl⟩ : ∃ f, fuel = f + 1 := ⟨fuel - 1, by omega⟩
    have e : ¬ z < x := by omega
    unfold babLoop
    rw [if_neg e]
    refine congrArg Res.ok ?_
    rcases (by omega : x = 0 ∨ x = 1) with rfl | rfl
    · rw [hs]; decide
    · rw [hs]; decide
  · have hss : s ≤ s * s := Nat.le_mul_self s
    have hsz : s ≤ z := by
      by_contra hc
      rcases hz with rfl | ⟨hb, rfl⟩
      · have : (x + 1) / 2 + 1 ≤ s := by omega
        have h5 : s * s ≤ x := h1
        have : s ≤ 1 := by
          by_contra h6
          have := Nat.mul_le_mul_right s (show 2 ≤ s by omega)
          omega
        omega
      · have h5 : 2 ≤ s := by
          by_contra h6
          have := Nat.mul_le_mul (show s + 1 ≤ 2 by omega) (show s + 1 ≤ 2 by omega)
          omega
        have := Nat.mul_le_mul_right s h5
        omega
    exact near_start hx2 hx h1 h2 fuel hf x z (by omega) hsz (by omega) (by omega) (by omega)

/-- Rounds of the loop started at `z` (as many as `fuel` allows). -/
def roundsOf (x : Nat) : Nat → Nat → Nat → Nat
  | 0, _, _ => 0
  | f + 1, y, z => if z < y then roundsOf x f z ((x / z + z) / 2) + 1 else 0

/-- Near the largest number 37 rounds are needed. -/
example : roundsOf (2 ^ 64 - 50) 100 (2 ^ 64 - 50) ((2 ^ 64 - 49) / 2) = 37 ∧
    babLoop (2 ^ 64 - 50) 37 (2 ^ 64 - 50) ((2 ^ 64 - 49) / 2) = .panic ∧
    babLoop (2 ^ 64 - 50) 38 (2 ^ 64 - 50) ((2 ^ 64 - 49) / 2) = .ok (2 ^ 32 - 1) := by
  decide +kernel

end Props
end Verif
