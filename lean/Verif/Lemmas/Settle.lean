import Mathlib.Analysis.SpecialFunctions.Pow.NNReal
import Mathlib.Topology.Order.IntermediateValue
import Mathlib.Topology.Algebra.Polynomial
import Mathlib.Tactic.NormNum
import Verif.Spec.Reference
import Verif.Lemmas.Stable
import Verif.Lemmas.Rest

/-
How fast the two Newton iterations of the stable curve come to rest.  For the invariant each round takes off
a third of the distance to the solution, or leaves its square over the solution; for the new balance a half,
or its square over the root of the discriminant.
-/

namespace Verif
namespace Stable
open Spec

/-- What one round does to `d`, in real numbers: `a·d³ + K·d = T` is the equation, `p` the rounded `a·d³`. -/
structure Round (a K T y d d' : ℝ) : Prop where
  ex : ∃ p, 0 ≤ p ∧ p ≤ a * d ^ 3 ∧ a * d ^ 3 ≤ p + 1 + d / (2 * y) ∧
    d' * (K * d + 3 * p) ≤ (T + 2 * p) * d ∧ (T + 2 * p) * d < (d' + 1) * (K * d + 3 * p)

theorem newton_id (a K T D d p : ℝ) (h : a * D ^ 3 + K * D = T) :
    (T + 2 * p) * d - D * (K * d + 3 * p) =
      a * d * (d - D) ^ 2 * (2 * d + D) + (a * d ^ 3 - p) * (3 * D - 2 * d) := by
  rw [← h]; ring

theorem round_lower {a K T y D d d' : ℝ} (ha : 0 < a) (hK : 1 ≤ K) (hD : 0 < D) (hd : 0 < d)
    (h : a * D ^ 3 + K * D = T) (hr : Round a K T y d d') : D - 1 < d' := by
  obtain ⟨p, p0, p1, _, _, h2⟩ := hr.ex
  have hden : 0 < K * d + 3 * p := by positivity
  have key := newton_id a K T D d p h
  have : 0 ≤ a * d * (d - D) ^ 2 * (2 * d + D) + (a * d ^ 3 - p) * (3 * D - 2 * d) := by
    rcases le_total (2 * d) (3 * D) with g | g
    · have := mul_nonneg (sub_nonneg.2 p1) (sub_nonneg.2 g)
      have : 0 ≤ a * d * (d - D) ^ 2 * (2 * d + D) := by positivity
      linarith
    · have e1 : (a * d ^ 3 - p) * (2 * d - 3 * D) ≤ a * d ^ 3 * (2 * d - 3 * D) :=
        mul_le_mul_of_nonneg_right (by linarith) (by linarith)
      have e2 : a * d * (d - D) ^ 2 * (2 * d + D) = a * d ^ 3 * (2 * d - 3 * D) + a * d * D ^ 3 := by ring
      have e3 : 0 ≤ a * d * D ^ 3 := by positivity
      linarith
  have h3 : D * (K * d + 3 * p) < (d' + 1) * (K * d + 3 * p) := by linarith
  have := lt_of_mul_lt_mul_right h3 hden.le
  linarith

/-- A round from above the solution takes off at least a third of the distance, to within `σ`, -/
theorem round_third {a K T y D d d' σ : ℝ} (ha : 0 < a) (hK : 1 ≤ K) (hD : 12 ≤ D) (hd : D ≤ d)
    (hy : 6 ≤ y) (h : a * D ^ 3 + K * D = T) (hr : Round a K T y d d')
    (hσ : 2 + 1 / (6 * y * a * D) ≤ σ) :
    d' - D ≤ 2 / 3 * (d - D) + σ ∧ d' - D ≤ (d - D) ^ 2 / D + σ := by
  obtain ⟨p, p0, p1, p2, h1, _⟩ := hr.ex
  have hd0 : 0 < d := by linarith
  have key := newton_id a K T D d p h
  set δ := a * d ^ 3 - p with hδ
  have δ0 : 0 ≤ δ := by linarith
  have δ1 : δ ≤ 1 + d / (2 * y) := by linarith
  have hdy : d / (2 * y) ≤ d / 12 := div_le_div_of_nonneg_left hd0.le (by norm_num) (by linarith)
  have hKd : d ≤ K * d := by nlinarith
  have ad : 0 < a * d := by positivity
  have ad3 : 0 < a * d ^ 3 := by positivity
  set den := K * d + 3 * p with hden'
  have hdenE : den = K * d + 3 * (a * d ^ 3) - 3 * δ := by rw [hden', hδ]; ring
  have hden : d / 2 + 3 * (a * d ^ 3) ≤ den := by rw [hdenE]; linarith
  have hden0 : 0 < den := by linarith
  have e0 : 0 ≤ d - D := by linarith
  -- the slack
  have slack : δ * (3 * D - 2 * d) ≤ σ * den := by
    have s1 : δ * (3 * D - 2 * d) ≤ δ * D := mul_le_mul_of_nonneg_left (by linarith) δ0
    have s2 : δ * D ≤ (1 + d / (2 * y)) * D := mul_le_mul_of_nonneg_right δ1 (by linarith)
    have s3 : (1 + d / (2 * y)) * D ≤ (2 + 1 / (6 * y * a * D)) * (d / 2 + 3 * (a * d ^ 3)) := by
      have t1 : D ≤ 2 * (d / 2) := by linarith
      have t2 : d / (2 * y) * D ≤ 1 / (6 * y * a * D) * (3 * (a * d ^ 3)) := by
        have : 1 / (6 * y * a * D) * (3 * (a * d ^ 3)) = d / (2 * y) * (d ^ 2 / D) := by
          field_simp; ring
        rw [this]
        refine mul_le_mul_of_nonneg_left ?_ (by positivity)
        rw [le_div_iff₀ (by linarith)]
        nlinarith
      have t3 : 0 ≤ 1 / (6 * y * a * D) * (d / 2) := by positivity
      nlinarith
    have hσ0 : 0 ≤ 2 + 1 / (6 * y * a * D) := by positivity
    calc δ * (3 * D - 2 * d) ≤ (2 + 1 / (6 * y * a * D)) * (d / 2 + 3 * (a * d ^ 3)) := by linarith
      _ ≤ (2 + 1 / (6 * y * a * D)) * den := mul_le_mul_of_nonneg_left hden hσ0
      _ ≤ σ * den := mul_le_mul_of_nonneg_right hσ hden0.le
  have main : (d' - D) * den ≤ a * d * (d - D) ^ 2 * (2 * d + D) + σ * den := by
    have : (d' - D) * den = d' * den - D * den := by ring
    linarith
  constructor
  · have q : a * d * (d - D) * (2 * d + D) ≤ 2 / 3 * den := by
      have : a * d * (d - D) * (2 * d + D) = 2 * (a * d ^ 3) - a * d * (d * D + D ^ 2) := by ring
      have : 0 ≤ a * d * (d * D + D ^ 2) := by positivity
      linarith
    have q2 := mul_le_mul_of_nonneg_right q e0
    refine le_of_mul_le_mul_right ?_ hden0
    calc (d' - D) * den ≤ a * d * (d - D) ^ 2 * (2 * d + D) + σ * den := main
      _ = a * d * (d - D) * (2 * d + D) * (d - D) + σ * den := by ring
      _ ≤ 2 / 3 * den * (d - D) + σ * den := by linarith
      _ = (2 / 3 * (d - D) + σ) * den := by ring
  · have q : a * d * D * (2 * d + D) ≤ den := by
      have e1 : a * d * (D * (2 * d + D)) ≤ a * d * (3 * d ^ 2) :=
        mul_le_mul_of_nonneg_left (by nlinarith) ad.le
      have : a * d * (3 * d ^ 2) = 3 * (a * d ^ 3) := by ring
      have : a * d * D * (2 * d + D) = a * d * (D * (2 * d + D)) := by ring
      linarith
    have q2 := mul_le_mul_of_nonneg_right q (by positivity : 0 ≤ (d - D) ^ 2 / D)
    refine le_of_mul_le_mul_right ?_ hden0
    calc (d' - D) * den ≤ a * d * (d - D) ^ 2 * (2 * d + D) + σ * den := main
      _ = a * d * D * (2 * d + D) * ((d - D) ^ 2 / D) + σ * den := by field_simp
      _ ≤ den * ((d - D) ^ 2 / D) + σ * den := by linarith
      _ = ((d - D) ^ 2 / D + σ) * den := by ring

/-- and a round from just below it ends within `3σ`. -/
theorem round_below {a K T y D d d' σ : ℝ} (ha : 0 < a) (hK : 1 ≤ K) (hD : 40 ≤ D) (hd : D - 1 < d)
    (hd2 : d ≤ D) (hy : 6 ≤ y) (haD : a * D ≤ 1 / 10) (h : a * D ^ 3 + K * D = T)
    (hr : Round a K T y d d')
    (hσ : 2 + 1 / (6 * y * a * D) ≤ σ) : d' - D ≤ 3 * σ := by
  obtain ⟨p, p0, p1, p2, h1, _⟩ := hr.ex
  have hd0 : 0 < d := by linarith
  have key := newton_id a K T D d p h
  set δ := a * d ^ 3 - p with hδ
  have δ0 : 0 ≤ δ := by linarith
  have δ1 : δ ≤ 1 + d / (2 * y) := by linarith
  have hdy : d / (2 * y) ≤ d / 12 := div_le_div_of_nonneg_left hd0.le (by norm_num) (by linarith)
  have hKd : d ≤ K * d := by nlinarith
  have ad : 0 < a * d := by positivity
  have ad3 : 0 < a * d ^ 3 := by positivity
  set den := K * d + 3 * p with hden'
  have hdenE : den = K * d + 3 * (a * d ^ 3) - 3 * δ := by rw [hden', hδ]; ring
  have hden : d / 2 + 3 * (a * d ^ 3) ≤ den := by rw [hdenE]; linarith
  have hden0 : 0 < den := by linarith
  have slack : δ * (3 * D - 2 * d) ≤ 2 * σ * den := by
    have s1 : δ * (3 * D - 2 * d) ≤ δ * (D + 2) := mul_le_mul_of_nonneg_left (by linarith) δ0
    have s2 : δ * (D + 2) ≤ (1 + d / (2 * y)) * (D + 2) := mul_le_mul_of_nonneg_right δ1 (by linarith)
    have s3 : (1 + d / (2 * y)) * (D + 2) ≤
        2 * (2 + 1 / (6 * y * a * D)) * (d / 2 + 3 * (a * d ^ 3)) := by
      have t1 : D + 2 ≤ 2 * (2 * (d / 2)) := by linarith
      have t2 : d / (2 * y) * (D + 2) ≤ 2 * (1 / (6 * y * a * D)) * (3 * (a * d ^ 3)) := by
        have : 2 * (1 / (6 * y * a * D)) * (3 * (a * d ^ 3)) = d / (2 * y) * (2 * (d ^ 2 / D)) := by
          field_simp; ring
        rw [this]
        refine mul_le_mul_of_nonneg_left ?_ (by positivity)
        have : (D + 2) / 2 ≤ d ^ 2 / D := by
          rw [le_div_iff₀ (by linarith)]
          nlinarith
        linarith
      have t3 : 0 ≤ 1 / (6 * y * a * D) * (d / 2) := by positivity
      nlinarith
    have hσ0 : 0 ≤ 2 * (2 + 1 / (6 * y * a * D)) := by positivity
    calc δ * (3 * D - 2 * d) ≤ 2 * (2 + 1 / (6 * y * a * D)) * (d / 2 + 3 * (a * d ^ 3)) := by linarith
      _ ≤ 2 * (2 + 1 / (6 * y * a * D)) * den := mul_le_mul_of_nonneg_left hden hσ0
      _ ≤ 2 * σ * den := mul_le_mul_of_nonneg_right (by linarith) hden0.le
  have hσ2 : 2 ≤ σ := by
    have : 0 ≤ 1 / (6 * y * a * D) := by positivity
    linarith
  have first : a * d * (d - D) ^ 2 * (2 * d + D) ≤ σ * den := by
    have e1 : (d - D) ^ 2 ≤ 1 := by nlinarith
    have e2 : a * d * (d - D) ^ 2 * (2 * d + D) ≤ a * d * 1 * (3 * D) :=
      mul_le_mul (mul_le_mul_of_nonneg_left e1 ad.le) (by linarith) (by linarith) (by positivity)
    have e3 : a * d * 1 * (3 * D) = 3 * (a * D) * d := by ring
    nlinarith
  refine le_of_mul_le_mul_right ?_ hden0
  have : (d' - D) * den = d' * den - D * den := by ring
  linarith

/-- Not further from the solution than `X`, to within `3σ`. -/
def Near (D σ X d : ℝ) : Prop := D - 1 < d ∧ d - D ≤ X + 3 * σ

section
variable {a K T y D σ : ℝ} (ha : 0 < a) (hK : 1 ≤ K) (hD : 40 ≤ D) (hy : 6 ≤ y) (haD : a * D ≤ 1 / 10)
  (h : a * D ^ 3 + K * D = T) (hσ : 2 + 1 / (6 * y * a * D) ≤ σ)
include ha hK hD hy haD h hσ

theorem near_third {X d d' : ℝ} (hX : 0 ≤ X) (hn : Near D σ X d) (hr : Round a K T y d d') :
    Near D σ (2 / 3 * X) d' := by
  obtain ⟨h1, h2⟩ := hn
  refine ⟨round_lower ha hK (by linarith) (by linarith) h hr, ?_⟩
  rcases le_total D d with g | g
  · have := (round_third ha hK (by linarith) g hy h hr hσ).1
    linarith
  · have := round_below ha hK hD h1 g hy haD h hr hσ
    linarith

theorem near_square {X d d' : ℝ} (hX8 : X ≤ D / 8) (hσ8 : σ ≤ D / 8)
    (hn : Near D σ X d) (hr : Round a K T y d d') : Near D σ (X ^ 2 / D) d' := by
  obtain ⟨h1, h2⟩ := hn
  have hD0 : 0 < D := by linarith
  have q0 : 0 ≤ X ^ 2 / D := by positivity
  have hσ0 : 0 ≤ σ := by
    have : 0 ≤ 1 / (6 * y * a * D) := by positivity
    linarith
  refine ⟨round_lower ha hK (by linarith) (by linarith) h hr, ?_⟩
  rcases le_total D d with g | g
  · have h3 := (round_third ha hK (by linarith) g hy h hr hσ).2
    have h4 : (d - D) ^ 2 ≤ (X + 3 * σ) ^ 2 := pow_le_pow_left₀ (by linarith) h2 2
    have h5 : (d - D) ^ 2 / D ≤ (X + 3 * σ) ^ 2 / D := div_le_div_of_nonneg_right h4 hD0.le
    have h6 : (X + 3 * σ) ^ 2 / D = X ^ 2 / D + (6 * X + 9 * σ) * σ / D := by field_simp; ring
    have h7 : (6 * X + 9 * σ) * σ / D ≤ 2 * σ := by
      rw [div_le_iff₀ hD0]
      nlinarith
    linarith
  · have := round_below ha hK hD h1 g hy haD h hr hσ
    linarith

/-- 27 rounds by thirds and five by squaring. -/
theorem near_rest {f : ℤ → ℤ} (hf : ∀ d : ℤ, D - 1 < d → Round a K T y d (f d)) {d : ℤ} {X : ℝ}
    (hX0 : 0 ≤ X) (hX : X ≤ 7101 * D) (hσ8 : σ ≤ D / 8) (hd : Near D σ X d) (hD2 : D ≤ 2 ^ 96) :
    Near D σ 1 (f^[32] d) := by
  have hD0 : 0 < D := by linarith
  have thirds : ∀ n : ℕ, Near D σ ((2 / 3) ^ n * X) (f^[n] d) := by
    intro n
    induction n with
    | zero => simpa using hd
    | succ n ih =>
      rw [Function.iterate_succ_apply', pow_succ', mul_assoc]
      exact near_third ha hK hD hy haD h hσ (by positivity) ih (hf _ ih.1)
  have h27 : Near D σ (D / 2 ^ 3) (f^[27] d) := by
    obtain ⟨g1, g2⟩ := thirds 27
    refine ⟨g1, g2.trans ?_⟩
    have : ((2 : ℝ) / 3) ^ 27 * X ≤ (2 / 3) ^ 27 * (7101 * D) :=
      mul_le_mul_of_nonneg_left hX (by positivity)
    have : ((2 : ℝ) / 3) ^ 27 * (7101 * D) ≤ D / 2 ^ 3 := by
      have : ((2 : ℝ) / 3) ^ 27 * 7101 ≤ 1 / 2 ^ 3 := by norm_num
      nlinarith
    linarith
  have sq : ∀ (k : ℕ) (z : ℤ), 3 ≤ k → Near D σ (D / 2 ^ k) z → Near D σ (D / 2 ^ (2 * k)) (f z) := by
    intro k z hk hz
    have e : (D / 2 ^ k) ^ 2 / D = D / 2 ^ (2 * k) := by
      rw [pow_mul', div_pow]; field_simp
    rw [← e]
    refine near_square ha hK hD hy haD h hσ ?_ hσ8 hz (hf _ hz.1)
    refine div_le_div_of_nonneg_left hD0.le (by norm_num) ?_
    calc (8 : ℝ) = 2 ^ 3 := by norm_num
      _ ≤ 2 ^ k := pow_le_pow_right₀ (by norm_num) hk
  have h28 := sq 3 _ (by norm_num) h27
  have h29 := sq 6 _ (by norm_num) h28
  have h30 := sq 12 _ (by norm_num) h29
  have h31 := sq 24 _ (by norm_num) h30
  have h32 := sq 48 _ (by norm_num) h31
  obtain ⟨g1, g2⟩ := h32
  have e : f (f (f (f (f (f^[27] d))))) = f^[32] d := by
    simp only [← Function.iterate_succ_apply']
  rw [e] at g1 g2
  refine ⟨g1, g2.trans ?_⟩
  have : D / 2 ^ (2 * 48) ≤ 1 := by
    rw [div_le_one (by positivity)]
    simpa using hD2
  linarith
end

/-- The rounds of the program. -/
theorem roundD_round {L x y : Nat} (hL : 2 ≤ L) (hx : 0 < x) (hy : 0 < y) {d : ℤ} (hd : 0 < d) :
    Round (1 / ((2 * (x : ℝ) + 1) * (2 * y + 1))) (L - 1) (L * (x + y)) y d (roundD L x y d) := by
  set p1 : ℤ := d * d / (2 * x + 1) with hp1
  set p : ℤ := p1 * d / (2 * y + 1) with hp
  have hp10 : 0 ≤ p1 := Int.ediv_nonneg (by positivity) (by positivity)
  have hp0 : 0 ≤ p := Int.ediv_nonneg (by positivity) (by positivity)
  have hden : 0 < ((L : ℤ) - 1) * d + 3 * p := by
    have : 0 < ((L : ℤ) - 1) * d := mul_pos (by omega) (by omega)
    omega
  have a1 : d * d < (p1 + 1) * (2 * x + 1) := Int.lt_ediv_add_one_mul_self _ (by omega)
  have a2 : p1 * d < (p + 1) * (2 * y + 1) := Int.lt_ediv_add_one_mul_self _ (by omega)
  have a3 : p1 * (2 * x + 1) ≤ d * d := Int.ediv_mul_le _ (by omega)
  have a4 : p * (2 * y + 1) ≤ p1 * d := Int.ediv_mul_le _ (by omega)
  have a5 : roundD L x y d * (((L : ℤ) - 1) * d + 3 * p) ≤ (L * (x + y) + 2 * p) * d :=
    Int.ediv_mul_le _ hden.ne'
  have a6 : (L * (x + y) + 2 * p) * d < (roundD L x y d + 1) * (((L : ℤ) - 1) * d + 3 * p) :=
    Int.lt_ediv_add_one_mul_self _ hden
  have hxR : (0 : ℝ) < x := by exact_mod_cast hx
  have hyR : (0 : ℝ) < y := by exact_mod_cast hy
  have hdR : (0 : ℝ) < d := by exact_mod_cast hd
  have b1 : (d : ℝ) * d < (p1 + 1) * (2 * x + 1) := by exact_mod_cast a1
  have b2 : (p1 : ℝ) * d < (p + 1) * (2 * y + 1) := by exact_mod_cast a2
  have b3 : (p1 : ℝ) * (2 * x + 1) ≤ d * d := by exact_mod_cast a3
  have b4 : (p : ℝ) * (2 * y + 1) ≤ p1 * d := by exact_mod_cast a4
  refine ⟨p, by exact_mod_cast hp0, ?_, ?_, by exact_mod_cast a5, by exact_mod_cast a6⟩
  · rw [one_div_mul_eq_div, le_div_iff₀ (by positivity)]
    have := mul_le_mul_of_nonneg_right b3 hdR.le
    have := mul_le_mul_of_nonneg_right b4 (by positivity : (0 : ℝ) ≤ 2 * x + 1)
    nlinarith
  · rw [one_div_mul_eq_div, div_le_iff₀ (by positivity)]
    have c1 := mul_le_mul_of_nonneg_right b1.le hdR.le
    have c2 := mul_le_mul_of_nonneg_right b2.le (by positivity : (0 : ℝ) ≤ 2 * x + 1)
    have c3 : (d : ℝ) * (2 * x + 1) ≤ d / (2 * y) * ((2 * x + 1) * (2 * y + 1)) := by
      rw [div_mul_eq_mul_div, le_div_iff₀ (by positivity)]
      have : (0 : ℝ) < d * (2 * x + 1) := by positivity
      nlinarith
    nlinarith

/-- The equation with the program's denominators has a solution. -/
theorem solution_exists {a K T : ℝ} (ha : 0 < a) (hK : 1 ≤ K) (hT : 0 < T) :
    ∃ D, 0 < D ∧ a * D ^ 3 + K * D = T := by
  have hc : ContinuousOn (fun D : ℝ => a * D ^ 3 + K * D) (Set.Icc 0 T) := by fun_prop
  have := intermediate_value_Icc hT.le hc
  obtain ⟨D, ⟨h1, _⟩, h2⟩ := this (show T ∈ Set.Icc _ _ from ⟨by simpa using hT.le, by
    have : 0 ≤ a * T ^ 3 := by positivity
    show T ≤ a * T ^ 3 + K * T
    nlinarith⟩)
  refine ⟨D, lt_of_le_of_ne h1 ?_, h2⟩
  rintro rfl
  simp at h2
  linarith

/-- The exact invariant is hardly below the solution of the equation with the program's denominators. -/
theorem exact_close {L x y D w : ℝ} (hL : 2 ≤ L) (hx : 1 ≤ x) (hy : 1 ≤ y) (hD : 0 < D)
    (h : 1 / ((2 * x + 1) * (2 * y + 1)) * D ^ 3 + (L - 1) * D = L * (x + y))
    (hw : w ≤ D - D / (4 * x) - D / (4 * y)) : StableAtLeast L x y w := by
  unfold StableAtLeast
  have hx0 : 0 < x := by linarith
  have hy0 : 0 < y := by linarith
  set e := 1 / (4 * x) + 1 / (4 * y) with he
  have e0 : 0 < e := by positivity
  have e1 : e ≤ 1 / 2 := by
    have : 1 / (4 * x) ≤ 1 / 4 := by
      rw [div_le_div_iff₀ (by positivity) (by norm_num)]; linarith
    have : 1 / (4 * y) ≤ 1 / 4 := by
      rw [div_le_div_iff₀ (by positivity) (by norm_num)]; linarith
    linarith
  have hw' : w ≤ D * (1 - e) := by
    have : D - D / (4 * x) - D / (4 * y) = D * (1 - e) := by rw [he]; ring
    linarith
  have hwD : w ≤ D := by nlinarith
  have c1 : w ^ 3 ≤ (D * (1 - e)) ^ 3 := Odd.strictMono_pow (by decide) |>.monotone hw'
  have c2 : (1 - e) ^ 3 * ((2 * x + 1) * (2 * y + 1)) ≤ 4 * x * y := by
    have g1 : (2 * x + 1) * (2 * y + 1) ≤ 4 * x * y * (1 + e) ^ 2 := by
      have g2 : 4 * x * y * (1 + e) ^ 2 = 4 * x * y + 2 * (x + y) + (x + y) ^ 2 / (4 * x * y) := by
        rw [he]; field_simp; ring
      have g3 : 1 ≤ (x + y) ^ 2 / (4 * x * y) := by
        rw [le_div_iff₀ (by positivity)]
        nlinarith [sq_nonneg (x - y)]
      rw [g2]
      nlinarith
    have g4 : 0 ≤ (1 - e) ^ 3 := by
      have : 0 ≤ 1 - e := by linarith
      positivity
    have g5 : (1 - e) ^ 3 * (1 + e) ^ 2 ≤ 1 := by
      have q1 : 0 ≤ 1 - e ^ 2 := by nlinarith
      have q2 : 1 - e ^ 2 ≤ 1 := by nlinarith
      have q3 : (1 - e ^ 2) ^ 2 ≤ 1 := pow_le_one₀ q1 q2
      have q4 : (1 - e) ^ 3 * (1 + e) ^ 2 = (1 - e) * (1 - e ^ 2) ^ 2 := by ring
      rw [q4]
      have : 0 ≤ (1 - e ^ 2) ^ 2 := by positivity
      nlinarith
    calc (1 - e) ^ 3 * ((2 * x + 1) * (2 * y + 1)) ≤ (1 - e) ^ 3 * (4 * x * y * (1 + e) ^ 2) :=
          mul_le_mul_of_nonneg_left g1 g4
      _ = 4 * x * y * ((1 - e) ^ 3 * (1 + e) ^ 2) := by ring
      _ ≤ 4 * x * y * 1 := mul_le_mul_of_nonneg_left g5 (by positivity)
      _ = 4 * x * y := by ring
  set P := (2 * x + 1) * (2 * y + 1) with hP
  have hP0 : 0 < P := by positivity
  have c3 : D ^ 3 / P = L * (x + y - D) + D := by
    have : 1 / P * D ^ 3 = D ^ 3 / P := by ring
    linarith
  have c4 : L * (x + y - D) + D ≤ L * (x + y - w) + w := by nlinarith
  have c5 : (D * (1 - e)) ^ 3 ≤ 4 * x * y * (D ^ 3 / P) := by
    rw [← mul_div_assoc, le_div_iff₀ hP0, mul_pow]
    have : 0 ≤ D ^ 3 := by positivity
    nlinarith
  calc w ^ 3 ≤ 4 * x * y * (D ^ 3 / P) := c1.trans c5
    _ = 4 * x * y * (L * (x + y - D) + D) := by rw [c3]
    _ ≤ 4 * x * y * (L * (x + y - w) + w) := mul_le_mul_of_nonneg_left c4 (by positivity)

section
variable {L x y D : ℝ} (hL : 2 ≤ L) (hx : 100 ≤ x) (hy : 100 ≤ y) (hD0 : 0 < D)
  (h : 1 / ((2 * x + 1) * (2 * y + 1)) * D ^ 3 + (L - 1) * D = L * (x + y))

include hL hx hy hD0 h in
theorem solution_lt : D < x + y + 1 := by
  set P : ℝ := (2 * x + 1) * (2 * y + 1) with hP
  have hP0 : 0 < P := by positivity
  by_contra hc
  push Not at hc
  have g1 : P ≤ D ^ 2 := by
    have : (x + y + 1) ^ 2 ≤ D ^ 2 := pow_le_pow_left₀ (by positivity) hc 2
    rw [hP]
    nlinarith [sq_nonneg (x - y)]
  have g2 : 1 ≤ 1 / P * D ^ 2 := by rw [one_div_mul_eq_div, le_div_iff₀ hP0]; linarith
  have g3 : 1 * D ≤ 1 / P * D ^ 2 * D := mul_le_mul_of_nonneg_right g2 hD0.le
  have g4 : 1 / P * D ^ 2 * D = 1 / P * D ^ 3 := by ring
  have g5 : L * (x + y + 1) ≤ L * D := mul_le_mul_of_nonneg_left hc (by linarith)
  linarith

include hL hx hy hD0 h in
theorem solution_ge : 4 * x * y ≤ D ^ 2 := by
  set P : ℝ := (2 * x + 1) * (2 * y + 1) with hP
  have hP0 : 0 < P := by positivity
  by_contra hc
  push Not at hc
  have g1 : D ^ 2 < P := by rw [hP]; linarith
  have g2 : 1 / P * D ^ 2 < 1 := by rw [one_div_mul_eq_div, div_lt_iff₀ hP0]; linarith
  have g3 : 1 / P * D ^ 2 * D ≤ 1 * D := mul_le_mul_of_nonneg_right g2.le hD0.le
  have g4 : 1 / P * D ^ 2 * D = 1 / P * D ^ 3 := by ring
  have g6 : L * (x + y) ≤ L * D := by linarith
  have g7 : x + y ≤ D := le_of_mul_le_mul_left g6 (by linarith)
  have g8 : (x + y) ^ 2 ≤ D ^ 2 := pow_le_pow_left₀ (by linarith) g7 2
  nlinarith [sq_nonneg (x - y)]
end

theorem solution_size {x y D : ℝ} (hx : 100 ≤ x) (hy : 100 ≤ y) (hD0 : 0 < D)
    (hDS : D < x + y + 1) (hD4 : 4 * x * y ≤ D ^ 2) :
    200 ≤ D ∧ 1 / ((2 * x + 1) * (2 * y + 1)) * D ≤ 1 / 10 ∧ x / D ≤ D / 400 ∧
    2 + 1 / (6 * y * (1 / ((2 * x + 1) * (2 * y + 1))) * D) ≤ 2 + x / D := by
  have hx0 : 0 < x := by linarith
  have hy0 : 0 < y := by linarith
  have hxy : 100 * 100 ≤ x * y := mul_le_mul hx hy (by norm_num) hx0.le
  have hx100 : 100 * y ≤ x * y := mul_le_mul_of_nonneg_right hx hy0.le
  have hy100 : x * 100 ≤ x * y := mul_le_mul_of_nonneg_left hy hx0.le
  refine ⟨?_, ?_, ?_, ?_⟩
  · exact le_of_sq_le_sq (by linarith) hD0.le
  · rw [one_div_mul_eq_div, div_le_iff₀ (by positivity)]
    linarith
  · rw [div_le_div_iff₀ hD0 (by norm_num)]
    linarith
  · have : 1 / (6 * y * (1 / ((2 * x + 1) * (2 * y + 1))) * D) =
        (2 * x + 1) * (2 * y + 1) / (6 * y) / D := by field_simp
    rw [this]
    have : (2 * x + 1) * (2 * y + 1) / (6 * y) ≤ x := by
      rw [div_le_iff₀ (by positivity)]
      linarith
    have := div_le_div_of_nonneg_right this hD0.le
    linarith

theorem sum_le {x y D : ℝ} (hx : 0 < x) (hy : 0 < y) (hD0 : 0 < D) (hxy : x ≤ 10 ^ 8 * y)
    (hyx : y ≤ 10 ^ 8 * x) (hD4 : 4 * x * y ≤ D ^ 2) : x + y ≤ 7101 * D := by
  have g0 : 0 < x * y := by positivity
  have g1 : x * x ≤ 10 ^ 8 * y * x := mul_le_mul_of_nonneg_right hxy hx.le
  have g2 : y * y ≤ 10 ^ 8 * x * y := mul_le_mul_of_nonneg_right hyx hy.le
  exact le_of_sq_le_sq (by linarith) (by positivity)

theorem close_sum {x y D d : ℝ} (hx : 100 ≤ x) (hy : 100 ≤ y) (hD : 200 ≤ D) (hxD : x / D ≤ D / 400)
    (n1 : D - 1 < d) (n2 : d - D ≤ 1 + 3 * (2 + x / D)) :
    d - (8 + 4 * x / d + d / (2 * x) + d / (2 * y)) ≤ D - D / (4 * x) - D / (4 * y) := by
  have hdR : 0 < d := by linarith
  have q1 : 3 * (x / D) ≤ 4 * x / d := by
    rw [← mul_div_assoc, div_le_div_iff₀ (by linarith) hdR]
    have : 3 * d ≤ 4 * D := by linarith
    have := mul_le_mul_of_nonneg_left this (by linarith : 0 ≤ x)
    linarith
  have q2 : D / (4 * x) ≤ d / (2 * x) := by
    rw [div_le_div_iff₀ (by linarith) (by linarith)]
    have : D * 2 ≤ d * 4 := by linarith
    have := mul_le_mul_of_nonneg_right this (by linarith : 0 ≤ x)
    linarith
  have q3 : D / (4 * y) ≤ d / (2 * y) := by
    rw [div_le_div_iff₀ (by linarith) (by linarith)]
    have : D * 2 ≤ d * 4 := by linarith
    have := mul_le_mul_of_nonneg_right this (by linarith : 0 ≤ y)
    linarith
  linarith

/-- Where 32 rounds are enough. -/
theorem computeD_close {L x y : Nat} (hL : 2 ≤ L) (hx : 100 ≤ x) (hy : 100 ≤ y) (hx64 : x < 2 ^ 64)
    (hy64 : y < 2 ^ 64) (hxy : x ≤ 10 ^ 8 * y) (hyx : y ≤ 10 ^ 8 * x) {d : ℤ}
    (h : d = (roundD L x y)^[32] ((x : ℤ) + y)) :
    0 < d ∧ d ≤ 2 * (x + y) ∧
    StableAtLeast L x y (d - (8 + 4 * x / d + d / (2 * x) + d / (2 * y))) := by
  have hLR : (2 : ℝ) ≤ L := by exact_mod_cast hL
  have hxR : (100 : ℝ) ≤ x := by exact_mod_cast hx
  have hyR : (100 : ℝ) ≤ y := by exact_mod_cast hy
  have hx0 : (0 : ℝ) < x := by linarith
  have hy0 : (0 : ℝ) < y := by linarith
  have hxyR : (x : ℝ) ≤ 10 ^ 8 * y := by exact_mod_cast hxy
  have hyxR : (y : ℝ) ≤ 10 ^ 8 * x := by exact_mod_cast hyx
  have hx64R : (x : ℝ) < 2 ^ 64 := by exact_mod_cast hx64
  have hy64R : (y : ℝ) < 2 ^ 64 := by exact_mod_cast hy64
  have ha : 0 < 1 / ((2 * (x : ℝ) + 1) * (2 * y + 1)) := by positivity
  obtain ⟨D, hD0, hD⟩ := solution_exists (K := (L : ℝ) - 1) (T := L * (x + y)) ha (by linarith)
    (by positivity)
  have hDS := solution_lt hLR hxR hyR hD0 hD
  have hD4 := solution_ge hLR hxR hyR hD0 hD
  obtain ⟨hD200, haD, hxD, hσ⟩ := solution_size hxR hyR hD0 hDS hD4
  have hD96 : D ≤ 2 ^ 96 := by
    have : (2 : ℝ) ^ 64 + 2 ^ 64 + 1 ≤ 2 ^ 96 := by norm_num
    linarith
  have hxD0 : 0 ≤ (x : ℝ) / D := by positivity
  have near := near_rest (σ := 2 + x / D) ha (by linarith) (by linarith) (by linarith) haD hD hσ
    (f := roundD L x y) (d := (x : ℤ) + y) (X := x + y)
    (fun z hz => roundD_round hL (by omega) (by omega) (by
      have : (0 : ℝ) < z := by linarith
      exact_mod_cast this)) (by positivity) (sum_le hx0 hy0 hD0 hxyR hyxR hD4) (by linarith)
    ⟨by push_cast; linarith, by push_cast; linarith⟩ hD96
  rw [← h] at near
  obtain ⟨n1, n2⟩ := near
  have hdR : (0 : ℝ) < d := by linarith
  have hd2 : (d : ℝ) ≤ 2 * (x + y) := by linarith
  exact ⟨by exact_mod_cast hdR, by exact_mod_cast hd2, exact_close hLR (by linarith) (by linarith) hD0 hD
    (close_sum hxR hyR hD200 hxD n1 n2)⟩

/-- One round of the loop for the new balance. -/
theorem yLoop_step {b c D n y r : Nat} (h : yLoop b c D (n + 1) y = .ok r) :
    ∃ y' : Nat, yLoop b c D n y' = .ok r ∧ (1 : ℤ) ≤ 2 * y + (b - D) ∧
      (y' : ℤ) * (2 * y + (b - D)) ≤ (y : ℤ) ^ 2 + c ∧
      (y : ℤ) ^ 2 + c < (y' + 1) * (2 * y + (b - D)) := by
  have hall := h
  unfold yLoop at h
  rw [Res.bind_eq_ok] at h
  obtain ⟨y2, hy2, h⟩ := h
  rw [Res.bind_eq_ok] at h
  obtain ⟨num, hnum, h⟩ := h
  rw [Res.bind_eq_ok] at h
  obtain ⟨t, ht, h⟩ := h
  rw [Res.bind_eq_ok] at h
  obtain ⟨t2, ht2, h⟩ := h
  rw [Res.bind_eq_ok] at h
  obtain ⟨den, hden, h⟩ := h
  rw [Res.bind_eq_ok] at h
  obtain ⟨y', hy', h⟩ := h
  have e1 := u8Power_two hy2
  have e2 := (cadd_eq_ok.1 hnum).2
  have e3 := u8Mul_two ht
  have e4 := (cadd_eq_ok.1 ht2).2
  obtain ⟨e5, e6⟩ := csub_eq_ok.1 hden
  obtain ⟨e7, e8⟩ := cdiv_eq_ok.1 hy'
  have hd : (den : ℤ) = 2 * y + (b - D) := by omega
  have hn : (num : ℤ) = (y : ℤ) ^ 2 + c := by
    rw [e2, e1]; push_cast; ring
  refine ⟨y', ?_, by omega, ?_, ?_⟩
  · split at h
    · rename_i hfix
      cases n with
      | zero => exact h
      | succ n =>
        have hr := Res.ok.inj h
        subst hfix
        unfold yLoop
        rw [hy2, Res.ok_bind, hnum, Res.ok_bind, ht, Res.ok_bind, ht2, Res.ok_bind, hden, Res.ok_bind, hy',
          Res.ok_bind, if_pos rfl, hr]
    · exact h
  · rw [← hd, ← hn, e8]
    exact_mod_cast Nat.div_mul_le_self num den
  · rw [← hd, ← hn, e8]
    have := Int.lt_ediv_add_one_mul_self (num : ℤ) (b := (den : ℤ)) (by omega)
    exact_mod_cast this

/-- No further from the solution than `X` or one unit. -/
def NearY (Y X : ℝ) (y : Nat) : Prop := Y - 1 < y ∧ (y - Y ≤ X ∨ y - Y ≤ 1)

section
variable {b c D : Nat} {Y Q : ℝ} (hY : Y ^ 2 + ((b : ℝ) - D) * Y = c) (hQ : Q = 2 * Y + (b - D))
include hY

/-- A round in real numbers. -/
theorem yStep_real {n y r : Nat} (h : yLoop b c D (n + 1) y = .ok r) :
    ∃ y' : Nat, yLoop b c D n y' = .ok r ∧ (1 : ℝ) ≤ 2 * y + (b - D) ∧ Y - 1 < y' ∧
      ((y' : ℝ) - Y) * (2 * y + (b - D)) ≤ (y - Y) ^ 2 := by
  obtain ⟨y', h1, h2, h3, h4⟩ := yLoop_step h
  have g2 : (1 : ℝ) ≤ 2 * y + (b - D) := by exact_mod_cast h2
  have g3 : (y' : ℝ) * (2 * y + (b - D)) ≤ (y : ℝ) ^ 2 + c := by exact_mod_cast h3
  have g4 : (y : ℝ) ^ 2 + c < (y' + 1) * (2 * y + (b - D)) := by exact_mod_cast h4
  have key : (y : ℝ) ^ 2 + c - Y * (2 * y + (b - D)) = (y - Y) ^ 2 := by rw [← hY]; ring
  refine ⟨y', h1, g2, ?_, by rw [sub_mul]; linarith⟩
  have : Y * (2 * y + (b - D)) < (y' + 1) * (2 * y + (b - D)) := by
    have := sq_nonneg ((y : ℝ) - Y)
    linarith
  have := lt_of_mul_lt_mul_right this (by linarith)
  linarith

include hQ

theorem yStep_half (hQ0 : 0 ≤ Q) {n y r : Nat} {X : ℝ} (h : yLoop b c D (n + 1) y = .ok r)
    (hn : NearY Y X y) : ∃ y' : Nat, yLoop b c D n y' = .ok r ∧ NearY Y (X / 2) y' := by
  obtain ⟨y', h1, h2, h3, h4⟩ := yStep_real hY h
  refine ⟨y', h1, h3, ?_⟩
  obtain ⟨n1, n2⟩ := hn
  have hden : 2 * (y : ℝ) + (b - D) = Q + 2 * (y - Y) := by rw [hQ]; ring
  rcases le_total Y y with g | g
  · have half : (y' : ℝ) - Y ≤ (y - Y) / 2 := by
      refine le_of_mul_le_mul_right ?_ (by linarith : 0 < 2 * (y : ℝ) + (b - D))
      refine h4.trans ?_
      rw [hden]
      have : 0 ≤ (y - Y) / 2 * Q := mul_nonneg (by linarith) hQ0
      nlinarith
    rcases n2 with n2 | n2
    · exact .inl (by linarith)
    · exact .inr (by linarith)
  · right
    have e1 : ((y : ℝ) - Y) ^ 2 ≤ 1 := by nlinarith
    by_contra hc
    push Not at hc
    nlinarith

theorem yStep_square (hQ0 : 0 < Q) {n y r : Nat} {X : ℝ} (h : yLoop b c D (n + 1) y = .ok r)
    (hn : NearY Y X y) : ∃ y' : Nat, yLoop b c D n y' = .ok r ∧ NearY Y (X ^ 2 / Q) y' := by
  obtain ⟨y', h1, h2, h3, h4⟩ := yStep_real hY h
  refine ⟨y', h1, h3, ?_⟩
  obtain ⟨n1, n2⟩ := hn
  have hden : 2 * (y : ℝ) + (b - D) = Q + 2 * (y - Y) := by rw [hQ]; ring
  rcases le_total Y y with g | g
  · have e0 : 0 ≤ (y : ℝ) - Y := by linarith
    rcases n2 with n2 | n2
    · left
      have sq : ((y : ℝ) - Y) ^ 2 ≤ X ^ 2 := pow_le_pow_left₀ e0 n2 2
      rw [le_div_iff₀ hQ0]
      rcases le_total 0 ((y' : ℝ) - Y) with q | q
      · have : ((y' : ℝ) - Y) * Q ≤ (y' - Y) * (2 * y + (b - D)) :=
          mul_le_mul_of_nonneg_left (by rw [hden]; linarith) q
        linarith
      · have : ((y' : ℝ) - Y) * Q ≤ 0 := mul_nonpos_of_nonpos_of_nonneg q hQ0.le
        have := sq_nonneg X
        linarith
    · right
      by_contra hc
      push Not at hc
      rw [hden] at h4
      nlinarith
  · right
    have e1 : ((y : ℝ) - Y) ^ 2 ≤ 1 := by nlinarith
    by_contra hc
    push Not at hc
    nlinarith

theorem yHalves (hQ0 : 0 ≤ Q) {m r : Nat} : ∀ (k : Nat) {y : Nat} {X : ℝ},
    yLoop b c D (m + k) y = .ok r → NearY Y X y →
    ∃ y' : Nat, yLoop b c D m y' = .ok r ∧ NearY Y (X / 2 ^ k) y'
  | 0, y, X, h, hn => ⟨y, h, by simpa using hn⟩
  | k + 1, y, X, h, hn => by
    obtain ⟨y1, h1, n1⟩ := yStep_half hY hQ hQ0 (n := m + k) h hn
    obtain ⟨y2, h2, n2⟩ := yHalves hQ0 k h1 n1
    refine ⟨y2, h2, ?_⟩
    rwa [div_div, ← pow_succ'] at n2

/-- Seven rounds by squaring. -/
theorem ySquares (hQ0 : 0 < Q) (hQ2 : Q ≤ 2 ^ 128) {y r : Nat} (h : yLoop b c D 7 y = .ok r)
    (hn : NearY Y (Q / 2) y) : NearY Y 1 r := by
  have sq : ∀ (k : Nat), (Q / 2 ^ k) ^ 2 / Q = Q / 2 ^ (2 * k) := by
    intro k
    rw [pow_mul', div_pow]; field_simp
  have hn : NearY Y (Q / 2 ^ 1) y := by simpa using hn
  obtain ⟨y1, h1, n1⟩ := yStep_square hY hQ hQ0 h hn
  rw [sq] at n1
  obtain ⟨y2, h2, n2⟩ := yStep_square hY hQ hQ0 h1 n1
  rw [sq] at n2
  obtain ⟨y3, h3, n3⟩ := yStep_square hY hQ hQ0 h2 n2
  rw [sq] at n3
  obtain ⟨y4, h4, n4⟩ := yStep_square hY hQ hQ0 h3 n3
  rw [sq] at n4
  obtain ⟨y5, h5, n5⟩ := yStep_square hY hQ hQ0 h4 n4
  rw [sq] at n5
  obtain ⟨y6, h6, n6⟩ := yStep_square hY hQ hQ0 h5 n5
  rw [sq] at n6
  obtain ⟨y7, h7, n7⟩ := yStep_square hY hQ hQ0 h6 n6
  rw [sq] at n7
  have e : y7 = r := Res.ok.inj h7
  subst e
  obtain ⟨g1, g2⟩ := n7
  refine ⟨g1, .inr ?_⟩
  rcases g2 with g2 | g2
  · refine g2.trans ?_
    rw [div_le_one (by positivity)]
    exact hQ2.trans (le_of_eq (by norm_num))
  · exact g2

end

/-- The nonnegative solution of the quadratic. -/
theorem root_exists (β c : ℝ) (hc : 0 ≤ c) :
    ∃ Y, 0 ≤ Y ∧ Y ^ 2 + β * Y = c ∧ 0 ≤ 2 * Y + β ∧ (2 * Y + β) ^ 2 = β ^ 2 + 4 * c := by
  have h0 : 0 ≤ β ^ 2 + 4 * c := by positivity
  have hs := Real.sq_sqrt h0
  have hs0 := Real.sqrt_nonneg (β ^ 2 + 4 * c)
  have hb : β ≤ Real.sqrt (β ^ 2 + 4 * c) := Real.le_sqrt_of_sq_le (by linarith)
  refine ⟨(Real.sqrt (β ^ 2 + 4 * c) - β) / 2, by linarith, by nlinarith, by linarith, ?_⟩
  have : 2 * ((Real.sqrt (β ^ 2 + 4 * c) - β) / 2) + β = Real.sqrt (β ^ 2 + 4 * c) := by ring
  rw [this, hs]

/-- The first round, from `D`. -/
theorem yFirst {b c D : Nat} {Y : ℝ} (hY : Y ^ 2 + ((b : ℝ) - D) * Y = c) (hY0 : 0 ≤ Y)
    (hQ0 : 0 ≤ 2 * Y + ((b : ℝ) - D)) (hc : (c : ℝ) ≤ 2 ^ 44 * D ^ 2)
    {n r : Nat} (h : yLoop b c D (n + 1) D = .ok r) :
    ∃ y' : Nat, yLoop b c D n y' = .ok r ∧
      ((D < Y ∧ NearY Y (2 ^ 23 * Y) y') ∨ (Y ≤ D ∧ NearY Y (D / 2) y')) := by
  rcases lt_or_ge (D : ℝ) Y with g | g
  · obtain ⟨y', h1, h2, h3, h4⟩ := yStep_real hY h
    refine ⟨y', h1, .inl ⟨g, h3, .inl ?_⟩⟩
    have hb0 : (0 : ℝ) ≤ b := Nat.cast_nonneg b
    have hD0 : (0 : ℝ) ≤ D := Nat.cast_nonneg D
    have hYp : 0 < Y := by linarith
    have e0 : Y ^ 2 ≤ 2 ^ 44 * (D : ℝ) ^ 2 + D * Y := by nlinarith
    have hDp : (0 : ℝ) < D := by
      rcases hD0.eq_or_lt with e | e
      · rw [← e] at e0; nlinarith
      · exact e
    have e1 : Y ≤ 2 ^ 23 * D := by
      by_contra hcon
      push Not at hcon
      nlinarith
    have e2 : ((D : ℝ) - Y) ^ 2 ≤ Y ^ 2 := by nlinarith
    by_contra hcon
    push Not at hcon
    have e3 : (2 ^ 23 * Y) * D ≤ ((y' : ℝ) - Y) * (2 * D + (b - D)) :=
      mul_le_mul hcon.le (by linarith) hD0 (by nlinarith)
    have e4 : (2 ^ 23 * Y) * D < ((y' : ℝ) - Y) * D := mul_lt_mul_of_pos_right hcon hDp
    have e5 : ((y' : ℝ) - Y) * D ≤ ((y' : ℝ) - Y) * (2 * D + (b - D)) :=
      mul_le_mul_of_nonneg_left (by linarith) (by nlinarith)
    have e6 : Y * Y ≤ 2 ^ 23 * D * Y := mul_le_mul_of_nonneg_right e1 hY0
    nlinarith
  · obtain ⟨y', h1, h2⟩ := yStep_half hY rfl hQ0 (X := D) h ⟨by linarith, .inl (by linarith)⟩
    exact ⟨y', h1, .inr ⟨g, h2⟩⟩

/-- Where 32 rounds are enough. -/
theorem yLoop_close {b c D : Nat} {Y Q : ℝ} (hY : Y ^ 2 + ((b : ℝ) - D) * Y = c) (hY0 : 0 ≤ Y)
    (hQ : Q = 2 * Y + (b - D)) (hQ0 : 0 ≤ Q) (hQ2 : Q ≤ 2 ^ 128) (hc : (c : ℝ) ≤ 2 ^ 44 * D ^ 2)
    (hDQ : (D : ℝ) ≤ 2 ^ 24 * Q ∨ (D : ℝ) ≤ 2 ^ 30) {r : Nat} (h : yLoop b c D 32 D = .ok r) :
    NearY Y 1 r := by
  obtain ⟨y1, h1, n1⟩ := yFirst hY hY0 (hQ ▸ hQ0) hc h
  have hD0 : (0 : ℝ) ≤ D := Nat.cast_nonneg D
  have squares : 0 < Q → ∀ X, X ≤ 2 ^ 23 * Q → NearY Y X y1 → NearY Y 1 r := by
    intro hQp X hX hn
    obtain ⟨y2, h2, n2⟩ := yHalves hY hQ hQ0 (m := 7) 24 h1 hn
    refine ySquares hY hQ hQp hQ2 h2 ⟨n2.1, n2.2.imp (fun g => g.trans ?_) id⟩
    rw [div_le_iff₀ (by positivity)]
    linarith
  rcases n1 with ⟨g, n1⟩ | ⟨g, n1⟩
  · have hYQ : Y ≤ Q := by
      by_contra hcon
      push Not at hcon
      have : Y * (Y + (b - D)) < 0 := mul_neg_of_pos_of_neg (by linarith) (by linarith)
      have : (0 : ℝ) ≤ c := Nat.cast_nonneg c
      nlinarith
    exact squares (by linarith) _ (by linarith) n1
  · rcases hDQ with hDQ | hDQ
    · rcases hQ0.eq_or_lt with e | e
      · obtain ⟨y2, h2, n2⟩ := yHalves hY hQ hQ0 (m := 0) 31 h1 n1
        have e2 : y2 = r := Res.ok.inj h2
        subst e2
        refine ⟨n2.1, .inr ?_⟩
        rcases n2.2 with q | q
        · rw [← e] at hDQ
          have : (D : ℝ) = 0 := by linarith
          rw [this] at q
          norm_num at q
          linarith
        · exact q
      · exact squares e _ (by linarith) n1
    · obtain ⟨y2, h2, n2⟩ := yHalves hY hQ hQ0 (m := 0) 31 h1 n1
      have e2 : y2 = r := Res.ok.inj h2
      subst e2
      refine ⟨n2.1, .inr ?_⟩
      rcases n2.2 with q | q
      · refine q.trans ?_
        rw [div_le_one (by positivity)]
        linarith
      · exact q

/-- The size of the discriminant. -/
theorem disc_large {x D L c β : ℝ} (hx : 0 < x) (hL : 1 ≤ L) (hL46 : L ≤ 2 ^ 46) (hD : 0 ≤ D)
    (hc : D ^ 3 / (4 * x * L) ≤ c + 1) (hβ : x - D ≤ β) {Q : ℝ} (hQ0 : 0 ≤ Q)
    (hQ : Q ^ 2 = β ^ 2 + 4 * c) (hc0 : 0 ≤ c) : D ≤ 2 ^ 24 * Q ∨ D ≤ 2 ^ 30 := by
  by_contra hcon
  push Not at hcon
  obtain ⟨g1, g2⟩ := hcon
  have g3 : (2 ^ 24 * Q) ^ 2 < D ^ 2 := pow_lt_pow_left₀ g1 (by positivity) (by norm_num)
  have q1 : 0 ≤ β ^ 2 := sq_nonneg _
  rcases le_total (2 * D) x with g | g
  · have : D ^ 2 ≤ β ^ 2 := pow_le_pow_left₀ hD (by linarith) 2
    nlinarith
  · have e1 : D ^ 3 / (4 * (2 * D) * 2 ^ 46) ≤ D ^ 3 / (4 * x * L) := by
      refine div_le_div_of_nonneg_left (by positivity) (by positivity) ?_
      refine mul_le_mul (by linarith) hL46 (by linarith) (by positivity)
    have e2 : D ^ 3 / (4 * (2 * D) * 2 ^ 46) = D ^ 2 / (8 * 2 ^ 46) := by
      have : 0 < D := by linarith
      field_simp
      try ring
    rw [e2] at e1
    have e3 : D ^ 2 ≤ (c + 1) * (8 * 2 ^ 46) := by
      rw [← div_le_iff₀ (by positivity)]
      linarith
    have e4 : (2 ^ 30 : ℝ) * 2 ^ 30 ≤ D ^ 2 := by nlinarith
    nlinarith

end Stable
end Verif
