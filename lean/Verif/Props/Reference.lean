import Mathlib.Tactic.NormNum
import Verif.Spec.Reference
import Verif.Lemmas.Stable
import Verif.Lemmas.Rest

/-
C95: the stable curve's two iterations are those of the reference model, 32 rounds of them.
-/

namespace Verif
namespace Props

open Stable Spec

theorem dLoop_rounds {L x y n d r : Nat}
    (h : dLoop L (x + y) (2 * x + 1) (2 * y + 1) n d = .ok r) :
    (r : ℤ) = (roundD L x y)^[n] d := by
  induction n generalizing d with
  | zero => unfold dLoop at h; rw [Res.ok.inj h]; rfl
  | succ n ih =>
    rw [dLoop] at h
    rw [Res.bind_eq_ok] at h
    obtain ⟨p1, hp1, h⟩ := h
    rw [Res.bind_eq_ok] at h
    obtain ⟨p2, hp2, h⟩ := h
    rw [Res.bind_eq_ok] at h
    obtain ⟨p3, hp3, h⟩ := h
    rw [Res.bind_eq_ok] at h
    obtain ⟨p4, hp4, h⟩ := h
    rw [Res.bind_eq_ok] at h
    obtain ⟨d', hd', h⟩ := h
    have e1 := (cmul_eq_ok.1 hp1).2
    have e2 := (cdiv_eq_ok.1 hp2).2
    have e3 := (cmul_eq_ok.1 hp3).2
    have e4 := (cdiv_eq_ok.1 hp4).2
    obtain ⟨hL, hden, e5⟩ := calculateStep_ok hd'
    have step : roundD L x y d = d' := by
      unfold roundD
      have hp : (d : ℤ) * d / (2 * x + 1) * d / (2 * y + 1) = (p4 : ℤ) := by
        rw [e4, e3, e2, e1]; push_cast; rfl
      simp only [hp]
      rw [e5]
      push_cast [Nat.cast_sub hL]
      rw [mul_comm (d : ℤ) ((L : ℤ) - 1)]
    rw [Function.iterate_succ_apply, step]
    split at h
    · rename_i hfix
      have hr := Res.ok.inj h
      rw [hfix] at step
      rw [← hr, hfix, Function.iterate_fixed step]
    · exact ih h

theorem yLoop_rounds {b c D n y r : Nat} (h : yLoop b c D n y = .ok r) :
    (r : ℤ) = (roundY ((b : ℤ) - D) c)^[n] y := by
  induction n generalizing y with
  | zero => unfold yLoop at h; rw [Res.ok.inj h]; rfl
  | succ n ih =>
    rw [yLoop] at h
    rw [Res.bind_eq_ok] at h
    obtain ⟨y2, h1, h⟩ := h
    rw [Res.bind_eq_ok] at h
    obtain ⟨num, h2, h⟩ := h
    rw [Res.bind_eq_ok] at h
    obtain ⟨t, h3, h⟩ := h
    rw [Res.bind_eq_ok] at h
    obtain ⟨t2, h4, h⟩ := h
    rw [Res.bind_eq_ok] at h
    obtain ⟨den, h5, h⟩ := h
    rw [Res.bind_eq_ok] at h
    obtain ⟨y', h6, h⟩ := h
    have e1 := u8Power_two h1
    have e2 := (cadd_eq_ok.1 h2).2
    have e3 := u8Mul_two h3
    have e4 := (cadd_eq_ok.1 h4).2
    obtain ⟨e5, e6⟩ := csub_eq_ok.1 h5
    obtain ⟨e7, e8⟩ := cdiv_eq_ok.1 h6
    have step : roundY ((b : ℤ) - D) c y = y' := by
      unfold roundY
      have hden : (2 : ℤ) * y + ((b : ℤ) - D) = den := by omega
      rw [hden, e8, e2, e1]
      push_cast
      rw [sq]
    rw [Function.iterate_succ_apply, step]
    split at h
    · rename_i hfix
      have hr := Res.ok.inj h
      rw [hfix] at step
      rw [← hr, hfix, Function.iterate_fixed step]
    · exact ih h

/-- The invariant the program computes is what the reference has after 32 rounds from the sum of
the balances: stopping early, as soon as a round changes nothing, makes no difference. -/
theorem C95_invariant_partial {L x y d : Nat} (hs : 0 < x + y) (h : computeD L x y = .ok d) :
    (d : ℤ) = (roundD L x y)^[32] ((x : ℤ) + y) := by
  unfold computeD at h
  rw [Res.bind_eq_ok] at h
  obtain ⟨a1, ha1, h⟩ := h
  rw [Res.bind_eq_ok] at h
  obtain ⟨a2, ha2, h⟩ := h
  rw [Res.bind_eq_ok] at h
  obtain ⟨b1, hb1, h⟩ := h
  rw [Res.bind_eq_ok] at h
  obtain ⟨b2, hb2, h⟩ := h
  rw [Res.bind_eq_ok] at h
  obtain ⟨S, hS, h⟩ := h
  have e1 := u8Mul_two ha1
  have e2 := (cadd_eq_ok.1 ha2).2
  have e3 := u8Mul_two hb1
  have e4 := (cadd_eq_ok.1 hb2).2
  have e5 := (cadd_eq_ok.1 hS).2
  subst e1 e2 e3 e4 e5
  rw [if_neg (by omega), Res.bind_eq_ok] at h
  obtain ⟨d', hd, h⟩ := h
  have e6 : d = d' := (tryUint_eq_ok.1 h).2
  rw [e6, dLoop_rounds hd]
  push_cast
  rfl

/-- The balance left on the paying side is the 32nd round of the reference for its quadratic, and never
less than one unit below the solution. -/
theorem destination_rounds {L x D y : Nat} (h : computeNewDestination L x D = .ok y) :
    (y : ℤ) = (roundY ((x : ℤ) + D / L - D) ((D : ℤ) ^ 3 / (4 * x * L)))^[32] D ∧
    (D : ℤ) ^ 3 / (4 * x * L) < ((y : ℤ) + 1) ^ 2 + ((x : ℤ) + D / L - D) * ((y : ℤ) + 1) := by
  unfold computeNewDestination at h
  rw [Res.bind_eq_ok] at h
  obtain ⟨d3, h1, h⟩ := h
  rw [Res.bind_eq_ok] at h
  obtain ⟨x4, h2, h⟩ := h
  rw [Res.bind_eq_ok] at h
  obtain ⟨den, h3, h⟩ := h
  rw [Res.bind_eq_ok] at h
  obtain ⟨c, h4, h⟩ := h
  rw [Res.bind_eq_ok] at h
  obtain ⟨dl, h5, h⟩ := h
  rw [Res.bind_eq_ok] at h
  obtain ⟨b, h6, h⟩ := h
  rw [Res.bind_eq_ok] at h
  obtain ⟨y', h7, h⟩ := h
  have e1 := u8Power_three h1
  have e2 := u8Mul_four h2
  have e3 := (cmul_eq_ok.1 h3).2
  obtain ⟨e4, e5⟩ := cdiv_eq_ok.1 h4
  obtain ⟨e6, e7⟩ := cdiv_eq_ok.1 h5
  have e8 := (cadd_eq_ok.1 h6).2
  have e9 : y = y' := (tryUint_eq_ok.1 h).2
  have hc : (D : ℤ) ^ 3 / (4 * x * L) = c := by
    rw [e5, e3, e2, e1]; push_cast
    rw [pow_succ, sq]
  have hb : (x : ℤ) + D / L - D = (b : ℤ) - D := by rw [e8, e7]; push_cast; rfl
  rw [hc, hb, e9]
  have key := yLoop_ok (n := 31) h7
  exact ⟨yLoop_rounds h7, by nlinarith⟩

/-- The balance left on the paying side is what the reference's iteration has after 32 rounds from
`D`, for the quadratic `y² + (x + ⌊D/L⌋ - D)·y = ⌊D³/(4xL)⌋`.  If a further round would change
nothing it is the solution of that equation rounded down. -/
theorem C95_destination_partial {L x D y : Nat} (h : computeNewDestination L x D = .ok y) :
    (y : ℤ) = (roundY ((x : ℤ) + D / L - D) ((D : ℤ) ^ 3 / (4 * x * L)))^[32] D ∧
    (roundY ((x : ℤ) + D / L - D) ((D : ℤ) ^ 3 / (4 * x * L)) y = y →
      0 < 2 * (y : ℤ) + ((x : ℤ) + D / L - D) →
      RootOf ((x : ℤ) + D / L - D) ((D : ℤ) ^ 3 / (4 * x * L)) y) := by
  obtain ⟨h1, h2⟩ := destination_rounds h
  refine ⟨h1, fun hfix hpos => ⟨?_, h2⟩⟩
  have := Int.ediv_mul_le ((y : ℤ) ^ 2 + (D : ℤ) ^ 3 / (4 * x * L)) hpos.ne'
  unfold roundY at hfix
  rw [hfix] at this
  nlinarith

/-- How accurate that is.  The invariant is never more than one unit too small.  If a further round would
take off no more than one unit, it is too large by at most `4 + 2x/d + d/2x + d/2y`, which is seven units
for equal balances. -/
theorem C95_accuracy_partial {L x y d : Nat} (hL : 2 ≤ L) (hx : 0 < x) (hy : 0 < y) (hd : 0 < d)
    (h : computeD L x y = .ok d) (hr : (d : ℤ) - 1 ≤ roundD L x y d) :
    (∀ D : ℝ, 0 ≤ D → StableAtLeast L x y D → D < d + 1) ∧
    StableAtLeast L x y (d - (4 + 2 * x / d + d / (2 * x) + d / (2 * y))) := by
  refine ⟨fun D hD hat => computeD_ok hx hy hD hat h, ?_⟩
  unfold roundD at hr
  simp only [] at hr
  set p1 : ℤ := (d : ℤ) * d / (2 * x + 1) with hp1
  set p : ℤ := p1 * d / (2 * y + 1) with hp
  have hp10 : 0 ≤ p1 := Int.ediv_nonneg (by positivity) (by positivity)
  have hp0 : 0 ≤ p := Int.ediv_nonneg (by positivity) (by positivity)
  have hden : 0 < ((L : ℤ) - 1) * d + 3 * p := by
    have : 0 < ((L : ℤ) - 1) * d := mul_pos (by omega) (by omega)
    omega
  have a1 : (d : ℤ) * d < (p1 + 1) * (2 * x + 1) := Int.lt_ediv_add_one_mul_self _ (by omega)
  have a2 : p1 * d < (p + 1) * (2 * y + 1) := Int.lt_ediv_add_one_mul_self _ (by omega)
  have a3 : p1 * (2 * x + 1) ≤ (d : ℤ) * d := Int.ediv_mul_le _ (by omega)
  have a4 : p * (2 * y + 1) ≤ p1 * d := Int.ediv_mul_le _ (by omega)
  have a5 : ((d : ℤ) - 1) * (((L : ℤ) - 1) * d + 3 * p) ≤ (L * (x + y) + 2 * p) * d := by
    have := (Int.le_ediv_iff_mul_le hden).1 hr
    exact this
  have hxR : (0 : ℝ) < x := by exact_mod_cast hx
  have hyR : (0 : ℝ) < y := by exact_mod_cast hy
  have hdR : (0 : ℝ) < d := by exact_mod_cast hd
  have hp1R : (0 : ℝ) ≤ p1 := by exact_mod_cast hp10
  have hpR : (0 : ℝ) ≤ p := by exact_mod_cast hp0
  have b3 : (p1 : ℝ) * (2 * x + 1) ≤ d * d := by exact_mod_cast a3
  have b4 : (p : ℝ) * (2 * y + 1) ≤ p1 * d := by exact_mod_cast a4
  refine rest_d (p := p) (by exact_mod_cast hL) hxR hyR hdR
    (floor_prod (p1 := p1) hxR hyR hdR (by exact_mod_cast a1) (by exact_mod_cast a2)) ?_
    (by exact_mod_cast a5)
  rw [le_div_iff₀ (by positivity)]
  have c1 : (p1 : ℝ) * (2 * x) ≤ d * d := by nlinarith
  have c2 : (p : ℝ) * (2 * y) ≤ p1 * d := by nlinarith
  have c3 := mul_le_mul_of_nonneg_right c2 (by positivity : (0 : ℝ) ≤ 2 * x)
  have c4 := mul_le_mul_of_nonneg_right c1 hdR.le
  nlinarith

/-- The same for the balance left on the paying side: if a further round would take off no more than one
unit it is at most two units above the solution of its equation, and always less than one below. -/
theorem C95_close_partial {L x D y : Nat} (h : computeNewDestination L x D = .ok y) (b c : ℤ)
    (hb : b = (x : ℤ) + D / L - D) (hc : c = (D : ℤ) ^ 3 / (4 * x * L))
    (hr : (y : ℤ) - 1 ≤ roundY b c y) (hpos : 4 ≤ 2 * (y : ℤ) + b) :
    ((y : ℤ) - 2) ^ 2 + b * ((y : ℤ) - 2) ≤ c ∧ c < ((y : ℤ) + 1) ^ 2 + b * ((y : ℤ) + 1) := by
  have h2 := (destination_rounds h).2
  rw [← hb, ← hc] at h2
  refine ⟨?_, h2⟩
  unfold roundY at hr
  have := (Int.le_ediv_iff_mul_le (by omega)).1 hr
  nlinarith

/-- A swap on a stable pool pays out what these two computations say, nothing else. -/
theorem C95_swap_partial {amp : UInt64} {s x y : Nat} {q : SwapWithoutFeesResult} (hs : 0 < x + y)
    (h : swapWithoutFees amp s x y = .ok q) :
    ∃ D Y : ℤ, D = (roundD (2 * amp.toNat) x y)^[32] ((x : ℤ) + y) ∧
      Y = (roundY ((x : ℤ) + s + D / (2 * amp.toNat) - D)
        (D ^ 3 / (4 * ((x : ℤ) + s) * (2 * amp.toNat))))^[32] D ∧
      q.source_amount_swapped = s ∧ (q.destination_amount_swapped : ℤ) = y - Y := by
  unfold swapWithoutFees at h
  rw [Res.bind_eq_ok] at h
  obtain ⟨L, hL, h⟩ := h
  rw [Res.bind_eq_ok] at h
  obtain ⟨ns, hns, h⟩ := h
  rw [Res.bind_eq_ok] at h
  obtain ⟨d, hd, h⟩ := h
  rw [Res.bind_eq_ok] at h
  obtain ⟨nd, hnd, h⟩ := h
  rw [Res.bind_eq_ok] at h
  obtain ⟨o, ho, h⟩ := h
  have e1 : L = 2 * amp.toNat := by rw [(cmul_eq_ok.1 hL).2, Nat.mul_comm]
  have e2 := (cadd_eq_ok.1 hns).2
  obtain ⟨e3, e4⟩ := csub_eq_ok.1 ho
  have eq := Res.ok.inj h
  refine ⟨d, nd, ?_, ?_, by rw [← eq], ?_⟩
  · have := C95_invariant_partial hs hd
    rw [this, e1]; push_cast; rfl
  · have := (C95_destination_partial hnd).1
    rw [this, e1, e2]; push_cast; rfl
  · rw [← eq]; show (o : ℤ) = _; omega

/-- Ordinary pool: amplification 100, balances 1,000,000 and 2,000,000; 50,000 are sold. -/
example : computeD 200 1000000 2000000 = .ok 2998147 ∧
    swapWithoutFees 100 50000 1000000 2000000 = .ok ⟨50000, 50387⟩ ∧
    roundD 200 1000000 2000000 2998147 = 2998147 ∧
    roundY (1050000 + 2998147 / 200 - 2998147) (2998147 ^ 3 / (4 * 1050000 * 200)) 1949613 = 1949613 ∧
    (0 : ℤ) < 2 * 1949613 + (1050000 + 2998147 / 200 - 2998147) := by decide +kernel

/-- There a further round changes nothing, and the invariant is exact to about eight units, -/
example (D : ℝ) (hD : 0 ≤ D) (h : StableAtLeast (200 : Nat) (1000000 : Nat) (2000000 : Nat) D) :
    D < 2998148 := by
  have := (C95_accuracy_partial (L := 200) (x := 1000000) (y := 2000000) (d := 2998147) (by decide)
    (by decide) (by decide) (by decide) (by decide +kernel) (by decide +kernel)).1 D hD h
  norm_num at this ⊢
  linarith

example : StableAtLeast (200 : Nat) (1000000 : Nat) (2000000 : Nat)
    ((2998147 : Nat) - (4 + 2 * (1000000 : Nat) / (2998147 : Nat) + (2998147 : Nat) /
      (2 * (1000000 : Nat)) + (2998147 : Nat) / (2 * (2000000 : Nat)))) :=
  (C95_accuracy_partial (L := 200) (x := 1000000) (y := 2000000) (d := 2998147) (by decide)
    (by decide) (by decide) (by decide) (by decide +kernel) (by decide +kernel)).2

/-- and the balance after selling 50,000 to two. -/
example : ∃ b c : ℤ, ((1949613 : ℤ) - 2) ^ 2 + b * (1949613 - 2) ≤ c ∧
    c < (1949613 + 1) ^ 2 + b * (1949613 + 1) :=
  ⟨_, _, C95_close_partial (L := 200) (x := 1050000) (D := 2998147) (y := 1949613)
    (by decide +kernel) _ _ rfl rfl (by decide +kernel) (by decide +kernel)⟩

/-- 32 rounds are not always enough.  With amplification 1 and balances 1 and 2^64 - 1 the reference
comes to rest after 39 rounds; the program stops at an invariant more than twice as large, and a
pool whose invariant is half of what it computes is already out of reach. -/
theorem C95_false :
    computeD 2 1 (2 ^ 64 - 1) = .ok 43224131147356 ∧
    (roundD 2 1 (2 ^ 64 - 1))^[39] (2 ^ 64) = 15983559458906 ∧
    roundD 2 1 (2 ^ 64 - 1) 15983559458906 = 15983559458906 ∧
    ¬ StableAtLeast 2 1 (2 ^ 64 - 1) (43224131147356 / 2) := by
  refine ⟨by decide +kernel, by decide +kernel, by decide +kernel, ?_⟩
  unfold StableAtLeast
  norm_num

end Props
end Verif
