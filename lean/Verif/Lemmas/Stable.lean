import Mathlib.Tactic.Ring
import Mathlib.Tactic.Linarith
import Mathlib.Tactic.Positivity
import Verif.Spec.Stable
import Verif.Lemmas.Curves

/-
The Newton iterations of the stable curve never end below the exact solution (rounded down).
-/

namespace Verif
namespace Stable

theorem u8Mul_two {a r : Nat} (h : u8Mul a 2 = .ok r) : r = 2 * a := by
  unfold u8Mul at h
  rw [show u8Mul a 1 = .ok a from rfl, Res.ok_bind] at h
  have := (cadd_eq_ok.1 h).2
  omega

theorem u8Mul_three {a r : Nat} (h : u8Mul a 3 = .ok r) : r = 3 * a := by
  unfold u8Mul at h
  rw [Res.bind_eq_ok] at h
  obtain ⟨t, ht, h⟩ := h
  have := u8Mul_two ht
  have := (cadd_eq_ok.1 h).2
  omega

theorem u8Mul_four {a r : Nat} (h : u8Mul a 4 = .ok r) : r = 4 * a := by
  unfold u8Mul at h
  rw [Res.bind_eq_ok] at h
  obtain ⟨t, ht, h⟩ := h
  have := u8Mul_three ht
  have := (cadd_eq_ok.1 h).2
  omega

theorem u8Power_two {a r : Nat} (h : u8Power a 2 = .ok r) : r = a * a := by
  unfold u8Power at h
  rw [show u8Power a 1 = .ok a from rfl, Res.ok_bind] at h
  exact (cmul_eq_ok.1 h).2

theorem u8Power_three {a r : Nat} (h : u8Power a 3 = .ok r) : r = a * a * a := by
  unfold u8Power at h
  rw [Res.bind_eq_ok] at h
  obtain ⟨t, ht, h⟩ := h
  rw [← u8Power_two ht]
  exact (cmul_eq_ok.1 h).2

theorem calculateStep_ok {d L S p r : Nat} (h : calculateStep d L S p = .ok r) :
    1 ≤ L ∧ 0 < d * (L - 1) + 3 * p ∧ r = (L * S + 2 * p) * d / (d * (L - 1) + 3 * p) := by
  unfold calculateStep at h
  rw [Res.bind_eq_ok] at h
  obtain ⟨lm, hlm, h⟩ := h
  rw [Res.bind_eq_ok] at h
  obtain ⟨dpm, hdpm, h⟩ := h
  rw [Res.bind_eq_ok] at h
  obtain ⟨s, hs, h⟩ := h
  rw [Res.bind_eq_ok] at h
  obtain ⟨lv, hlv, h⟩ := h
  rw [Res.bind_eq_ok] at h
  obtain ⟨l1, hl1, h⟩ := h
  rw [Res.bind_eq_ok] at h
  obtain ⟨ls, hls, h⟩ := h
  rw [Res.bind_eq_ok] at h
  obtain ⟨ns, hns, h⟩ := h
  rw [Res.bind_eq_ok] at h
  obtain ⟨rv, hrv, h⟩ := h
  have e1 := (cmul_eq_ok.1 hlm).2
  have e2 := u8Mul_two hdpm
  have e3 := (cadd_eq_ok.1 hs).2
  have e4 := (cmul_eq_ok.1 hlv).2
  obtain ⟨e5, e6⟩ := csub_eq_ok.1 hl1
  have e7 := (cmul_eq_ok.1 hls).2
  have e8 := u8Mul_three hns
  have e9 := (cadd_eq_ok.1 hrv).2
  obtain ⟨e10, e11⟩ := cdiv_eq_ok.1 h
  subst e1 e2 e3 e4 e6 e7 e8 e9
  exact ⟨e5, by omega, e11⟩

/-- One exact Newton step from any point ends at or above every point the invariant reaches; taking
the cubic term `q` too small only moves it further up. -/
theorem newton_d {L x y d q D : ℝ} (hx : 0 < x) (hy : 0 < y) (hd : 0 ≤ d) (hq : 0 ≤ q)
    (hqd : q * (4 * x * y) ≤ d ^ 3) (hD : 0 ≤ D) (h : Spec.StableAtLeast L x y D) :
    D * (d * (L - 1) + 3 * q) ≤ (L * (x + y) + 2 * q) * d := by
  unfold Spec.StableAtLeast at h
  have hP : 0 < 4 * x * y := by positivity
  rcases hd.lt_or_eq with hd | rfl
  swap
  · have hq0 : q = 0 := by
      have h1 : q * (4 * x * y) ≤ 0 := by simpa using hqd
      rcases hq.lt_or_eq with h2 | h2
      · have := mul_pos h2 hP
        linarith
      · exact h2.symm
    rw [hq0]
    simp
  -- the inequality is linear in `q` and holds at both ends of the range
  by_contra hc
  rw [not_le] at hc
  have h0 : D * (L - 1) ≤ L * (x + y) := by
    have : 0 ≤ 4 * x * y * (L * (x + y - D) + D) := le_trans (by positivity) h
    have := nonneg_of_mul_nonneg_right this hP
    linarith
  -- at `q = d³/P`
  have h1 : D * (d * (L - 1) * (4 * x * y) + 3 * d ^ 3) ≤
      (L * (x + y) * (4 * x * y) + 2 * d ^ 3) * d := by
    have h2 : 0 ≤ d * (4 * x * y * (L * (x + y - D) + D) - D ^ 3) :=
      mul_nonneg hd.le (by linarith)
    have h3 : 0 ≤ d * (D - d) ^ 2 * (D + 2 * d) := by positivity
    nlinarith
  -- convex combination
  set P := 4 * x * y
  have h4 : 0 ≤ q * P := by positivity
  have h5 : 0 ≤ d ^ 3 - q * P := by linarith
  have h6 : 0 < d ^ 3 := by positivity
  have h7 : 0 ≤ (d ^ 3 - q * P) * (L * (x + y) * d - D * (d * (L - 1))) := by
    apply mul_nonneg h5
    have := mul_le_mul_of_nonneg_right h0 hd.le
    linarith
  have h8 : 0 ≤ q * ((L * (x + y) * P + 2 * d ^ 3) * d - D * (d * (L - 1) * P + 3 * d ^ 3)) :=
    mul_nonneg hq (by linarith)
  have h9 : 0 < d ^ 3 * (D * (d * (L - 1) + 3 * q) - (L * (x + y) + 2 * q) * d) :=
    mul_pos h6 (by linarith)
  nlinarith

/-- The loop for `D` runs at least once and each pass ends above the exact invariant minus one. -/
theorem dLoop_ok {L x y n d r : Nat} {D : ℝ} (hx : 0 < x) (hy : 0 < y) (hD : 0 ≤ D)
    (hat : Spec.StableAtLeast L x y D)
    (h : dLoop L (x + y) (2 * x + 1) (2 * y + 1) (n + 1) d = .ok r) : D < r + 1 := by
  induction n generalizing d with
  | zero =>
    unfold dLoop at h
    rw [Res.bind_eq_ok] at h
    obtain ⟨p1, hp1, h⟩ := h
    rw [Res.bind_eq_ok] at h
    obtain ⟨p2, hp2, h⟩ := h
    rw [Res.bind_eq_ok] at h
    obtain ⟨p3, hp3, h⟩ := h
    rw [Res.bind_eq_ok] at h
    obtain ⟨p4, hp4, h⟩ := h
    rw [Res.bind_eq_ok] at h
    obtain ⟨d', hd', h⟩ := h
    have e : d' = r := by
      split at h
      · exact Res.ok.inj h
      · unfold dLoop at h; exact Res.ok.inj h
    subst e
    exact step hx hy hD hat hp1 hp2 hp3 hp4 hd'
  | succ n ih =>
    rw [dLoop] at h
    rw [Res.bind_eq_ok] at h
    obtain ⟨p1, hp1, h⟩ := h
    rw [Res.bind_eq_ok] at h
    obtain ⟨p2, hp2, h⟩ := h
    rw [Res.bind_eq_ok] at h
    obtain ⟨p3, hp3, h⟩ := h
    rw [Res.bind_eq_ok] at h
    obtain ⟨p4, hp4, h⟩ := h
    rw [Res.bind_eq_ok] at h
    obtain ⟨d', hd', h⟩ := h
    split at h
    · rw [← Res.ok.inj h]
      exact step hx hy hD hat hp1 hp2 hp3 hp4 hd'
    · exact ih h
where
  step {L x y d p1 p2 p3 p4 d' : Nat} {D : ℝ} (hx : 0 < x) (hy : 0 < y) (hD : 0 ≤ D)
    (hat : Spec.StableAtLeast L x y D) (hp1 : cmul U256 d d = .ok p1)
    (hp2 : cdiv p1 (2 * x + 1) = .ok p2) (hp3 : cmul U256 p2 d = .ok p3)
    (hp4 : cdiv p3 (2 * y + 1) = .ok p4) (hd' : calculateStep d L (x + y) p4 = .ok d') :
    D < d' + 1 := by
    have e1 := (cmul_eq_ok.1 hp1).2
    have e2 := (cdiv_eq_ok.1 hp2).2
    have e3 := (cmul_eq_ok.1 hp3).2
    have e4 := (cdiv_eq_ok.1 hp4).2
    obtain ⟨hL, hden, e5⟩ := calculateStep_ok hd'
    have q1 : p2 * (2 * x + 1) ≤ d * d := by rw [e2, ← e1]; exact Nat.div_mul_le_self _ _
    have q2 : p4 * (2 * y + 1) ≤ p2 * d := by rw [e4, ← e3]; exact Nat.div_mul_le_self _ _
    have q3 : p4 * (4 * x * y) ≤ d ^ 3 := by
      calc p4 * (4 * x * y) ≤ p4 * (2 * y + 1) * (2 * x + 1) := by nlinarith [Nat.zero_le p4, Nat.zero_le (p4 * x), Nat.zero_le (p4 * y)]
        _ ≤ p2 * d * (2 * x + 1) := Nat.mul_le_mul_right _ q2
        _ = p2 * (2 * x + 1) * d := by ring
        _ ≤ d * d * d := Nat.mul_le_mul_right _ q1
        _ = d ^ 3 := by ring
    have q3' : (p4 : ℝ) * (4 * x * y) ≤ (d : ℝ) ^ 3 := by exact_mod_cast q3
    have key := newton_d (L := L) (x := x) (y := y) (d := d) (q := p4)
      (by exact_mod_cast hx) (by exact_mod_cast hy) (Nat.cast_nonneg _) (Nat.cast_nonneg _) q3' hD hat
    have hlt : (L * (x + y) + 2 * p4) * d < (d' + 1) * (d * (L - 1) + 3 * p4) := by
      rw [Nat.mul_comm (d' + 1), e5]
      exact Nat.lt_mul_div_succ _ hden
    have hlt' : ((L : ℝ) * (x + y) + 2 * p4) * d < (d' + 1) * (d * (L - 1) + 3 * p4) := by
      have : (((L * (x + y) + 2 * p4) * d : Nat) : ℝ) < (((d' + 1) * (d * (L - 1) + 3 * p4) : Nat) : ℝ) :=
        Nat.cast_lt.2 hlt
      push_cast [Nat.cast_sub hL] at this
      exact this
    have hden' : (0 : ℝ) < d * (L - 1) + 3 * p4 := by
      have : ((0 : Nat) : ℝ) < ((d * (L - 1) + 3 * p4 : Nat) : ℝ) := Nat.cast_lt.2 hden
      push_cast [Nat.cast_sub hL] at this
      exact this
    exact lt_of_mul_lt_mul_right (lt_of_le_of_lt key hlt') hden'.le

theorem computeD_ok {L x y r : Nat} {D : ℝ} (hx : 0 < x) (hy : 0 < y) (hD : 0 ≤ D)
    (hat : Spec.StableAtLeast L x y D) (h : computeD L x y = .ok r) : D < r + 1 := by
  unfold computeD at h
  rw [Res.bind_eq_ok] at h
  obtain ⟨a1, ha1, h⟩ := h
  rw [Res.bind_eq_ok] at h
  obtain ⟨a2, ha2, h⟩ := h
  rw [Res.bind_eq_ok] at h
  obtain ⟨b1, hb1, h⟩ := h
  rw [Res.bind_eq_ok] at h
  obtain ⟨b2, hb2, h⟩ := h
  rw [Res.bind_eq_ok] at h
  obtain ⟨S, hS, h⟩ := h
  have e1 := u8Mul_two ha1
  have e2 := (cadd_eq_ok.1 ha2).2
  have e3 := u8Mul_two hb1
  have e4 := (cadd_eq_ok.1 hb2).2
  have e5 := (cadd_eq_ok.1 hS).2
  subst e1 e2 e3 e4 e5
  rw [if_neg (by omega), Res.bind_eq_ok] at h
  obtain ⟨d, hd, h⟩ := h
  have e6 : r = d := (tryUint_eq_ok.1 h).2
  rw [e6]
  exact dLoop_ok (n := 31) hx hy hD hat hd

theorem yLoop_ok {b c D n y r : Nat} (h : yLoop b c D (n + 1) y = .ok r) :
    (c : ℤ) + 1 ≤ (r + 1) * (r + 1) + (r + 1) * ((b : ℤ) - D) := by
  have step : ∀ {y y2 num t t2 den y' : Nat}, u8Power y 2 = .ok y2 → cadd U256 y2 c = .ok num →
      u8Mul y 2 = .ok t → cadd U256 t b = .ok t2 → csub t2 D = .ok den → cdiv num den = .ok y' →
      (c : ℤ) + 1 ≤ (y' + 1) * (y' + 1) + (y' + 1) * ((b : ℤ) - D) := by
    intro y y2 num t t2 den y' h1 h2 h3 h4 h5 h6
    have e1 := u8Power_two h1
    have e2 := (cadd_eq_ok.1 h2).2
    have e3 := u8Mul_two h3
    have e4 := (cadd_eq_ok.1 h4).2
    obtain ⟨e5, e6⟩ := csub_eq_ok.1 h5
    obtain ⟨e7, e8⟩ := cdiv_eq_ok.1 h6
    have hlt : num < den * (y' + 1) := by
      rw [e8]; exact Nat.lt_mul_div_succ _ (Nat.pos_of_ne_zero e7)
    have hlt' : (num : ℤ) + 1 ≤ den * (y' + 1) := by exact_mod_cast hlt
    have hden : (den : ℤ) = 2 * y + b - D := by omega
    have hnum : (num : ℤ) = y * y + c := by rw [e2, e1]; push_cast; ring
    rw [hden, hnum] at hlt'
    nlinarith [sq_nonneg ((y' : ℤ) + 1 - y)]
  induction n generalizing y with
  | zero =>
    unfold yLoop at h
    rw [Res.bind_eq_ok] at h
    obtain ⟨y2, h1, h⟩ := h
    rw [Res.bind_eq_ok] at h
    obtain ⟨num, h2, h⟩ := h
    rw [Res.bind_eq_ok] at h
    obtain ⟨t, h3, h⟩ := h
    rw [Res.bind_eq_ok] at h
    obtain ⟨t2, h4, h⟩ := h
    rw [Res.bind_eq_ok] at h
    obtain ⟨den, h5, h⟩ := h
    rw [Res.bind_eq_ok] at h
    obtain ⟨y', h6, h⟩ := h
    have e : y' = r := by
      split at h
      · exact Res.ok.inj h
      · unfold yLoop at h; exact Res.ok.inj h
    subst e
    exact step h1 h2 h3 h4 h5 h6
  | succ n ih =>
    rw [yLoop] at h
    rw [Res.bind_eq_ok] at h
    obtain ⟨y2, h1, h⟩ := h
    rw [Res.bind_eq_ok] at h
    obtain ⟨num, h2, h⟩ := h
    rw [Res.bind_eq_ok] at h
    obtain ⟨t, h3, h⟩ := h
    rw [Res.bind_eq_ok] at h
    obtain ⟨t2, h4, h⟩ := h
    rw [Res.bind_eq_ok] at h
    obtain ⟨den, h5, h⟩ := h
    rw [Res.bind_eq_ok] at h
    obtain ⟨y', h6, h⟩ := h
    split at h
    · rw [← Res.ok.inj h]
      exact step h1 h2 h3 h4 h5 h6
    · exact ih h

theorem computeNewDestination_ok {L x D r : Nat} (h : computeNewDestination L x D = .ok r) :
    0 < x ∧ 0 < L ∧ Spec.StableAtLeast L x ((r : ℝ) + 1) D := by
  unfold computeNewDestination at h
  rw [Res.bind_eq_ok] at h
  obtain ⟨d3, h1, h⟩ := h
  rw [Res.bind_eq_ok] at h
  obtain ⟨x4, h2, h⟩ := h
  rw [Res.bind_eq_ok] at h
  obtain ⟨den, h3, h⟩ := h
  rw [Res.bind_eq_ok] at h
  obtain ⟨c, h4, h⟩ := h
  rw [Res.bind_eq_ok] at h
  obtain ⟨dl, h5, h⟩ := h
  rw [Res.bind_eq_ok] at h
  obtain ⟨b, h6, h⟩ := h
  rw [Res.bind_eq_ok] at h
  obtain ⟨y, h7, h⟩ := h
  have e1 := u8Power_three h1
  have e2 := u8Mul_four h2
  have e3 := (cmul_eq_ok.1 h3).2
  obtain ⟨e4, e5⟩ := cdiv_eq_ok.1 h4
  obtain ⟨e6, e7⟩ := cdiv_eq_ok.1 h5
  have e8 := (cadd_eq_ok.1 h6).2
  have e9 : r = y := (tryUint_eq_ok.1 h).2
  rw [← e9] at h7
  have key := yLoop_ok (n := 31) h7
  have hLp := Nat.pos_of_ne_zero e6
  have hxp : 0 < x := by
    rcases Nat.eq_zero_or_pos x with h0 | h0
    · rw [e3, e2, h0] at e4; simp at e4
    · exact h0
  refine ⟨hxp, hLp, ?_⟩
  have c1 : d3 < den * (c + 1) := by
    rw [e5]; exact Nat.lt_mul_div_succ _ (Nat.pos_of_ne_zero e4)
  have c2 : dl * L ≤ D := by rw [e7]; exact Nat.div_mul_le_self _ _
  rw [e1, e3, e2] at c1
  have c1' : (D : ℝ) ^ 3 < 4 * x * L * (c + 1) := by
    have : ((D * D * D : Nat) : ℝ) < ((4 * x * L * (c + 1) : Nat) : ℝ) := Nat.cast_lt.2 c1
    push_cast at this
    calc (D : ℝ) ^ 3 = D * D * D := by ring
      _ < _ := this
  have c2' : (dl : ℝ) * L ≤ D := by exact_mod_cast c2
  have key' : (c : ℝ) + 1 ≤ (r + 1) * (r + 1) + (r + 1) * ((x : ℝ) + dl - D) := by
    rw [e8] at key
    exact_mod_cast key
  unfold Spec.StableAtLeast
  have hx0 : (0 : ℝ) < x := by exact_mod_cast hxp
  have hL0 : (0 : ℝ) < L := by exact_mod_cast hLp
  have hr0 : (0 : ℝ) ≤ (r : ℝ) := Nat.cast_nonneg _
  have k1 := mul_le_mul_of_nonneg_left key' (by positivity : (0 : ℝ) ≤ 4 * x * L)
  have k2 := mul_le_mul_of_nonneg_left c2' (by positivity : (0 : ℝ) ≤ 4 * x * (r + 1))
  nlinarith

/-- Points below the invariant stay below it. -/
theorem atLeast_mono {L x y D D' : ℝ} (hL : 1 ≤ L) (hx : 0 ≤ x) (hy : 0 ≤ y) (hD : 0 ≤ D)
    (hle : D ≤ D') (h : Spec.StableAtLeast L x y D') : Spec.StableAtLeast L x y D := by
  unfold Spec.StableAtLeast at *
  have h1 : D ^ 3 ≤ D' ^ 3 := by gcongr
  refine le_trans h1 (le_trans h ?_)
  have : L * (x + y - D') + D' ≤ L * (x + y - D) + D := by nlinarith
  exact mul_le_mul_of_nonneg_left this (by positivity)

/-- More of the source token only raises the invariant. -/
theorem atLeast_source {L x x' y D : ℝ} (hL : 0 ≤ L) (hx : 0 < x) (hy : 0 < y) (hD : 0 ≤ D)
    (hle : x ≤ x') (h : Spec.StableAtLeast L x y D) : Spec.StableAtLeast L x' y D := by
  unfold Spec.StableAtLeast at *
  have h1 : 0 ≤ 4 * x * y * (L * (x + y - D) + D) := le_trans (by positivity) h
  have h2 : 0 ≤ L * (x + y - D) + D := nonneg_of_mul_nonneg_right h1 (by positivity)
  have h3 : L * (x + y - D) + D ≤ L * (x' + y - D) + D := by nlinarith
  refine le_trans h ?_
  have h4 : 4 * x * y ≤ 4 * x' * y := by nlinarith
  exact mul_le_mul h4 h3 h2 (le_trans (by positivity) h4)

theorem swapWithoutFees_ok {amp : UInt64} {s x y : Nat} {q : SwapWithoutFeesResult}
    (h : swapWithoutFees amp s x y = .ok q) :
    q.source_amount_swapped = s ∧ q.destination_amount_swapped ≤ y ∧ 0 < amp.toNat ∧
      ∃ D, computeD (amp.toNat * 2) x y = .ok D ∧
        computeNewDestination (amp.toNat * 2) (x + s) D = .ok (y - q.destination_amount_swapped) := by
  unfold swapWithoutFees at h
  rw [Res.bind_eq_ok] at h
  obtain ⟨L, h1, h⟩ := h
  rw [Res.bind_eq_ok] at h
  obtain ⟨ns, h2, h⟩ := h
  rw [Res.bind_eq_ok] at h
  obtain ⟨D, h3, h⟩ := h
  rw [Res.bind_eq_ok] at h
  obtain ⟨nd, h4, h⟩ := h
  rw [Res.bind_eq_ok] at h
  obtain ⟨o, h5, h⟩ := h
  have e1 := (cmul_eq_ok.1 h1).2
  have e2 := (cadd_eq_ok.1 h2).2
  obtain ⟨e3, e4⟩ := csub_eq_ok.1 h5
  rw [← Res.ok.inj h]
  simp only []
  subst e1 e2
  have e5 : y - o = nd := by omega
  rw [e5]
  have hL := (computeNewDestination_ok h4).2.1
  exact ⟨trivial, by omega, by omega, D, h3, h4⟩

end Stable
end Verif
