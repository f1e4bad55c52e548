import Verif.Lemmas.Sqrt
import Mathlib.Tactic.IntervalCases

/-
Relative error of the fixed-point square root.
-/

namespace Verif
namespace Dfs

/-- Square comparison from a comparison of roots. -/
theorem sq_le_of_le {a b c d : Nat} (h : a * b ≤ c * d) : a * a * (b * b) ≤ c * c * (d * d) := by
  have := Nat.mul_le_mul h h
  calc _ = a * b * (a * b) := by ring
    _ ≤ _ := this
    _ = _ := by ring

theorem lt_dsqrt_down_succ (x : Nat) :
    x < (dsqrt false x + 1) * (dsqrt false x + 1) := lt_isqrt_succ x

/-- The rounded-up root minus one is below the exact root. -/
theorem csqrt_pred_sq {x m : Nat} (h : csqrt x = m + 1) : m * m < x := by
  unfold csqrt at h
  split at h
  · rename_i h2
    have : Nat.sqrt x = m := by omega
    rwa [this] at h2
  · have h1 := Nat.sqrt_le x
    rw [h] at h1
    have : m * m < (m + 1) * (m + 1) := Nat.mul_lt_mul'' (by omega) (by omega)
    omega

theorem pow_le_of_le_29 {p : Nat} (hp : p ≤ 29) : 2 ^ p ≤ 536870912 := by
  have : 2 ^ p ≤ 2 ^ 29 := Nat.pow_le_pow_right (by decide) hp
  norm_num at this; exact this

theorem small_x_ge {v p : Nat} (hpos : 0 < v) (hh : half v ≤ 32) (hp : p = 32 - half v) :
    2147483648 * 2147483648 ≤ v * 4 ^ p := by
  have h1 := four_pow_half_le hpos
  have h0 := half_pos hpos
  have h2 : 4 ^ (half v - 1) * 4 ^ p ≤ v * 4 ^ p := Nat.mul_le_mul_right _ h1
  rw [← Nat.pow_add] at h2
  have : half v - 1 + p = 31 := by omega
  rw [this] at h2
  norm_num at h2 ⊢; exact h2

theorem large_x_ge {v p : Nat} (hpos : 0 < v) (hh : 32 < half v) (hp : p = half v - 32) :
    2147483648 * 2147483648 ≤ v / 4 ^ p := by
  rw [Nat.le_div_iff_mul_le (Nat.pow_pos (by decide))]
  have h1 := four_pow_half_le hpos
  have h2 : half v - 1 = 31 + p := by omega
  rw [h2, Nat.pow_add] at h1
  norm_num at h1 ⊢; exact h1

theorem calc_large_down {v s p k k1 : Nat} (hvx : v ≤ (s + 1) * (s + 1) * 4 ^ p)
    (h3 : (s + 1) * (s + 1) * (k1 * k1) ≤ s * s * (k * k)) :
    v * (SQRT_ONE * SQRT_ONE) * (k1 * k1) ≤
      s * SQRT_ONE * 2 ^ p * (s * SQRT_ONE * 2 ^ p) * (k * k) := by
  calc v * (SQRT_ONE * SQRT_ONE) * (k1 * k1)
      ≤ (s + 1) * (s + 1) * 4 ^ p * (SQRT_ONE * SQRT_ONE) * (k1 * k1) := by gcongr
    _ = ((s + 1) * (s + 1) * (k1 * k1)) * 4 ^ p * (SQRT_ONE * SQRT_ONE) := by ring
    _ ≤ (s * s * (k * k)) * 4 ^ p * (SQRT_ONE * SQRT_ONE) := by gcongr
    _ = _ := by rw [four_pow']; ring

theorem calc_large_up {v m p k k1 : Nat} (hvx : m * m * 4 ^ p ≤ v)
    (h3 : (m + 1) * (m + 1) * (k * k) ≤ m * m * (k1 * k1)) :
    (m + 1) * SQRT_ONE * 2 ^ p * ((m + 1) * SQRT_ONE * 2 ^ p) * (k * k) ≤
      v * (SQRT_ONE * SQRT_ONE) * (k1 * k1) := by
  calc (m + 1) * SQRT_ONE * 2 ^ p * ((m + 1) * SQRT_ONE * 2 ^ p) * (k * k)
      = ((m + 1) * (m + 1) * (k * k)) * 4 ^ p * (SQRT_ONE * SQRT_ONE) := by rw [four_pow']; ring
    _ ≤ (m * m * (k1 * k1)) * 4 ^ p * (SQRT_ONE * SQRT_ONE) := by gcongr
    _ = m * m * 4 ^ p * (SQRT_ONE * SQRT_ONE) * (k1 * k1) := by ring
    _ ≤ _ := by gcongr

theorem calc_small_down {v s r p k k1 : Nat} (hs2 : v * 4 ^ p ≤ (s + 1) * (s + 1))
    (hkey : ((s + 1) * SQRT_ONE) * k1 ≤ (r * 2 ^ p) * k) :
    v * (SQRT_ONE * SQRT_ONE) * (k1 * k1) ≤ r * r * (k * k) := by
  have h3 := sq_le_of_le hkey
  have h4 : v * (SQRT_ONE * SQRT_ONE) * (k1 * k1) * 4 ^ p ≤ r * r * (k * k) * 4 ^ p := by
    calc _ = v * 4 ^ p * (SQRT_ONE * SQRT_ONE) * (k1 * k1) := by ring
      _ ≤ (s + 1) * (s + 1) * (SQRT_ONE * SQRT_ONE) * (k1 * k1) := by gcongr
      _ = (s + 1) * SQRT_ONE * ((s + 1) * SQRT_ONE) * (k1 * k1) := by ring
      _ ≤ _ := h3
      _ = _ := by rw [four_pow']; ring
  exact Nat.le_of_mul_le_mul_right h4 (Nat.pow_pos (by decide))

theorem calc_small_up {v m r p k k1 : Nat} (hs2 : m * m ≤ v * 4 ^ p)
    (hkey : (r * 2 ^ p) * k ≤ (m * SQRT_ONE) * k1) :
    r * r * (k * k) ≤ v * (SQRT_ONE * SQRT_ONE) * (k1 * k1) := by
  have h3 := sq_le_of_le hkey
  have h4 : r * r * (k * k) * 4 ^ p ≤ v * (SQRT_ONE * SQRT_ONE) * (k1 * k1) * 4 ^ p := by
    calc _ = r * 2 ^ p * (r * 2 ^ p) * (k * k) := by rw [four_pow']; ring
      _ ≤ m * SQRT_ONE * (m * SQRT_ONE) * (k1 * k1) := h3
      _ = m * m * (SQRT_ONE * SQRT_ONE) * (k1 * k1) := by ring
      _ ≤ v * 4 ^ p * (SQRT_ONE * SQRT_ONE) * (k1 * k1) := by gcongr
      _ = _ := by ring
  exact Nat.le_of_mul_le_mul_right h4 (Nat.pow_pos (by decide))

theorem down_err {v r : Nat} (h16 : 16 ≤ v) (hv : v < U256) (h : sqrtU64 v false = .ok r) :
    v * ONE * (1073741823 * 1073741823) ≤ r * r * (1073741824 * 1073741824) := by
  have hpos : 0 < v := by omega
  rw [ONE_eq]
  rcases Nat.lt_or_ge 32 (half v) with hh | hh
  · rw [sqrtU64_large false hv hh] at h
    split at h
    · injection h with h; subst h
      obtain ⟨p, hp⟩ : ∃ p, p = half v - 32 := ⟨_, rfl⟩
      have hx := large_x_ge hpos hh hp
      rw [← hp, rdiv_down]
      obtain ⟨x, hxd⟩ : ∃ x, x = v / 4 ^ p := ⟨_, rfl⟩
      rw [← hxd] at hx ⊢
      have hs : 2147483648 ≤ dsqrt false x := le_isqrt hx
      have hs2 := lt_dsqrt_down_succ x
      obtain ⟨s, hsd⟩ : ∃ s, s = dsqrt false x := ⟨_, rfl⟩
      rw [← hsd] at hs hs2 ⊢
      have hvx : v ≤ (s + 1) * (s + 1) * 4 ^ p := by
        have h1 := Nat.lt_mul_div_succ v (Nat.pow_pos (n := p) (by decide : 0 < 4))
        rw [← hxd] at h1
        refine le_of_lt (lt_of_lt_of_le h1 ?_)
        rw [Nat.mul_comm]
        exact Nat.mul_le_mul_right _ hs2
      have h2 : (s + 1) * 1073741823 ≤ s * 1073741824 := by
        clear hx hs2 hvx; omega
      exact calc_large_down hvx (sq_le_of_le h2)
    · cases h
  · rw [sqrtU64_small false hh] at h
    injection h with h; subst h
    obtain ⟨p, hp⟩ : ∃ p, p = 32 - half v := ⟨_, rfl⟩
    have hx := small_x_ge hpos hh hp
    rw [← hp, rdiv_down]
    have hs : 2147483648 ≤ dsqrt false (v * 4 ^ p) := le_isqrt hx
    have hs2 := lt_dsqrt_down_succ (v * 4 ^ p)
    obtain ⟨s, hsd⟩ : ∃ s, s = dsqrt false (v * 4 ^ p) := ⟨_, rfl⟩
    rw [← hsd] at hs hs2 ⊢
    have hT : 3 ≤ half v := by
      by_contra hc
      have h4 : 4 ^ half v ≤ 4 ^ 2 := Nat.pow_le_pow_right (by decide) (by omega)
      have := lt_four_pow_half v
      omega
    have h29 := pow_le_of_le_29 (show p ≤ 29 by omega)
    obtain ⟨r, hr⟩ : ∃ r, r = s * SQRT_ONE / 2 ^ p := ⟨_, rfl⟩
    rw [← hr]
    have hr2 : s * SQRT_ONE < (r + 1) * 2 ^ p := by
      rw [Nat.mul_comm (r + 1)]
      have := Nat.lt_mul_div_succ (s * SQRT_ONE) (Nat.pow_pos (n := p) (by decide : 0 < 2))
      rwa [← hr] at this
    have hkey : ((s + 1) * SQRT_ONE) * 1073741823 ≤ (r * 2 ^ p) * 1073741824 := by
      rw [Nat.add_mul r, Nat.one_mul] at hr2
      rw [SQRT_ONE_val] at *
      clear hx hs2; omega
    exact calc_small_down (le_of_lt hs2) hkey

theorem up_err {v r : Nat} (h16 : 16 ≤ v) (hv : v < U256) (h : sqrtU64 v true = .ok r) :
    r * r * (1073741824 * 1073741824) ≤ v * ONE * (1073741825 * 1073741825) := by
  have hpos : 0 < v := by omega
  rw [ONE_eq]
  rcases Nat.lt_or_ge 32 (half v) with hh | hh
  · rw [sqrtU64_large true hv hh] at h
    split at h
    · injection h with h; subst h
      obtain ⟨p, hp⟩ : ∃ p, p = half v - 32 := ⟨_, rfl⟩
      have hx0 := large_x_ge hpos hh hp
      have hp4 : 0 < 4 ^ p := Nat.pow_pos (by decide)
      have hx1 : v / 4 ^ p ≤ rdiv true v (4 ^ p) := by
        unfold rdiv; rw [if_pos rfl]; split <;> omega
      have hx2 := rdiv_up_lt (a := v) hp4
      rw [← hp]
      obtain ⟨x, hxd⟩ : ∃ x, x = rdiv true v (4 ^ p) := ⟨_, rfl⟩
      rw [← hxd] at hx1 hx2 ⊢
      have hs0 : 2147483648 ≤ isqrt x := le_isqrt (le_trans hx0 hx1)
      have hs1 := isqrt_le_csqrt x
      obtain ⟨m, hm⟩ : ∃ m, csqrt x = m + 1 := ⟨csqrt x - 1, by omega⟩
      have hs2 := csqrt_pred_sq hm
      have hds : dsqrt true x = m + 1 := hm
      rw [hds]
      have hvx : m * m * 4 ^ p ≤ v := by
        have h1 : (m * m + 1) * 4 ^ p ≤ x * 4 ^ p := Nat.mul_le_mul_right _ hs2
        rw [Nat.add_mul (m * m)] at h1
        omega
      have h2 : (m + 1) * 1073741824 ≤ m * 1073741825 := by
        clear hx0 hs2 hvx hx1 hx2; omega
      exact calc_large_up hvx (sq_le_of_le h2)
    · cases h
  · rw [sqrtU64_small true hh] at h
    injection h with h; subst h
    obtain ⟨p, hp⟩ : ∃ p, p = 32 - half v := ⟨_, rfl⟩
    have hx := small_x_ge hpos hh hp
    rw [← hp]
    obtain ⟨x, hxd⟩ : ∃ x, x = v * 4 ^ p := ⟨_, rfl⟩
    rw [← hxd] at hx ⊢
    have hs0 : 2147483648 ≤ isqrt x := le_isqrt hx
    have hs1 := isqrt_le_csqrt x
    obtain ⟨m, hm⟩ : ∃ m, csqrt x = m + 1 := ⟨csqrt x - 1, by omega⟩
    have hs2 := csqrt_pred_sq hm
    have hds : dsqrt true x = m + 1 := hm
    rw [hds]
    have hT : 3 ≤ half v := by
      by_contra hc
      have h4 : 4 ^ half v ≤ 4 ^ 2 := Nat.pow_le_pow_right (by decide) (by omega)
      have := lt_four_pow_half v
      omega
    have h29 := pow_le_of_le_29 (show p ≤ 29 by omega)
    have hr2 := rdiv_up_lt (a := (m + 1) * SQRT_ONE) (Nat.pow_pos (n := p) (by decide : 0 < 2))
    obtain ⟨r, hr⟩ : ∃ r, r = rdiv true ((m + 1) * SQRT_ONE) (2 ^ p) := ⟨_, rfl⟩
    rw [← hr] at hr2 ⊢
    have hkey : (r * 2 ^ p) * 1073741824 ≤ (m * SQRT_ONE) * 1073741825 := by
      rw [SQRT_ONE_val] at *
      clear hx hs2; omega
    exact calc_small_up (le_of_lt (hxd ▸ hs2)) hkey

set_option maxRecDepth 10000 in
/-- The sixteen smallest values, by evaluation.  Only the raw value 2 rounded down exceeds `2^-30`. -/
theorem tiny_err {v : Nat} (h : v < 16) : ∃ d u, sqrtU64 v false = .ok d ∧ sqrtU64 v true = .ok u ∧
    (v ≠ 2 → v * ONE * (1073741823 * 1073741823) ≤ d * d * (1073741824 * 1073741824)) ∧
    u * u * (1073741824 * 1073741824) ≤ v * ONE * (1073741825 * 1073741825) := by
  have key : ∀ v, v < 16 → (match sqrtU64 v false, sqrtU64 v true with
      | .ok d, .ok u =>
        decide ((v ≠ 2 → v * ONE * (1073741823 * 1073741823) ≤ d * d * (1073741824 * 1073741824)) ∧
          u * u * (1073741824 * 1073741824) ≤ v * ONE * (1073741825 * 1073741825))
      | _, _ => false) = true := by decide +kernel
  have := key v h
  split at this
  · exact ⟨_, _, by assumption, by assumption, of_decide_eq_true this⟩
  · cases this

end Dfs
end Verif
