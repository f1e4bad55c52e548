import Verif.Lemmas.SqrtErr
import Verif.Model.DfsSpl
import Verif.Spec.Fixed
import Mathlib.Tactic.FieldSimp

/-
Raw comparisons turned into statements about the denoted rationals; conversion to 12 decimals.
-/

namespace Verif
namespace Dfs
open Spec

theorem val_sq_le {r v : Nat} (h : r * r ≤ v * ONE) : val r ^ 2 ≤ val v := by
  unfold val
  have : (r : ℚ) * r ≤ v * 10 ^ 18 := by
    have h2 : ((r * r : Nat) : ℚ) ≤ ((v * ONE : Nat) : ℚ) := by exact_mod_cast h
    rw [ONE_val] at h2; push_cast at h2; norm_num; exact h2
  rw [div_pow, div_le_div_iff₀ (by positivity) (by positivity)]
  nlinarith

theorem le_val_sq {r v : Nat} (h : v * ONE ≤ r * r) : val v ≤ val r ^ 2 := by
  unfold val
  have : (v : ℚ) * 10 ^ 18 ≤ r * r := by
    have h2 : ((v * ONE : Nat) : ℚ) ≤ ((r * r : Nat) : ℚ) := by exact_mod_cast h
    rw [ONE_val] at h2; push_cast at h2; norm_num; exact h2
  rw [div_pow, div_le_div_iff₀ (by positivity) (by positivity)]
  nlinarith

theorem val_err_down {r v k k1 : Nat} (hk : k1 + 1 = k)
    (h : v * ONE * (k1 * k1) ≤ r * r * (k * k)) :
    val v * (1 - 1 / (k : ℚ)) ^ 2 ≤ val r ^ 2 := by
  have h2 : ((v * ONE * (k1 * k1) : Nat) : ℚ) ≤ ((r * r * (k * k) : Nat) : ℚ) := by
    exact_mod_cast h
  rw [ONE_val] at h2; push_cast at h2
  have hkq : (0 : ℚ) < k := by exact_mod_cast (show 0 < k by omega)
  have hk1 : (k : ℚ) - 1 = k1 := by rw [← hk]; push_cast; ring
  have e1 : (1 - 1 / (k : ℚ)) ^ 2 = (k1 * k1) / (k * k) := by
    rw [← hk1]; field_simp
  unfold val
  rw [e1, div_pow, div_mul_div_comm, div_le_div_iff₀ (by positivity) (by positivity)]
  have := mul_le_mul_of_nonneg_right h2 (show (0 : ℚ) ≤ 10 ^ 18 by positivity)
  nlinarith

theorem val_err_up {r v k k1 : Nat} (hk0 : 0 < k) (hk : k + 1 = k1)
    (h : r * r * (k * k) ≤ v * ONE * (k1 * k1)) :
    val r ^ 2 ≤ val v * (1 + 1 / (k : ℚ)) ^ 2 := by
  have h2 : ((r * r * (k * k) : Nat) : ℚ) ≤ ((v * ONE * (k1 * k1) : Nat) : ℚ) := by
    exact_mod_cast h
  rw [ONE_val] at h2; push_cast at h2
  have hkq : (0 : ℚ) < k := by exact_mod_cast hk0
  have hk1 : (k : ℚ) + 1 = k1 := by rw [← hk]; push_cast; ring
  have e1 : (1 + 1 / (k : ℚ)) ^ 2 = (k1 * k1) / (k * k) := by
    rw [← hk1]; field_simp
  unfold val
  rw [e1, div_pow, div_mul_div_comm, div_le_div_iff₀ (by positivity) (by positivity)]
  have := mul_le_mul_of_nonneg_right h2 (show (0 : ℚ) ≤ 10 ^ 18 by positivity)
  nlinarith

theorem u128_fits {n : Nat} (h : n < 2 ^ 128) : n * ONE < U256 := by
  have h' : n < U128 := h
  rw [U128_val] at h'; rw [ONE_val, U256_val]; omega

theorem spl_div_ok {a b : Nat} (hb : b ≠ 0) (h : a * Spl.ONE + Spl.ONE / 2 < U256) :
    Spl.div a b = .ok ((a * Spl.ONE + Spl.ONE / 2) / b) := by
  have h1 : a * Spl.ONE < U256 := by omega
  simp [Spl.div, hb, cmul_ok h1, cadd_ok h, cdiv_ok hb]

theorem toSpl_eq {v r : Nat} (h : toSpl v = .ok r) :
    r = v / 1000000 + (if v % ONE < 500000000000000000 then 0 else 1000000000000) := by
  unfold toSpl at h
  rw [Res.bind_eq_ok] at h
  obtain ⟨w, hw, h⟩ := h
  have hw2 : w = (v + 500000000000000000) / 1000000000000000000 := by
    unfold toImprecise at hw
    rw [Res.bind_eq_ok] at hw
    obtain ⟨c, hc, hw⟩ := hw
    rw [cdiv_ok ONE_ne, Res.ok_bind] at hw
    rw [cadd_eq_ok] at hc
    rw [hc.2, rc_eq, ONE_val] at hw
    split at hw
    · exact (Res.ok.inj hw).symm
    · cases hw
  rw [Res.bind_eq_ok] at h
  obtain ⟨s, hs, h⟩ := h
  have hs2 : s = w * 1000000000000 := (cmul_eq_ok.1 hs).2
  have hm : v % ONE < 1000000000000000000 := Nat.mod_lt _ ONE_pos
  obtain ⟨m, hmd⟩ : ∃ m, m = v % ONE := ⟨_, rfl⟩
  rw [← hmd] at h hm ⊢
  have e1 : asUint U128 m = .ok m := asUint_ok (by rw [U128_val]; omega)
  have e2 : Spl.new m = .ok (m * 1000000000000) := cmul_ok (by
    show m * 1000000000000 < U256
    rw [U256_val]; omega)
  have e3 : Spl.new ONE = .ok 1000000000000000000000000000000 := by decide +kernel
  have e4 : Spl.div (m * 1000000000000) 1000000000000000000000000000000 =
      .ok ((m * 1000000000000 * 1000000000000 + 500000000000) /
        1000000000000000000000000000000) := by
    apply spl_div_ok
    · norm_num
    · show m * 1000000000000 * 1000000000000 + 500000000000 < U256
      rw [U256_val]; omega
  rw [e1, Res.ok_bind, e2, Res.ok_bind, e3, Res.ok_bind, e4, Res.ok_bind] at h
  have h6 := (cadd_eq_ok.1 h).2
  rw [ONE_val] at hmd
  have h7 : (m * 1000000000000 * 1000000000000 + 500000000000) /
      1000000000000000000000000000000 = m / 1000000 := by omega
  rw [h6, h7, hs2, hw2]
  split <;> omega

end Dfs
end Verif
