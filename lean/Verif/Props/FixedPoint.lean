import Verif.Lemmas.FixedVal

/-
C08-C14: the 18-decimal fixed-point type.
Raw values are natural numbers below `2^256`; `Spec.val raw` is the rational they denote.
-/

namespace Verif
namespace Props
open Spec Dfs

/-! ### C08 -/

/-- Rounding down: the result exists, its square is at most the value and it is within a relative
error of `2^-30`; the only value with a larger error is the raw value 2 (`C08_two`). -/
theorem C08_sqrt_down (v : Nat) (hv : v < 2 ^ 256) :
    ∃ r, sqrtU64 v false = .ok r ∧ val r ^ 2 ≤ val v ∧
      (v ≠ 2 → val v * (1 - 1 / 2 ^ 30) ^ 2 ≤ val r ^ 2) := by
  obtain ⟨r, hr⟩ := sqrtU64_down_total hv
  refine ⟨r, hr, val_sq_le (sqrtU64_down_sq hv hr), fun h2 => ?_⟩
  have hk : v * ONE * (1073741823 * 1073741823) ≤ r * r * (1073741824 * 1073741824) := by
    rcases Nat.lt_or_ge v 16 with h16 | h16
    · obtain ⟨d, u, hd, _, h1, _⟩ := tiny_err h16
      rw [hr] at hd; rw [Res.ok.inj hd]
      exact h1 h2
    · have h1 := down_err h16 hv hr
      exact h1
  have := val_err_down (by norm_num) hk
  have e : (2 : ℚ) ^ 30 = 1073741824 := by norm_num
  rw [Nat.cast_ofNat] at this
  rwa [e]

/-- The exception of `C08_sqrt_down`: the raw value 2, i.e. `2·10^-18`, whose root is rounded to
`1414213561` instead of `1414213562`, which exceeds the relative error `2^-30`. -/
theorem C08_two : sqrtU64 2 false = .ok 1414213561 ∧
    1414213562 * 1414213562 ≤ 2 * 10 ^ 18 ∧
    val 1414213561 ^ 2 < val 2 * (1 - 1 / 2 ^ 30) ^ 2 := by
  refine ⟨by decide +kernel, by norm_num, ?_⟩
  unfold val
  norm_num [Dfs.ONE_val]

/-- Rounding up: whenever it returns, the square is at least the value and it is within a relative
error of `2^-30`. -/
theorem C08_sqrt_up (v r : Nat) (hv : v < 2 ^ 256) (hr : sqrtU64 v true = .ok r) :
    val v ≤ val r ^ 2 ∧ val r ^ 2 ≤ val v * (1 + 1 / 2 ^ 30) ^ 2 := by
  refine ⟨le_val_sq (sqrtU64_up_sq hv hr), ?_⟩
  have hk : r * r * (1073741824 * 1073741824) ≤ v * ONE * (1073741825 * 1073741825) := by
    rcases Nat.lt_or_ge v 16 with h16 | h16
    · obtain ⟨d, u, _, hu, _, h1⟩ := tiny_err h16
      rw [hr] at hu; rw [Res.ok.inj hu]
      exact h1
    · have h1 := up_err h16 hv hr
      exact h1
  have := val_err_up (by norm_num) (by norm_num) hk
  have e : (2 : ℚ) ^ 30 = 1073741824 := by norm_num
  rw [Nat.cast_ofNat] at this
  rwa [e]

/-- Raw powers of four have exact roots in both modes. -/
theorem C08_powers_of_four (k : Nat) (hk : k ≤ 127) (up : Bool) :
    sqrtU64 (4 ^ k) up = .ok (2 ^ k * 10 ^ 9) := by
  have hv : 4 ^ k < U256 := by
    refine lt_of_le_of_lt (Nat.pow_le_pow_right (by decide) hk) ?_
    rw [U256_val]; norm_num
  have hG : (10 : Nat) ^ 9 = SQRT_ONE := by norm_num [SQRT_ONE_val]
  rw [hG]
  have hsq : (2 ^ k * SQRT_ONE) * (2 ^ k * SQRT_ONE) = 4 ^ k * ONE := by
    rw [four_pow', ONE_eq]; ring
  obtain ⟨d, hd⟩ := sqrtU64_down_total hv
  have h1 := down_ge_pow hv le_rfl hd
  cases up
  · rw [hd]
    have h2 := sqrtU64_down_sq hv hd
    refine congrArg Res.ok (le_antisymm ?_ h1)
    by_contra hc
    have : (2 ^ k * SQRT_ONE) * (2 ^ k * SQRT_ONE) < d * d :=
      Nat.mul_lt_mul'' (by omega) (by omega)
    omega
  · rcases hu : sqrtU64 (4 ^ k) true with u | _ | _
    · have h2 := up_le_pow hv le_rfl hu
      exact congrArg Res.ok (le_antisymm h2 (le_trans h1 (sqrtU64_down_le_up hv hd hu)))
    · exact absurd hu (sqrtU64_ne_none true hv)
    · rw [sqrtU64_up_panic_iff hv] at hu
      obtain ⟨h, h1, h2, h3⟩ := hu
      exfalso
      have e : (2 : Nat) ^ 64 * 4 ^ h = 4 ^ (32 + h) := by rw [Nat.pow_add, four_pow 32]
      rw [e] at h3
      have h4 : k < 32 + h := (Nat.pow_lt_pow_iff_right (by decide)).1 h3
      have h5 : 4 ^ k ≤ 4 ^ (31 + h) := Nat.pow_le_pow_right (by decide) (by omega)
      have h6 : 4 ^ (31 + h) ≤ (2 ^ 64 - 1) * 4 ^ h := by
        rw [Nat.pow_add]; exact Nat.mul_le_mul_right _ (by norm_num)
      omega

/-- The square root of 2, in both modes; and a value of more than 64 bits that does return. -/
example : sqrtU64 (2 * 10 ^ 18) false = .ok 1414213562000000000 ∧
    sqrtU64 (2 * 10 ^ 18) true = .ok 1414213562500000000 ∧
    sqrtU64 (2 * 10 ^ 38) true = .ok 14142135624102051840000000000 := by decide +kernel

/-! ### C09 -/

/-- Rounding down the square root always returns. -/
theorem C09_down_total (v : Nat) (hv : v < 2 ^ 256) : ∃ r, sqrtU64 v false = .ok r :=
  sqrtU64_down_total hv

/-- Rounding up it returns or aborts, and it aborts exactly when the 64 leading bits (of an even
number of bits above 64) are all ones and some later bit is set. -/
theorem C09_up_iff (v : Nat) (hv : v < 2 ^ 256) :
    (sqrtU64 v true = .panic ↔
      ∃ h, 1 ≤ h ∧ (2 ^ 64 - 1) * 4 ^ h < v ∧ v < 2 ^ 64 * 4 ^ h) ∧
    ((∃ r, sqrtU64 v true = .ok r) ∨ sqrtU64 v true = .panic) := by
  refine ⟨sqrtU64_up_panic_iff hv, ?_⟩
  rcases hu : sqrtU64 v true with u | _ | _
  · exact Or.inl ⟨u, rfl⟩
  · exact absurd hu (sqrtU64_ne_none true hv)
  · exact Or.inr rfl

/-- Both outcomes occur: `2^66 - 1` aborts, `2^66` does not. -/
example : sqrtU64 (2 ^ 66 - 1) true = .panic ∧
    sqrtU64 (2 ^ 66) true = .ok (2 ^ 33 * 10 ^ 9) := by decide +kernel

/-! ### C10 -/

/-- Floor of the exact root. -/
theorem C10_isqrt_down (x : Nat) (hx : x < 2 ^ 64) :
    ∃ s, sqrtBabylonian x false = .ok s ∧ s ^ 2 ≤ x ∧ x < (s + 1) ^ 2 := by
  refine ⟨_, sqrtBabylonian_eq x hx false, ?_, ?_⟩
  · rw [pow_two]; exact isqrt_sq_le x
  · rw [pow_two]; exact lt_isqrt_succ x

/-- Ceiling of the exact root. -/
theorem C10_isqrt_up (x : Nat) (hx : x < 2 ^ 64) :
    ∃ s, sqrtBabylonian x true = .ok s ∧ x ≤ s ^ 2 ∧ ∀ t, x ≤ t ^ 2 → s ≤ t := by
  refine ⟨_, sqrtBabylonian_eq x hx true, ?_, fun t ht => ?_⟩
  · rw [pow_two]; exact le_csqrt_sq x
  · rw [pow_two] at ht; exact csqrt_le ht

example : sqrtBabylonian (2 ^ 64 - 1) false = .ok (2 ^ 32 - 1) ∧
    sqrtBabylonian (2 ^ 64 - 1) true = .ok (2 ^ 32) := by decide +kernel

/-! ### C12 -/

/-- Integer to fixed point and back is the identity on every `u128`. -/
theorem C12_round_trip (n : Nat) (h : n < 2 ^ 128) :
    ∃ v, new n = .ok v ∧ val v = n ∧ toImprecise v = .ok n := by
  refine ⟨n * ONE, new_ok (u128_fits h), ?_, toImprecise_new h⟩
  unfold val; rw [ONE_val]; push_cast; norm_num

/-- Conversion to an integer rounds to nearest (ties up) and fails exactly when the rounded value
does not fit in a `u128` or the rounding correction overflows. -/
theorem C12_to_imprecise (v n : Nat) (h : toImprecise v = .ok n) :
    (n : ℚ) - 1 / 2 ≤ val v ∧ val v < (n : ℚ) + 1 / 2 ∧ n < 2 ^ 128 := by
  unfold toImprecise at h
  rw [Res.bind_eq_ok] at h
  obtain ⟨c, hc, h⟩ := h
  rw [cdiv_ok ONE_ne, Res.ok_bind] at h
  rw [cadd_eq_ok] at hc
  obtain ⟨_, rfl⟩ := hc
  split at h
  · rename_i hlt
    injection h with h
    rw [h] at hlt
    have h1 : n * 1000000000000000000 ≤ v + 500000000000000000 := by
      rw [← h, rc_eq, ONE_val]; exact Nat.div_mul_le_self _ _
    have h2 : v + 500000000000000000 < (n + 1) * 1000000000000000000 := by
      rw [← h, rc_eq, ONE_val, Nat.mul_comm]; exact Nat.lt_mul_div_succ _ (by decide)
    have h1q : (n : ℚ) * 1000000000000000000 ≤ v + 500000000000000000 := by exact_mod_cast h1
    have h2q : (v : ℚ) + 500000000000000000 < (n + 1) * 1000000000000000000 := by
      exact_mod_cast h2
    refine ⟨?_, ?_, hlt⟩
    · unfold val; rw [le_div_iff₀ (by positivity)]; norm_num; linarith
    · unfold val; rw [div_lt_iff₀ (by positivity)]; norm_num; linarith
  · cases h

/-- Conversion succeeds whenever the rounded value fits. -/
theorem C12_to_imprecise_total (v : Nat) (h : val v < 2 ^ 128 - 1) :
    ∃ n, toImprecise v = .ok n := by
  have h1 : (v : ℚ) < ((2 ^ 128 - 1) * 10 ^ 18 : Nat) := by
    unfold val at h; rw [div_lt_iff₀ (by positivity)] at h; push_cast; norm_num at h ⊢; exact h
  have h2 : v < (2 ^ 128 - 1) * 10 ^ 18 := by exact_mod_cast h1
  have h3 : v < 340282366920938463463374607431768211455 * 1000000000000000000 := h2
  have h4 : v + roundingCorrection < U256 := by rw [rc_eq, U256_val]; omega
  refine ⟨_, toImprecise_ok h4 ?_⟩
  rw [rc_eq, ONE_val, U128_val, Nat.div_lt_iff_lt_mul (by decide)]; omega

/-- `floor` never fails, lands on the whole number just below. -/
theorem C12_floor (v : Nat) (hv : v < 2 ^ 256) :
    ∃ k : Nat, floor v = .ok (k * 10 ^ 18) ∧ (k : ℚ) ≤ val v ∧ val v < k + 1 := by
  refine ⟨v / ONE, ?_, ?_, ?_⟩
  · exact floor_ok hv
  · have h1 := Nat.div_mul_le_self v ONE
    have : ((v / ONE : Nat) : ℚ) * 1000000000000000000 ≤ v := by
      rw [ONE_val] at *; exact_mod_cast h1
    unfold val; rw [le_div_iff₀ (by positivity)]; norm_num; exact this
  · have h1 : v < (v / ONE + 1) * ONE := by
      rw [Nat.mul_comm]; exact Nat.lt_mul_div_succ _ ONE_pos
    have : (v : ℚ) < ((v / ONE : Nat) + 1) * 1000000000000000000 := by
      rw [ONE_val] at *; exact_mod_cast h1
    unfold val; rw [div_lt_iff₀ (by positivity)]; norm_num; exact this

/-- `ceiling`, when the addition of `1 - 10^-18` does not overflow, lands on the whole number just
above; otherwise it fails without aborting. -/
theorem C12_ceiling (v : Nat) :
    (v + (10 ^ 18 - 1) < 2 ^ 256 →
      ∃ k : Nat, ceiling v = .ok (k * 10 ^ 18) ∧ val v ≤ k ∧ (k : ℚ) < val v + 1) ∧
    (2 ^ 256 ≤ v + (10 ^ 18 - 1) → ceiling v = .none) := by
  have e : (10 : Nat) ^ 18 - 1 = ONE - 1 := rfl
  rw [e]
  constructor
  · intro h0
    replace h0 : v + (ONE - 1) < U256 := h0
    have hs : csub ONE 1 = .ok (ONE - 1) := csub_ok ONE_pos
    have hc : ceiling v = .ok ((v + (ONE - 1)) / ONE * ONE) := by
      have h1 : (v + (ONE - 1)) / ONE * ONE < U256 :=
        lt_of_le_of_lt (Nat.div_mul_le_self _ ONE) h0
      unfold ceiling
      rw [hs, Res.ok_bind, cadd_ok h0, Res.ok_bind, cdiv_ok ONE_ne, Res.ok_bind,
        cmul_ok h1]
    obtain ⟨k, hk⟩ : ∃ k, k = (v + (ONE - 1)) / ONE := ⟨_, rfl⟩
    refine ⟨k, by rw [hc, hk]; rfl, ?_, ?_⟩
    · have h1 : v ≤ k * 1000000000000000000 := by rw [hk, ONE_val]; omega
      have : (v : ℚ) ≤ k * 1000000000000000000 := by exact_mod_cast h1
      unfold val; rw [div_le_iff₀ (by positivity)]; norm_num; exact this
    · have h1 : k * 1000000000000000000 < v + 1000000000000000000 := by rw [hk, ONE_val]; omega
      have : (k : ℚ) * 1000000000000000000 < v + 1000000000000000000 := by exact_mod_cast h1
      unfold val
      have e2 : (v : ℚ) / 10 ^ 18 + 1 = (v + 10 ^ 18) / 10 ^ 18 := by field_simp
      rw [e2, lt_div_iff₀ (by positivity)]; norm_num; exact this
  · intro h0
    have hs : csub ONE 1 = .ok (ONE - 1) := csub_ok ONE_pos
    unfold ceiling
    rw [hs, Res.ok_bind]
    have : cadd U256 v (ONE - 1) = .none := by
      unfold cadd; rw [if_neg (by exact Nat.not_lt.2 h0)]
    rw [this]; rfl

/-- `floor` and `ceiling` leave whole numbers unchanged. -/
theorem C12_whole_fixed (n : Nat) (h : n < 2 ^ 128) :
    floor (n * 10 ^ 18) = .ok (n * 10 ^ 18) ∧ ceiling (n * 10 ^ 18) = .ok (n * 10 ^ 18) := by
  have e : (10 : Nat) ^ 18 = ONE := rfl
  have hlt : n * ONE + ONE < U256 := by
    have h' : n < U128 := h
    rw [U128_val] at h'; rw [ONE_val, U256_val]; omega
  rw [e]
  constructor
  · rw [floor_ok (by omega), Nat.mul_div_cancel _ ONE_pos]
  · rw [ceiling_ok hlt]
    have : (n * ONE + (ONE - 1)) / ONE = n := by rw [ONE_val]; omega
    rw [this]

example : toImprecise 1500000000000000000 = .ok 2 ∧ toImprecise 1499999999999999999 = .ok 1 ∧
    floor 1500000000000000000 = .ok (1 * 10 ^ 18) ∧
    ceiling 1500000000000000001 = .ok (2 * 10 ^ 18) := by decide +kernel

/-! ### C13 -/

/-- Multiplying by a whole number is exact whenever the full-width product (plus the rounding
half) fits. -/
theorem C13_mul_whole (a n : Nat) (h : a * (n * 10 ^ 18) + 10 ^ 18 / 2 < 2 ^ 256) :
    ∃ r, mul a (n * 10 ^ 18) = .ok r ∧ val r = val a * n := by
  have h' : a * (n * ONE) + roundingCorrection < U256 := h
  refine ⟨a * n, mul_new_ok h', ?_⟩
  unfold val; push_cast; ring

/-- Dividing by a whole number is exactly the floor (in units of `10^-18`). -/
theorem C13_div_whole (a n : Nat) (hn : 0 < n) (h : a * 10 ^ 18 + 10 ^ 18 / 2 < 2 ^ 256) :
    ∃ r, div a (n * 10 ^ 18) = .ok r ∧ val r ≤ val a / n ∧ val a / n < val r + 1 / 10 ^ 18 := by
  have h' : a * ONE + roundingCorrection < U256 := h
  have hnq : (0 : ℚ) < n := by exact_mod_cast hn
  refine ⟨a / n, div_new_ok (by omega) h', ?_, ?_⟩
  · have h1 : ((a / n : Nat) : ℚ) * n ≤ a := by exact_mod_cast Nat.div_mul_le_self a n
    unfold val
    rw [div_div, mul_comm, ← div_div]
    gcongr
    rw [le_div_iff₀ hnq]; exact h1
  · have h1 : (a : ℚ) < n * ((a / n : Nat) + 1) := by exact_mod_cast Nat.lt_mul_div_succ a hn
    unfold val
    rw [div_div, mul_comm, ← div_div, ← add_div]
    gcongr
    rw [div_lt_iff₀ hnq]; linarith

/-- Whenever the full-width product fits, multiplication rounds to nearest. -/
theorem C13_mul_nearest (a b r : Nat) (h : a * b < 2 ^ 256) (hr : mul a b = .ok r) :
    |val r - val a * val b| ≤ 1 / 2 / 10 ^ 18 := by
  have h' : a * b < U256 := h
  unfold mul at hr
  rw [cmul_ok h'] at hr
  simp only [] at hr
  rw [Res.bind_eq_ok] at hr
  obtain ⟨s, hs, hr⟩ := hr
  rw [cadd_eq_ok] at hs
  obtain ⟨_, rfl⟩ := hs
  rw [cdiv_ok ONE_ne] at hr
  injection hr with hr
  have h1 : r * 1000000000000000000 ≤ a * b + 500000000000000000 := by
    rw [← hr, rc_eq, ONE_val]; exact Nat.div_mul_le_self _ _
  have h2 : a * b + 500000000000000000 < (r + 1) * 1000000000000000000 := by
    rw [← hr, rc_eq, ONE_val, Nat.mul_comm (_ + 1)]; exact Nat.lt_mul_div_succ _ (by decide)
  have h1q : (r : ℚ) * 1000000000000000000 ≤ a * b + 500000000000000000 := by exact_mod_cast h1
  have h2q : (a * b : ℚ) + 500000000000000000 < (r + 1) * 1000000000000000000 := by
    exact_mod_cast h2
  unfold val
  have e : (r : ℚ) / 10 ^ 18 - a / 10 ^ 18 * (b / 10 ^ 18) =
      (r * 10 ^ 18 - a * b) / 10 ^ 36 := by field_simp
  rw [e, abs_le]
  constructor
  · rw [le_div_iff₀ (by positivity)]; norm_num; linarith
  · rw [div_le_iff₀ (by positivity)]; norm_num; linarith

/-- Multiplication is commutative on all inputs, including the overflow fallback and failures. -/
theorem C13_mul_comm (a b : Nat) : mul a b = mul b a := by
  unfold mul
  have e : cmul U256 a b = cmul U256 b a := by unfold cmul; rw [Nat.mul_comm]
  rw [e]
  split
  · rfl
  · rcases Nat.lt_trichotomy a b with h | h | h
    · rw [if_neg (by omega), if_pos (by omega)]
    · subst h; rfl
    · rw [if_pos (by omega), if_neg (by omega)]
  · rfl

/-- When the full-width product overflows, the result never exceeds the exact product and falls
short of it by less than the smaller operand. -/
theorem C13_mul_fallback (a b r : Nat) (h : 2 ^ 256 ≤ a * b) (hr : mul a b = .ok r) :
    val r ≤ val a * val b ∧ val a * val b < val r + min (val a) (val b) := by
  have key : ∀ a b r : Nat, 2 ^ 256 ≤ a * b → b ≤ a → mul a b = .ok r →
      val r ≤ val a * val b ∧ val a * val b < val r + val b := by
    intro a b r h hab hr
    unfold mul at hr
    have e : cmul U256 a b = .none := if_neg (Nat.not_lt.2 h)
    rw [e] at hr
    simp only [] at hr
    rw [if_pos hab, cdiv_ok ONE_ne, Res.ok_bind, cmul_eq_ok] at hr
    obtain ⟨_, rfl⟩ := hr
    have hb : 0 < b := by
      rcases Nat.eq_zero_or_pos b with h0 | h0
      · subst h0; simp at h
      · exact h0
    have h1 : a / ONE * ONE ≤ a := Nat.div_mul_le_self a ONE
    have h2 : a < (a / ONE + 1) * ONE := by
      rw [Nat.mul_comm]; exact Nat.lt_mul_div_succ _ ONE_pos
    rw [ONE_val] at *
    have h1q : ((a / 1000000000000000000 : Nat) : ℚ) * 1000000000000000000 ≤ a := by
      exact_mod_cast h1
    have h2q : (a : ℚ) < ((a / 1000000000000000000 : Nat) + 1) * 1000000000000000000 := by
      exact_mod_cast h2
    have hbq : (0 : ℚ) < b := by exact_mod_cast hb
    unfold val
    rw [div_mul_div_comm]
    constructor
    · rw [div_le_div_iff₀ (by positivity) (by positivity)]
      push_cast; nlinarith
    · rw [← add_div, div_lt_div_iff₀ (by positivity) (by positivity)]
      push_cast; nlinarith
  have mono : ∀ a b : Nat, b ≤ a → val b ≤ val a := fun a b hab => by
    unfold val
    have : (b : ℚ) ≤ a := by exact_mod_cast hab
    gcongr
  rcases Nat.le_total b a with hab | hab
  · rw [min_eq_right (mono a b hab)]; exact key a b r h hab hr
  · rw [min_eq_left (mono b a hab), mul_comm]
    exact key b a r (by rwa [Nat.mul_comm]) hab (by rwa [C13_mul_comm])

/-- The fallback is exercised by `2^200 * 2^100` (raw). -/
example : 2 ^ 256 ≤ 2 ^ 200 * 2 ^ 100 ∧
    mul (2 ^ 200) (2 ^ 100) = .ok (2 ^ 200 / 10 ^ 18 * 2 ^ 100) := by decide +kernel

example : mul 1500000000000000000 (3 * 10 ^ 18) = .ok 4500000000000000000 ∧
    div 1000000000000000000 (3 * 10 ^ 18) = .ok 333333333333333333 := by decide +kernel

/-! ### C14 -/

/-- The full statement of C14: the conversion truncates the last six decimals. -/
def C14_statement : Prop :=
  ∀ v r, v < 2 ^ 256 → toSpl v = .ok r → r = v / 10 ^ 6

/-- C14 for values whose fractional part is below one half.
Missing: fractional parts of one half and above, for which the statement is false
(`C14_false`, `C14_half_and_above`). -/
theorem C14_to_spl_partial (v r : Nat) (hf : v % 10 ^ 18 < 10 ^ 18 / 2) (h : toSpl v = .ok r) :
    r = v / 10 ^ 6 := by
  have h1 := toSpl_eq h
  have h2 : v % ONE < 500000000000000000 := hf
  rw [if_pos h2] at h1
  exact h1

/-- For every value with a fractional part of one half or more the result is exactly one too
large: the whole part was rounded up before the decimals were added. -/
theorem C14_half_and_above (v r : Nat) (hf : 10 ^ 18 / 2 ≤ v % 10 ^ 18) (h : toSpl v = .ok r) :
    r = v / 10 ^ 6 + 10 ^ 12 := by
  have h1 := toSpl_eq h
  have h2 : ¬ v % ONE < 500000000000000000 := Nat.not_lt.2 hf
  rw [if_neg h2] at h1
  exact h1

/-- C14 is false: 1.5 is converted to 2.5. -/
theorem C14_false : ¬ C14_statement := by
  intro h
  have h1 : toSpl 1500000000000000000 = .ok 2500000000000 := by decide +kernel
  have := h _ _ (by norm_num) h1
  norm_num at this

example : toSpl 1250000000000000000 = .ok 1250000000000 ∧
    1250000000000000000 % 10 ^ 18 < 10 ^ 18 / 2 := by decide +kernel

end Props
end Verif
