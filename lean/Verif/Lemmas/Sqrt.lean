import Verif.Lemmas.Dfs

/-
Closed form of the fixed-point square root and its consequences.
-/

namespace Verif
namespace Dfs

/-- Half the bit length, rounded up: `4 ^ (half v - 1) ≤ v < 4 ^ half v` for positive `v`. -/
def half (v : Nat) : Nat := (bits v + 1) / 2

theorem lt_two_pow_bits (v : Nat) : v < 2 ^ bits v := by
  unfold bits
  split
  · subst_vars; decide
  · exact Nat.lt_log2_self

theorem two_pow_bits_le {v : Nat} (h : 0 < v) : 2 ^ (bits v - 1) ≤ v := by
  unfold bits
  rw [if_neg (by omega)]
  simpa using Nat.log2_self_le (by omega : v ≠ 0)

theorem bits_pos {v : Nat} (h : 0 < v) : 1 ≤ bits v := by
  unfold bits; rw [if_neg (by omega)]; omega

theorem four_pow (n : Nat) : (4 : Nat) ^ n = 2 ^ (2 * n) := by
  rw [Nat.pow_mul]

theorem four_pow' (n : Nat) : (4 : Nat) ^ n = 2 ^ n * 2 ^ n := by
  rw [← Nat.mul_pow]

theorem lt_four_pow_half (v : Nat) : v < 4 ^ half v := by
  rw [four_pow]
  refine lt_of_lt_of_le (lt_two_pow_bits v) (Nat.pow_le_pow_right (by decide) ?_)
  unfold half; omega

theorem four_pow_half_le {v : Nat} (h : 0 < v) : 4 ^ (half v - 1) ≤ v := by
  rw [four_pow]
  refine le_trans (Nat.pow_le_pow_right (by decide) ?_) (two_pow_bits_le h)
  have := bits_pos h
  unfold half; omega

theorem half_pos {v : Nat} (h : 0 < v) : 1 ≤ half v := by
  have := bits_pos h; unfold half; omega

theorem bits_le_of_lt {v n : Nat} (h : v < 2 ^ n) : bits v ≤ n := by
  rcases Nat.eq_zero_or_pos v with h0 | h0
  · subst h0; simp [bits]
  · by_contra hc
    have h1 : 2 ^ n ≤ 2 ^ (bits v - 1) := Nat.pow_le_pow_right (by decide) (by omega)
    have := two_pow_bits_le h0
    omega

theorem half_le_128 {v : Nat} (h : v < U256) : half v ≤ 128 := by
  have : bits v ≤ 256 := bits_le_of_lt h
  unfold half; omega

theorem half_mono {v w : Nat} (h : v ≤ w) : half v ≤ half w := by
  rcases Nat.eq_zero_or_pos v with h0 | h0
  · subst h0; simp [half, bits]
  · by_contra hc
    have h1 : 4 ^ half w ≤ 4 ^ (half v - 1) := Nat.pow_le_pow_right (by decide) (by omega)
    have := four_pow_half_le h0
    have := lt_four_pow_half w
    omega

/-- Division with a rounding direction. -/
def rdiv (up : Bool) (a b : Nat) : Nat := if up then (if a / b * b < a then a / b + 1 else a / b) else a / b

theorem rdiv_down (a b : Nat) : rdiv false a b = a / b := rfl

theorem le_rdiv_up {a b : Nat} (hb : 0 < b) : a ≤ rdiv true a b * b := by
  unfold rdiv
  simp only [if_true]
  split
  · have h1 := Nat.div_add_mod a b
    have h2 := Nat.mod_lt a hb
    have : (a / b + 1) * b = b * (a / b) + b := by ring
    omega
  · omega

theorem rdiv_up_lt {a b : Nat} (hb : 0 < b) : rdiv true a b * b < a + b := by
  unfold rdiv
  have := Nat.div_mul_le_self a b
  simp only [if_true]
  split
  · rw [Nat.add_mul]; omega
  · omega

theorem rdiv_up_le {a b n : Nat} (hb : 0 < b) (h : a ≤ n * b) : rdiv true a b ≤ n := by
  have := rdiv_up_lt (a := a) hb
  have h2 : rdiv true a b * b < (n + 1) * b := by rw [Nat.add_mul]; omega
  have := Nat.lt_of_mul_lt_mul_right h2
  omega

theorem rdiv_mono {up : Bool} {a a' b : Nat} (hb : 0 < b) (h : a ≤ a') :
    rdiv up a b ≤ rdiv up a' b := by
  cases up
  · exact Nat.div_le_div_right h
  · exact rdiv_up_le hb (le_trans h (le_rdiv_up hb))

theorem dsqrt_mono {up : Bool} {x y : Nat} (h : x ≤ y) : dsqrt up x ≤ dsqrt up y := by
  cases up
  · exact isqrt_mono h
  · exact csqrt_mono h

theorem dsqrt_le (up : Bool) {x : Nat} (h : x < U64) : dsqrt up x ≤ 4294967296 := by
  rw [U64_val] at h
  have : csqrt x ≤ 4294967296 := csqrt_le (by omega)
  have := isqrt_le_csqrt x
  cases up
  · simp only [dsqrt]; simp; omega
  · simpa [dsqrt]

theorem SQRT_ONE_val : SQRT_ONE = 1000000000 := rfl

theorem new_sqrt_one : new SQRT_ONE = .ok (SQRT_ONE * ONE) :=
  new_ok (by rw [SQRT_ONE_val, ONE_val, U256_val]; norm_num)

theorem shl_eq (v p : Nat) : v <<< (p * 2) = v * 4 ^ p := by
  rw [Nat.shiftLeft_eq, four_pow, Nat.mul_comm p 2]

theorem shr_eq (v p : Nat) : v >>> (p * 2) = v / 4 ^ p := by
  rw [Nat.shiftRight_eq_div_pow, four_pow, Nat.mul_comm p 2]

theorem new_two_pow {p : Nat} (hp : p ≤ 96) : new (2 ^ p) = .ok (2 ^ p * ONE) := by
  apply new_ok
  have : 2 ^ p ≤ 2 ^ 96 := Nat.pow_le_pow_right (by decide) hp
  have h2 : (2 : Nat) ^ 96 = 79228162514264337593543950336 := by norm_num
  rw [ONE_val, U256_val]; omega

theorem mul_pow_lt {a p n : Nat} (hp : p ≤ 96) (ha : a * 79228162514264337593543950336 < n) :
    a * 2 ^ p < n := by
  have : 2 ^ p ≤ 2 ^ 96 := Nat.pow_le_pow_right (by decide) hp
  have h2 : (2 : Nat) ^ 96 = 79228162514264337593543950336 := by norm_num
  rw [h2] at this
  exact lt_of_le_of_lt (Nat.mul_le_mul_left a this) ha

/-- Closed form for values of at most 64 bits. -/
theorem sqrtU64_small {v : Nat} (up : Bool) (h : half v ≤ 32) :
    sqrtU64 v up =
      .ok (rdiv up (dsqrt up (v * 4 ^ (32 - half v)) * SQRT_ONE) (2 ^ (32 - half v))) := by
  have hb : bits v ≤ 64 := by unfold half at h; omega
  obtain ⟨p, hp⟩ : ∃ p, p = 32 - half v := ⟨_, rfl⟩
  have hpad : (64 - bits v) / 2 = p := by rw [hp]; unfold half; omega
  rw [← hp]
  have hv4 : v * 4 ^ p < U64 := by
    have h1 : v * 4 ^ p < 4 ^ half v * 4 ^ p :=
      Nat.mul_lt_mul_of_pos_right (lt_four_pow_half v) (Nat.pow_pos (by decide))
    rw [← Nat.pow_add] at h1
    have h2 : half v + p = 32 := by omega
    rw [h2] at h1
    rw [U64_val]; norm_num at h1; exact h1
  have hmod : v * 4 ^ p % U256 = v * 4 ^ p := Nat.mod_eq_of_lt (by
    rw [U64_val] at hv4; rw [U256_val]; omega)
  have hs := dsqrt_le up hv4
  obtain ⟨s, hsd⟩ : ∃ s, s = dsqrt up (v * 4 ^ p) := ⟨_, rfl⟩
  rw [← hsd] at hs
  have e1 : mul s (SQRT_ONE * ONE) = .ok (s * SQRT_ONE) := mul_new_ok (by
    rw [SQRT_ONE_val, ONE_val, rc_eq, U256_val]; omega)
  have hp32 : p ≤ 96 := by omega
  have e2 : div (s * SQRT_ONE) (2 ^ p * ONE) = .ok (s * SQRT_ONE / 2 ^ p) :=
    div_new_ok (by positivity) (by rw [SQRT_ONE_val, ONE_val, rc_eq, U256_val]; omega)
  have hle := Nat.div_mul_le_self (s * SQRT_ONE) (2 ^ p)
  have e3 : mul (s * SQRT_ONE / 2 ^ p) (2 ^ p * ONE) = .ok (s * SQRT_ONE / 2 ^ p * 2 ^ p) :=
    mul_new_ok (by
      rw [← Nat.mul_assoc, SQRT_ONE_val] at *
      rw [ONE_val, rc_eq, U256_val]; omega)
  have hdl : s * SQRT_ONE / 2 ^ p ≤ s * SQRT_ONE := Nat.div_le_self _ _
  have e4 : add (s * SQRT_ONE / 2 ^ p) 1 = .ok (s * SQRT_ONE / 2 ^ p + 1) := cadd_ok (by
    rw [SQRT_ONE_val] at *; rw [U256_val]; omega)
  unfold sqrtU64
  simp only []
  rw [if_pos hb, hpad, Nat.mul_div_cancel _ (by decide : 0 < 2), shl_eq, hmod,
    new_two_pow hp32, Res.ok_bind, asUint_ok hv4, Res.ok_bind, sqrtBabylonian_eq _ hv4,
    Res.ok_bind, new_sqrt_one, Res.ok_bind, ← hsd, e1, Res.ok_bind, e2, Res.ok_bind, e3,
    Res.ok_bind, e4]
  cases up
  · rfl
  · unfold rdiv
    rw [if_pos rfl]
    by_cases hc : s * SQRT_ONE / 2 ^ p * 2 ^ p < s * SQRT_ONE
    · rw [if_pos ⟨rfl, hc⟩, if_pos hc]
    · rw [if_neg (fun hh => hc hh.2), if_neg hc]

/-- Closed form for values of more than 64 bits. -/
theorem sqrtU64_large {v : Nat} (up : Bool) (hv : v < U256) (h : 32 < half v) :
    sqrtU64 v up =
      if rdiv up v (4 ^ (half v - 32)) < U64 then
        .ok (dsqrt up (rdiv up v (4 ^ (half v - 32))) * SQRT_ONE * 2 ^ (half v - 32))
      else .panic := by
  have hb : ¬ bits v ≤ 64 := by unfold half at h; omega
  have h128 := half_le_128 hv
  obtain ⟨p, hp⟩ : ∃ p, p = half v - 32 := ⟨_, rfl⟩
  have hpad : (bits v - 64 + 1) / 2 = p := by rw [hp]; unfold half; omega
  rw [← hp]
  have hp96 : p ≤ 96 := by omega
  have hle : v / 4 ^ p * 4 ^ p ≤ v := Nat.div_mul_le_self _ _
  have hmod : v / 4 ^ p * 4 ^ p % U256 = v / 4 ^ p * 4 ^ p :=
    Nat.mod_eq_of_lt (lt_of_le_of_lt hle hv)
  have hq : v / 4 ^ p < U64 := by
    rw [Nat.div_lt_iff_lt_mul (Nat.pow_pos (by decide))]
    have h1 := lt_four_pow_half v
    have h2 : half v = 32 + p := by omega
    rw [h2, Nat.pow_add] at h1
    rw [U64_val]; norm_num at h1; exact h1
  have hpadded : (if up = true ∧ v / 4 ^ p * 4 ^ p < v then cadd U256 (v / 4 ^ p) 1
      else .ok (v / 4 ^ p)) = .ok (rdiv up v (4 ^ p)) := by
    have : v / 4 ^ p + 1 < U256 := by rw [U64_val] at hq; rw [U256_val]; omega
    rw [cadd_ok this]
    cases up
    · rfl
    · unfold rdiv
      rw [if_pos rfl]
      by_cases hc : v / 4 ^ p * 4 ^ p < v
      · rw [if_pos ⟨rfl, hc⟩, if_pos hc]
      · rw [if_neg (fun hh => hc hh.2), if_neg hc]
  unfold sqrtU64
  simp only []
  rw [if_neg hb, hpad, Nat.mul_div_cancel _ (by decide : 0 < 2), shr_eq, shl_eq, hmod,
    new_two_pow hp96, Res.ok_bind, Res.ite_bind, hpadded, Res.ok_bind]
  by_cases hx : rdiv up v (4 ^ p) < U64
  · rw [if_pos hx, asUint_ok hx, Res.ok_bind, sqrtBabylonian_eq _ hx, Res.ok_bind, new_sqrt_one,
      Res.ok_bind]
    have hs := dsqrt_le up hx
    obtain ⟨s, hsd⟩ : ∃ s, s = dsqrt up (rdiv up v (4 ^ p)) := ⟨_, rfl⟩
    rw [← hsd] at hs ⊢
    have e1 : mul s (SQRT_ONE * ONE) = .ok (s * SQRT_ONE) := mul_new_ok (by
      rw [SQRT_ONE_val, ONE_val, rc_eq, U256_val]; omega)
    rw [e1, Res.ok_bind]
    apply mul_new_ok
    have h3 : s * SQRT_ONE * (2 ^ p * ONE) = (s * SQRT_ONE * ONE) * 2 ^ p := by ring
    have h4 : s * SQRT_ONE * ONE * 2 ^ p <
        U256 - roundingCorrection := mul_pow_lt hp96 (by
      rw [SQRT_ONE_val, ONE_val, rc_eq, U256_val]; omega)
    rw [h3]; omega
  · rw [if_neg hx]
    have : asUint U64 (rdiv up v (4 ^ p)) = .panic := by unfold asUint; rw [if_neg hx]
    rw [this]; rfl

/-! ### Directed rounding -/

theorem dsqrt_down_sq (x : Nat) : dsqrt false x * dsqrt false x ≤ x := isqrt_sq_le x
theorem dsqrt_up_sq (x : Nat) : x ≤ dsqrt true x * dsqrt true x := le_csqrt_sq x

theorem sqrtU64_down_sq {v r : Nat} (hv : v < U256) (h : sqrtU64 v false = .ok r) :
    r * r ≤ v * ONE := by
  rw [ONE_eq]
  rcases Nat.lt_or_ge 32 (half v) with hh | hh
  · rw [sqrtU64_large false hv hh] at h
    split at h
    · injection h with h; subst h
      obtain ⟨p, hp⟩ : ∃ p, p = half v - 32 := ⟨_, rfl⟩
      rw [← hp]
      have h1 := dsqrt_down_sq (rdiv false v (4 ^ p))
      have h2 : rdiv false v (4 ^ p) * 4 ^ p ≤ v := Nat.div_mul_le_self _ _
      calc _ = (dsqrt false (rdiv false v (4 ^ p)) * dsqrt false (rdiv false v (4 ^ p))) *
            4 ^ p * (SQRT_ONE * SQRT_ONE) := by rw [four_pow']; ring
        _ ≤ rdiv false v (4 ^ p) * 4 ^ p * (SQRT_ONE * SQRT_ONE) := by gcongr
        _ ≤ _ := by gcongr
    · cases h
  · rw [sqrtU64_small false hh] at h
    injection h with h; subst h
    obtain ⟨p, hp⟩ : ∃ p, p = 32 - half v := ⟨_, rfl⟩
    rw [← hp, rdiv_down]
    have h1 := dsqrt_down_sq (v * 4 ^ p)
    obtain ⟨s, hs⟩ : ∃ s, s = dsqrt false (v * 4 ^ p) := ⟨_, rfl⟩
    rw [← hs] at h1 ⊢
    have h2 : s * SQRT_ONE / 2 ^ p * 2 ^ p ≤ s * SQRT_ONE := Nat.div_mul_le_self _ _
    have h3 : (s * SQRT_ONE / 2 ^ p) * (s * SQRT_ONE / 2 ^ p) * 4 ^ p ≤
        v * (SQRT_ONE * SQRT_ONE) * 4 ^ p := by
      calc _ = (s * SQRT_ONE / 2 ^ p * 2 ^ p) * (s * SQRT_ONE / 2 ^ p * 2 ^ p) := by
            rw [four_pow']; ring
        _ ≤ (s * SQRT_ONE) * (s * SQRT_ONE) := Nat.mul_le_mul h2 h2
        _ = s * s * (SQRT_ONE * SQRT_ONE) := by ring
        _ ≤ v * 4 ^ p * (SQRT_ONE * SQRT_ONE) := by gcongr
        _ = _ := by ring
    exact Nat.le_of_mul_le_mul_right h3 (Nat.pow_pos (by decide))

theorem sqrtU64_up_sq {v r : Nat} (hv : v < U256) (h : sqrtU64 v true = .ok r) :
    v * ONE ≤ r * r := by
  rw [ONE_eq]
  rcases Nat.lt_or_ge 32 (half v) with hh | hh
  · rw [sqrtU64_large true hv hh] at h
    split at h
    · injection h with h; subst h
      obtain ⟨p, hp⟩ : ∃ p, p = half v - 32 := ⟨_, rfl⟩
      rw [← hp]
      have h1 := dsqrt_up_sq (rdiv true v (4 ^ p))
      have h2 : v ≤ rdiv true v (4 ^ p) * 4 ^ p := le_rdiv_up (Nat.pow_pos (by decide))
      calc v * (SQRT_ONE * SQRT_ONE)
          ≤ rdiv true v (4 ^ p) * 4 ^ p * (SQRT_ONE * SQRT_ONE) := by gcongr
        _ ≤ (dsqrt true (rdiv true v (4 ^ p)) * dsqrt true (rdiv true v (4 ^ p))) *
            4 ^ p * (SQRT_ONE * SQRT_ONE) := by gcongr
        _ = _ := by rw [four_pow']; ring
    · cases h
  · rw [sqrtU64_small true hh] at h
    injection h with h; subst h
    obtain ⟨p, hp⟩ : ∃ p, p = 32 - half v := ⟨_, rfl⟩
    rw [← hp]
    have h1 := dsqrt_up_sq (v * 4 ^ p)
    obtain ⟨s, hs⟩ : ∃ s, s = dsqrt true (v * 4 ^ p) := ⟨_, rfl⟩
    rw [← hs] at h1 ⊢
    obtain ⟨r, hr⟩ : ∃ r, r = rdiv true (s * SQRT_ONE) (2 ^ p) := ⟨_, rfl⟩
    have h2 : s * SQRT_ONE ≤ r * 2 ^ p := by
      rw [hr]; exact le_rdiv_up (Nat.pow_pos (by decide))
    rw [← hr]
    have h3 : v * (SQRT_ONE * SQRT_ONE) * 4 ^ p ≤ r * r * 4 ^ p := by
      calc _ = v * 4 ^ p * (SQRT_ONE * SQRT_ONE) := by ring
        _ ≤ s * s * (SQRT_ONE * SQRT_ONE) := by gcongr
        _ = (s * SQRT_ONE) * (s * SQRT_ONE) := by ring
        _ ≤ (r * 2 ^ p) * (r * 2 ^ p) := Nat.mul_le_mul h2 h2
        _ = _ := by rw [four_pow']; ring
    exact Nat.le_of_mul_le_mul_right h3 (Nat.pow_pos (by decide))

theorem sqrtU64_down_total {v : Nat} (hv : v < U256) : ∃ r, sqrtU64 v false = .ok r := by
  rcases Nat.lt_or_ge 32 (half v) with hh | hh
  · rw [sqrtU64_large false hv hh, if_pos]
    · exact ⟨_, rfl⟩
    · rw [rdiv_down, Nat.div_lt_iff_lt_mul (Nat.pow_pos (by decide))]
      have h1 := lt_four_pow_half v
      have h2 : half v = 32 + (half v - 32) := by omega
      rw [h2, Nat.pow_add] at h1
      rw [U64_val]; norm_num at h1; exact h1
  · rw [sqrtU64_small false hh]; exact ⟨_, rfl⟩

theorem sqrtU64_ne_none {v : Nat} (up : Bool) (hv : v < U256) : sqrtU64 v up ≠ .none := by
  rcases Nat.lt_or_ge 32 (half v) with hh | hh
  · rw [sqrtU64_large up hv hh]; split <;> simp
  · rw [sqrtU64_small up hh]; simp

theorem half_eq {v h : Nat} (h1 : 4 ^ h ≤ v) (h2 : v < 4 ^ (h + 1)) : half v = h + 1 := by
  have hpos : 0 < v := lt_of_lt_of_le (Nat.pow_pos (by decide)) h1
  have h3 : half v ≤ h + 1 := by
    by_contra hc
    have h4 : 4 ^ (h + 1) ≤ 4 ^ (half v - 1) := Nat.pow_le_pow_right (by decide) (by omega)
    have := four_pow_half_le hpos
    omega
  have h5 : h < half v := by
    by_contra hc
    have h4 : 4 ^ half v ≤ 4 ^ h := Nat.pow_le_pow_right (by decide) (by omega)
    have := lt_four_pow_half v
    omega
  omega

/-- The abort case: the part kept by the scaling rounds up to `2^64`. -/
theorem sqrtU64_up_panic_iff {v : Nat} (hv : v < U256) :
    sqrtU64 v true = .panic ↔
      ∃ h, 1 ≤ h ∧ (2 ^ 64 - 1) * 4 ^ h < v ∧ v < 2 ^ 64 * 4 ^ h := by
  have e64 : (2 : Nat) ^ 64 = U64 := rfl
  constructor
  · intro hp
    rcases Nat.lt_or_ge 32 (half v) with hh | hh
    · rw [sqrtU64_large true hv hh] at hp
      split at hp
      · cases hp
      · rename_i hx
        refine ⟨half v - 32, by omega, ?_, ?_⟩
        · have := rdiv_up_lt (a := v) (b := 4 ^ (half v - 32)) (Nat.pow_pos (by decide))
          have h3 : U64 * 4 ^ (half v - 32) ≤ rdiv true v (4 ^ (half v - 32)) * 4 ^ (half v - 32) :=
            Nat.mul_le_mul_right _ (by omega)
          have h4 : 1 * 4 ^ (half v - 32) ≤ U64 * 4 ^ (half v - 32) :=
            Nat.mul_le_mul_right _ (by rw [U64_val]; decide)
          rw [e64, Nat.sub_mul]
          omega
        · have h1 := lt_four_pow_half v
          have h2 : half v = 32 + (half v - 32) := by omega
          rw [h2, Nat.pow_add] at h1
          norm_num at h1 ⊢; exact h1
    · rw [sqrtU64_small true hh] at hp; cases hp
  · rintro ⟨h, h1, h2, h3⟩
    have hhalf : half v = (31 + h) + 1 := by
      apply half_eq
      · refine le_trans ?_ (le_of_lt h2)
        rw [Nat.pow_add]
        exact Nat.mul_le_mul_right _ (by norm_num)
      · have : 31 + h + 1 = 32 + h := by omega
        rw [this, Nat.pow_add]
        norm_num at h3 ⊢; exact h3
    have hh : 32 < half v := by omega
    have hsub : half v - 32 = h := by omega
    rw [sqrtU64_large true hv hh, hsub, if_neg]
    intro hx
    have := le_rdiv_up (a := v) (b := 4 ^ h) (Nat.pow_pos (by decide))
    have h5 : rdiv true v (4 ^ h) * 4 ^ h ≤ (2 ^ 64 - 1) * 4 ^ h :=
      Nat.mul_le_mul_right _ (by rw [e64]; omega)
    omega

/-! ### Powers of four, monotonicity -/

theorem down_ge_pow {v r t : Nat} (hv : v < U256) (ht : 4 ^ t ≤ v)
    (h : sqrtU64 v false = .ok r) : 2 ^ t * SQRT_ONE ≤ r := by
  have hpos : 0 < v := lt_of_lt_of_le (Nat.pow_pos (by decide)) ht
  have hT : t < half v := by
    by_contra hc
    have h4 : 4 ^ half v ≤ 4 ^ t := Nat.pow_le_pow_right (by decide) (by omega)
    have := lt_four_pow_half v
    omega
  rcases Nat.lt_or_ge 32 (half v) with hh | hh
  · rw [sqrtU64_large false hv hh] at h
    split at h
    · injection h with h; subst h
      obtain ⟨p, hp⟩ : ∃ p, p = half v - 32 := ⟨_, rfl⟩
      rw [← hp, rdiv_down]
      have h1 : 4 ^ (half v - 1) ≤ v := four_pow_half_le hpos
      have h2 : half v - 1 = 31 + p := by omega
      rw [h2, Nat.pow_add] at h1
      have h3 : 4 ^ 31 ≤ v / 4 ^ p := by
        rw [Nat.le_div_iff_mul_le (Nat.pow_pos (by decide))]; exact h1
      have h4 : 2 ^ 31 ≤ dsqrt false (v / 4 ^ p) := le_isqrt (by rw [← four_pow']; exact h3)
      have h5 : 2 ^ t ≤ 2 ^ 31 * 2 ^ p := by
        rw [← Nat.pow_add]; exact Nat.pow_le_pow_right (by decide) (by omega)
      calc 2 ^ t * SQRT_ONE ≤ 2 ^ 31 * 2 ^ p * SQRT_ONE := by gcongr
        _ ≤ dsqrt false (v / 4 ^ p) * 2 ^ p * SQRT_ONE := by gcongr
        _ = _ := by ring
    · cases h
  · rw [sqrtU64_small false hh] at h
    injection h with h; subst h
    obtain ⟨p, hp⟩ : ∃ p, p = 32 - half v := ⟨_, rfl⟩
    rw [← hp, rdiv_down, Nat.le_div_iff_mul_le (Nat.pow_pos (by decide))]
    have h4 : 2 ^ (t + p) ≤ dsqrt false (v * 4 ^ p) := le_isqrt (by
      rw [← four_pow', Nat.pow_add]; gcongr)
    calc 2 ^ t * SQRT_ONE * 2 ^ p = 2 ^ (t + p) * SQRT_ONE := by rw [Nat.pow_add]; ring
      _ ≤ _ := by gcongr

theorem up_le_pow {v r t : Nat} (hv : v < U256) (ht : v ≤ 4 ^ t)
    (h : sqrtU64 v true = .ok r) : r ≤ 2 ^ t * SQRT_ONE := by
  have hT : half v ≤ t + 1 := by
    rcases Nat.eq_zero_or_pos v with h0 | h0
    · subst h0; simp [half, bits]
    · by_contra hc
      have h4 : 4 ^ (t + 1) ≤ 4 ^ (half v - 1) := Nat.pow_le_pow_right (by decide) (by omega)
      have h5 := four_pow_half_le h0
      have : 4 ^ t < 4 ^ (t + 1) := Nat.pow_lt_pow_right (by decide) (by omega)
      omega
  rcases Nat.lt_or_ge 32 (half v) with hh | hh
  · rw [sqrtU64_large true hv hh] at h
    split at h
    · injection h with h; subst h
      obtain ⟨p, hp⟩ : ∃ p, p = half v - 32 := ⟨_, rfl⟩
      rw [← hp]
      have h1 : rdiv true v (4 ^ p) ≤ 4 ^ (t - p) := by
        apply rdiv_up_le (Nat.pow_pos (by decide))
        rw [← Nat.pow_add]
        have : t - p + p = t := by omega
        rw [this]; exact ht
      have h4 : dsqrt true (rdiv true v (4 ^ p)) ≤ 2 ^ (t - p) := csqrt_le (by
        rw [← four_pow']; exact h1)
      calc _ ≤ 2 ^ (t - p) * SQRT_ONE * 2 ^ p := by gcongr
        _ = 2 ^ (t - p + p) * SQRT_ONE := by rw [Nat.pow_add]; ring
        _ = _ := by
          have : t - p + p = t := by omega
          rw [this]
    · cases h
  · rw [sqrtU64_small true hh] at h
    injection h with h; subst h
    obtain ⟨p, hp⟩ : ∃ p, p = 32 - half v := ⟨_, rfl⟩
    rw [← hp]
    apply rdiv_up_le (Nat.pow_pos (by decide))
    have h4 : dsqrt true (v * 4 ^ p) ≤ 2 ^ (t + p) := csqrt_le (by
      rw [← four_pow', Nat.pow_add]; gcongr)
    calc _ ≤ 2 ^ (t + p) * SQRT_ONE := by gcongr
      _ = _ := by rw [Nat.pow_add]; ring

theorem sqrtU64_down_le_up {v r r' : Nat} (hv : v < U256) (h : sqrtU64 v false = .ok r)
    (h' : sqrtU64 v true = .ok r') : r ≤ r' := by
  have h1 := sqrtU64_down_sq hv h
  have h2 := sqrtU64_up_sq hv h'
  by_contra hc
  have : r' * r' < r * r := Nat.mul_lt_mul'' (by omega) (by omega)
  omega

theorem sqrtU64_zero {up : Bool} : sqrtU64 0 up = .ok 0 := by cases up <;> decide +kernel

theorem sqrtU64_mono {up : Bool} {v w r r' : Nat} (hvw : v ≤ w) (hw : w < U256)
    (h : sqrtU64 v up = .ok r) (h' : sqrtU64 w up = .ok r') : r ≤ r' := by
  have hv : v < U256 := lt_of_le_of_lt hvw hw
  rcases Nat.lt_or_ge (half v) (half w) with hh | hh
  · have h1 : v ≤ 4 ^ half v := le_of_lt (lt_four_pow_half v)
    have hwpos : 0 < w := by
      rcases Nat.eq_zero_or_pos w with h0 | h0
      · subst h0; simp [half, bits] at hh
      · exact h0
    have h2 : 4 ^ half v ≤ w := le_trans (Nat.pow_le_pow_right (by decide) (by omega))
      (four_pow_half_le hwpos)
    obtain ⟨dv, hdv⟩ := sqrtU64_down_total hv
    obtain ⟨dw, hdw⟩ := sqrtU64_down_total hw
    have h3 := down_ge_pow hw h2 hdw
    cases up
    · rw [hdw] at h'; injection h' with h'; subst h'
      refine le_trans ?_ h3
      have h4 := sqrtU64_down_sq hv h
      by_contra hc
      have h5 : (2 ^ half v * SQRT_ONE) * (2 ^ half v * SQRT_ONE) < r * r :=
        Nat.mul_lt_mul'' (by omega) (by omega)
      have h6 : (2 ^ half v * SQRT_ONE) * (2 ^ half v * SQRT_ONE) = 4 ^ half v * ONE := by
        rw [ONE_eq, four_pow']; ring
      have h7 : v * ONE ≤ 4 ^ half v * ONE := Nat.mul_le_mul_right _ h1
      omega
    · exact le_trans (up_le_pow hv h1 h) (le_trans h3 (sqrtU64_down_le_up hw hdw h'))
  · have he : half v = half w := le_antisymm (half_mono hvw) hh
    rcases Nat.lt_or_ge 32 (half v) with hl | hl
    · rw [sqrtU64_large up hv hl] at h
      rw [sqrtU64_large up hw (by omega), ← he] at h'
      split at h
      · split at h'
        · injection h with h; injection h' with h'; subst h h'
          have : dsqrt up (rdiv up v (4 ^ (half v - 32))) ≤
              dsqrt up (rdiv up w (4 ^ (half v - 32))) :=
            dsqrt_mono (rdiv_mono (Nat.pow_pos (by decide)) hvw)
          gcongr
        · cases h'
      · cases h
    · rw [sqrtU64_small up hl] at h
      rw [sqrtU64_small up (by omega), ← he] at h'
      injection h with h; injection h' with h'; subst h h'
      apply rdiv_mono (Nat.pow_pos (by decide))
      have : dsqrt up (v * 4 ^ (32 - half v)) ≤ dsqrt up (w * 4 ^ (32 - half v)) :=
        dsqrt_mono (Nat.mul_le_mul_right _ hvw)
      gcongr

end Dfs
end Verif
