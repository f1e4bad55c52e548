import Verif.Model.Dfs
import Verif.Lemmas.Basic

/-
Facts about the 18-decimal fixed-point operations.
-/

namespace Verif
namespace Dfs

theorem ONE_pos : 0 < ONE := by decide
theorem ONE_ne : ONE ≠ 0 := by decide
theorem ONE_eq : ONE = SQRT_ONE * SQRT_ONE := by decide
theorem rc_eq : roundingCorrection = 500000000000000000 := by decide
theorem ONE_val : ONE = 1000000000000000000 := rfl

/-- Rounding correction disappears when a whole number is truncated. -/
theorem round_cancel (a : Nat) : (a * ONE + roundingCorrection) / ONE = a := by
  simp only [rc_eq, ONE_val]; omega

theorem new_ok {v : Nat} (h : v * ONE < U256) : new v = .ok (v * ONE) := cmul_ok h

theorem new_eq_ok {v r : Nat} : new v = .ok r ↔ v * ONE < U256 ∧ r = v * ONE := cmul_eq_ok

theorem mul_ok {a b : Nat} (h : a * b + roundingCorrection < U256) :
    mul a b = .ok ((a * b + roundingCorrection) / ONE) := by
  have h1 : a * b < U256 := by omega
  simp [mul, cmul_ok h1, cadd_ok h, cdiv_ok ONE_ne]

/-- Multiplying by a whole number is exact. -/
theorem mul_new_ok {a n : Nat} (h : a * (n * ONE) + roundingCorrection < U256) :
    mul a (n * ONE) = .ok (a * n) := by
  rw [mul_ok h]
  refine congrArg Res.ok ?_
  rw [← Nat.mul_assoc]
  exact round_cancel _

theorem div_ok {a b : Nat} (hb : b ≠ 0) (h : a * ONE + roundingCorrection < U256) :
    div a b = .ok ((a * ONE + roundingCorrection) / b) := by
  have h1 : a * ONE < U256 := by omega
  simp [div, hb, cmul_ok h1, cadd_ok h, cdiv_ok hb]

/-- Dividing by a whole number rounds down exactly. -/
theorem div_new_ok {a n : Nat} (hn : n ≠ 0) (h : a * ONE + roundingCorrection < U256) :
    div a (n * ONE) = .ok (a / n) := by
  have h0 : n * ONE ≠ 0 := Nat.mul_ne_zero hn ONE_ne
  rw [div_ok h0 h]
  refine congrArg Res.ok ?_
  rw [Nat.mul_comm n ONE, ← Nat.div_div_eq_div_mul, round_cancel]

theorem floor_ok {v : Nat} (h : v < U256) : floor v = .ok (v / ONE * ONE) := by
  have h1 : v / ONE * ONE < U256 := lt_of_le_of_lt (Nat.div_mul_le_self v ONE) h
  unfold floor
  rw [cdiv_ok ONE_ne, Res.ok_bind, cmul_ok h1]

theorem ceiling_ok {v : Nat} (h : v + ONE < U256) :
    ceiling v = .ok ((v + (ONE - 1)) / ONE * ONE) := by
  have h0 : v + (ONE - 1) < U256 := by omega
  have h1 : (v + (ONE - 1)) / ONE * ONE < U256 :=
    lt_of_le_of_lt (Nat.div_mul_le_self _ ONE) h0
  unfold ceiling
  rw [csub_ok ONE_pos, Res.ok_bind, cadd_ok h0, Res.ok_bind, cdiv_ok ONE_ne, Res.ok_bind,
    cmul_ok h1]

theorem toImprecise_ok {v : Nat} (h : v + roundingCorrection < U256)
    (h2 : (v + roundingCorrection) / ONE < U128) :
    toImprecise v = .ok ((v + roundingCorrection) / ONE) := by
  unfold toImprecise
  rw [cadd_ok h, Res.ok_bind, cdiv_ok ONE_ne, Res.ok_bind, if_pos h2]

theorem toImprecise_new {n : Nat} (h : n < U128) : toImprecise (n * ONE) = .ok n := by
  have h1 : n * ONE + roundingCorrection < U256 := by
    rw [U128_val] at h
    rw [rc_eq, ONE_val, U256_val]; omega
  rw [toImprecise_ok h1 (by rw [round_cancel]; exact h), round_cancel]

/-! ### Integer square root -/

theorem amgm (x z s : Nat) (hz : 0 < z) (hs : s * s ≤ x) : s ≤ (x / z + z) / 2 := by
  have h : 2 * s - z ≤ x / z := by
    rw [Nat.le_div_iff_mul_le hz]
    rcases Nat.le_total (2 * s) z with h | h
    · simp [Nat.sub_eq_zero_of_le h]
    · refine le_trans ?_ hs
      zify [h]
      nlinarith [sq_nonneg ((s : Int) - z)]
  omega

/-- Loop invariant of the Newton iteration. -/
theorem babLoop_spec (x s : Nat) (hx : 2 ≤ x) (hx64 : x < U64) (hs : s * s ≤ x)
    (hs2 : x < (s + 1) * (s + 1)) :
    ∀ fuel y z, y < fuel → s ≤ y → s ≤ z → z ≤ (x + 1) / 2 → (y ≤ z → y ≤ s) →
      babLoop x fuel y z = .ok s := by
  have hs1 : 1 ≤ s := by
    rcases Nat.eq_zero_or_pos s with h | h
    · subst h; simp at hs2; omega
    · exact h
  intro fuel
  induction fuel with
  | zero => intro y z h; omega
  | succ n ih =>
    intro y z hy hsy hsz hz hyz
    unfold babLoop
    by_cases hlt : z < y
    · have hz0 : z ≠ 0 := by omega
      have hzpos : 0 < z := by omega
      have hdz : x / z + z ≤ x + 1 := by
        rcases Nat.lt_or_ge z 2 with h | h
        · have : z = 1 := by omega
          subst this; simp
        · have h1 : x / z ≤ x / 2 := Nat.div_le_div_left h (by omega)
          omega
      have hlim : x / z + z < U64 := by
        rcases Nat.lt_or_ge z 2 with h | h
        · have h1 : z = 1 := by omega
          have h2 : s = 1 := by omega
          subst h1; subst h2; rw [Nat.div_one, U64_val]; omega
        · have h1 : x / z ≤ x / 2 := Nat.div_le_div_left h (by omega)
          omega
      simp only [hlt, if_true, cdiv_ok hz0, Res.ok_bind, cadd_ok hlim,
        cdiv_ok (show (2 : Nat) ≠ 0 by decide)]
      apply ih
      · omega
      · exact hsz
      · exact amgm x z s hzpos hs
      · omega
      · intro h
        have h1 : z ≤ x / z := by omega
        rw [Nat.le_div_iff_mul_le hzpos] at h1
        by_contra hc
        have : s + 1 ≤ z := by omega
        have := Nat.mul_le_mul this this
        omega
    · simp only [hlt, if_false]
      refine congrArg Res.ok ?_
      have := hyz (by omega)
      omega

/-- The integer square root with rounding direction, as a specification. -/
def isqrt (x : Nat) : Nat := Nat.sqrt x
/-- Rounded-up integer square root. -/
def csqrt (x : Nat) : Nat := if Nat.sqrt x * Nat.sqrt x < x then Nat.sqrt x + 1 else Nat.sqrt x

theorem isqrt_sq_le (x : Nat) : isqrt x * isqrt x ≤ x := Nat.sqrt_le x
theorem lt_isqrt_succ (x : Nat) : x < (isqrt x + 1) * (isqrt x + 1) := Nat.lt_succ_sqrt x
theorem le_csqrt_sq (x : Nat) : x ≤ csqrt x * csqrt x := by
  unfold csqrt; split
  · exact le_of_lt (Nat.lt_succ_sqrt x)
  · omega
theorem isqrt_le_csqrt (x : Nat) : isqrt x ≤ csqrt x := by
  unfold csqrt isqrt; split <;> omega
theorem csqrt_le_succ (x : Nat) : csqrt x ≤ isqrt x + 1 := by
  unfold csqrt isqrt; split <;> omega
theorem le_isqrt {n x : Nat} (h : n * n ≤ x) : n ≤ isqrt x := Nat.le_sqrt.2 h
theorem csqrt_le {n x : Nat} (h : x ≤ n * n) : csqrt x ≤ n := by
  unfold csqrt
  have h1 : Nat.sqrt x ≤ n := by
    have := Nat.sqrt_le_sqrt h
    rwa [Nat.sqrt_eq] at this
  split
  · rename_i h2
    rcases Nat.lt_or_ge (Nat.sqrt x) n with h3 | h3
    · exact h3
    · have : Nat.sqrt x = n := by omega
      rw [this] at h2; omega
  · exact h1
theorem isqrt_mono {x y : Nat} (h : x ≤ y) : isqrt x ≤ isqrt y := Nat.sqrt_le_sqrt h
theorem csqrt_mono {x y : Nat} (h : x ≤ y) : csqrt x ≤ csqrt y :=
  csqrt_le (le_trans h (le_csqrt_sq y))
theorem isqrt_lt {n x : Nat} (h : x < n * n) : isqrt x < n := Nat.sqrt_lt.2 h

/-- Square root in the rounding direction `up`. -/
def dsqrt (up : Bool) (x : Nat) : Nat := if up then csqrt x else isqrt x

theorem sqrtBabylonian_eq (x : Nat) (hx : x < U64) (up : Bool) :
    sqrtBabylonian x up = .ok (dsqrt up x) := by
  have hs := isqrt_sq_le x
  have hs2 := lt_isqrt_succ x
  have hlt : isqrt x < 4294967296 := isqrt_lt (by rw [U64_val] at hx; omega)
  have key : ∀ z, (z = (x + 1) / 2 ∨ (x + 1 ≥ U64 ∧ z = x / 2)) →
      babLoop x (x + 2) x z = .ok (isqrt x) := by
    intro z hz
    rw [U64_val] at hz
    rcases Nat.lt_or_ge x 2 with h | h
    · have h3 : x = 0 ∨ x = 1 := by omega
      rcases h3 with h3 | h3 <;> subst h3
      · have : z = 0 := by omega
        subst this; decide
      · have : z = 1 := by omega
        subst this
        have : isqrt 1 = 1 := by decide
        rw [this]; decide
    · apply babLoop_spec x (isqrt x) h hx hs hs2
      · omega
      · have : isqrt x ≤ isqrt x * isqrt x := Nat.le_mul_self _
        omega
      · rcases hz with hz | hz
        · have := amgm x x (isqrt x) (by omega) hs
          rw [Nat.div_self (by omega)] at this
          omega
        · omega
      · omega
      · intro h2
        omega
  have hyy : isqrt x * isqrt x < U64 := by omega
  have fin : (if up = true ∧ isqrt x * isqrt x < x then cadd U64 (isqrt x) 1
      else Res.ok (isqrt x)) = .ok (dsqrt up x) := by
    have h1 : isqrt x + 1 < U64 := by rw [U64_val]; omega
    cases up
    · simp [dsqrt]
    · simp only [true_and, dsqrt, if_true, csqrt, cadd_ok h1]
      split <;> rename_i h2 <;> simp only [isqrt] at h2 ⊢ <;> simp [h2]
  unfold sqrtBabylonian
  rcases Nat.lt_or_ge (x + 1) U64 with h | h
  · rw [cadd_ok h]
    simp only [cdiv_ok (show (2 : Nat) ≠ 0 by decide), Res.ok_bind]
    rw [key _ (Or.inl rfl)]
    simp only [Res.ok_bind, cmul_ok hyy]
    exact fin
  · have : cadd U64 x 1 = .none := by unfold cadd; split <;> first | omega | rfl
    rw [this]
    simp only [cdiv_ok (show (2 : Nat) ≠ 0 by decide), Res.ok_bind]
    rw [key _ (Or.inr ⟨h, rfl⟩)]
    simp only [Res.ok_bind, cmul_ok hyy]
    exact fin

end Dfs
end Verif
