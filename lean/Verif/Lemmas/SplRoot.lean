import Verif.Lemmas.Basic
import Verif.Model.SplRoot
import Mathlib.Data.Nat.Sqrt
import Mathlib.Tactic.Ring
import Mathlib.Tactic.Linarith

/-
The square root of `spl-math`: its rounds stop, and where.
-/

namespace Verif
namespace Spl

/-! ### The rounds on natural numbers -/

/-- One round, for the number `n` whose root is sought. -/
def rnd (n g : Nat) : Nat := (g + n / g) / 2

theorem rnd_lower {n g : Nat} (hg : 0 < g) : n < (rnd n g + 1) * (rnd n g + 1) := by
  unfold rnd
  have h1 : n < g * (n / g + 1) := Nat.lt_mul_div_succ n hg
  generalize n / g = q at *
  have h2 : g + q ≤ 2 * ((g + q) / 2) + 1 := by omega
  generalize (g + q) / 2 = m at *
  have h3 : (g + q + 1) * (g + q + 1) ≤ (2 * (m + 1)) * (2 * (m + 1)) := Nat.mul_self_le_mul_self (by omega)
  have h4 : 4 * (g * (q + 1)) ≤ (g + q + 1) * (g + q + 1) := by
    zify
    nlinarith [sq_nonneg ((g : Int) - (q + 1))]
  nlinarith

theorem rnd_upper (n g : Nat) : 2 * (g * rnd n g) ≤ g * g + n := by
  unfold rnd
  have h1 : g * (n / g) ≤ n := Nat.mul_div_le n g
  generalize n / g = q at *
  have h2 : 2 * ((g + q) / 2) ≤ g + q := by omega
  calc 2 * (g * ((g + q) / 2)) = g * (2 * ((g + q) / 2)) := by ring
    _ ≤ g * (g + q) := Nat.mul_le_mul_left _ h2
    _ = g * g + g * q := by ring
    _ ≤ _ := by omega

theorem sqrt_le_rnd {n g : Nat} (hg : 0 < g) : Nat.sqrt n ≤ rnd n g :=
  Nat.lt_succ_iff.1 (Nat.sqrt_lt.2 (rnd_lower hg))

/-- A guess above the root is at least halfway closer after a round. -/
theorem rnd_half {n g : Nat} (h : Nat.sqrt n < g) : 2 * rnd n g ≤ g + Nat.sqrt n := by
  have h1 : n / g ≤ Nat.sqrt n := by
    have h2 : n < g * (Nat.sqrt n + 1) :=
      lt_of_lt_of_le (Nat.lt_succ_sqrt n) (Nat.mul_le_mul_right _ h)
    have := Nat.div_lt_of_lt_mul h2
    omega
  unfold rnd
  omega

theorem rnd_at {n : Nat} (_h : 0 < Nat.sqrt n) : rnd n (Nat.sqrt n) ≤ Nat.sqrt n + 1 := by
  have h1 : n / Nat.sqrt n ≤ Nat.sqrt n + 2 := by
    apply Nat.div_le_of_le_mul
    have := Nat.lt_succ_sqrt n
    nlinarith
  unfold rnd
  omega

/-- Near the root the distance is squared. -/
theorem rnd_square {n g : Nat} (h : Nat.sqrt n ≤ g) (h0 : 0 < Nat.sqrt n) :
    2 * (Nat.sqrt n * (rnd n g - Nat.sqrt n)) ≤ (g - Nat.sqrt n) * (g - Nat.sqrt n) + 2 * Nat.sqrt n := by
  have h1 := rnd_upper n g
  have h2 : Nat.sqrt n ≤ rnd n g := sqrt_le_rnd (by omega)
  have h3 := Nat.lt_succ_sqrt n
  obtain ⟨d, rfl⟩ := Nat.exists_eq_add_of_le h
  obtain ⟨x, hx⟩ := Nat.exists_eq_add_of_le h2
  rw [hx] at h1 ⊢
  rw [Nat.add_sub_cancel_left, Nat.add_sub_cancel_left]
  generalize Nat.sqrt n = t at *
  have h4 : t * x ≤ (t + d) * x := Nat.mul_le_mul_right _ (by omega)
  simp only [Nat.succ_eq_add_one] at h3
  nlinarith

/-! ### The rounds stop -/

/-- The distance between two guesses. -/
def gap (a b : Nat) : Nat := if b ≤ a then a - b else b - a

/-- The loop on natural numbers. -/
def loop (n : Nat) : Nat → Nat → Nat
  | 0, g => g
  | k + 1, g => if gap g (rnd n g) < 100 then rnd n g else loop n k (rnd n g)

def Stops (n r : Nat) : Prop := ∃ g, 0 < g ∧ r = rnd n g ∧ gap g r < 100

theorem loop_close {n : Nat} (k : Nat) : ∀ {c g : Nat}, 4 ≤ c → 4 ≤ Nat.sqrt n → Nat.sqrt n ≤ g →
    c * (g - Nat.sqrt n) ≤ Nat.sqrt n + 2 * c → Nat.sqrt n < (fun c => 2 * c * c)^[k] c →
    Stops n (loop n (k + 1) g) := by
  induction k with
  | zero =>
    intro c g hc ht hg hd hk
    have hk' : Nat.sqrt n < c := hk
    have h1 : g - Nat.sqrt n < 3 := by
      by_contra h
      have : c * 3 ≤ c * (g - Nat.sqrt n) := Nat.mul_le_mul_left _ (by omega)
      omega
    have h2 : Nat.sqrt n ≤ rnd n g := sqrt_le_rnd (by omega)
    have h3 : rnd n g ≤ g + 1 := by
      rcases Nat.eq_or_lt_of_le hg with h | h
      · rw [← h]; exact rnd_at (by omega)
      · have := rnd_half h; omega
    have h4 : gap g (rnd n g) < 100 := by unfold gap; split <;> omega
    refine ⟨g, by omega, ?_, ?_⟩
    · show (if _ then _ else _) = _
      rw [if_pos h4]
    · show gap g (if _ then _ else _) < 100
      rw [if_pos h4]; exact h4
  | succ k ih =>
    intro c g hc ht hg hd hk
    unfold loop
    split
    · rename_i h4
      exact ⟨g, by omega, rfl, h4⟩
    · have h2 : Nat.sqrt n ≤ rnd n g := sqrt_le_rnd (by omega)
      refine ih (c := 2 * c * c) (by nlinarith) ht h2 ?_ hk
      have h5 := rnd_square hg (by omega)
      generalize rnd n g - Nat.sqrt n = x at *
      generalize g - Nat.sqrt n = d at *
      generalize Nat.sqrt n = t at *
      refine Nat.le_of_mul_le_mul_left (c := t) ?_ (by omega)
      have h6 : c * d * (c * d) ≤ (t + 2 * c) * (t + 2 * c) := Nat.mul_self_le_mul_self hd
      have h7 : c * c * (2 * (t * x)) ≤ c * c * (d * d + 2 * t) := Nat.mul_le_mul_left _ h5
      have h8 : 2 * t + 2 * c ≤ c * t := by
        obtain ⟨a, rfl⟩ := Nat.exists_eq_add_of_le hc
        obtain ⟨b, rfl⟩ := Nat.exists_eq_add_of_le ht
        nlinarith [Nat.zero_le (a * b)]
      have h9 : c * (2 * t + 2 * c) ≤ c * (c * t) := Nat.mul_le_mul_left _ h8
      nlinarith

theorem loop_far {n : Nat} (ht : 4 ≤ Nat.sqrt n) (hn : Nat.sqrt n < 2 ^ 191) (k : Nat) : ∀ {g : Nat},
    Nat.sqrt n ≤ g → 4 * (g - Nat.sqrt n) ≤ 2 ^ k * Nat.sqrt n → Stops n (loop n (k + 7) g) := by
  induction k with
  | zero =>
    intro g hg hd
    exact loop_close 6 (c := 4) (le_refl _) ht hg (by omega)
      (lt_of_lt_of_le hn (by decide))
  | succ k ih =>
    intro g hg hd
    show Stops n (loop n ((k + 7) + 1) g)
    unfold loop
    split
    · rename_i h4
      exact ⟨g, by omega, rfl, h4⟩
    · have h2 : Nat.sqrt n ≤ rnd n g := sqrt_le_rnd (by omega)
      refine ih h2 ?_
      rw [Nat.pow_succ] at hd
      rcases Nat.eq_or_lt_of_le hg with h | h
      · rw [← h]
        have := rnd_at (n := n) (by omega)
        have h3 : 1 * Nat.sqrt n ≤ 2 ^ k * Nat.sqrt n := Nat.mul_le_mul_right _ Nat.one_le_two_pow
        omega
      · have := rnd_half h
        have h3 : 2 ^ k * 2 * Nat.sqrt n = 2 * (2 ^ k * Nat.sqrt n) := by ring
        omega

/-! ### The library's arithmetic does these rounds -/

theorem half_sum {x : Nat} (hx : x < 2 ^ 210) : div x (2 * ONE) = .ok (x / 2) := by
  have hx' : x < 1645504557321206042154969182557350504982735865633579863348609024 := hx
  have a1 : x * ONE < U256 := by
    show x * 1000000000000 < 115792089237316195423570985008687907853269984665640564039457584007913129639936
    omega
  have a2 : x * ONE + ONE / 2 < U256 := by
    show x * 1000000000000 + 500000000000 < 115792089237316195423570985008687907853269984665640564039457584007913129639936
    omega
  unfold div
  rw [if_neg (by decide), cmul_ok a1]
  show (cadd U256 (x * ONE) (ONE / 2) >>= fun s => cdiv s (2 * ONE)) = _
  rw [cadd_ok a2, Res.ok_bind, cdiv_ok (by decide)]
  congr 1
  show (x * 1000000000000 + 500000000000) / 2000000000000 = x / 2
  omega

theorem arg_lt {v : Nat} (hv : v ≤ 2 ^ 128 * ONE) : v * ONE + ONE / 2 < 2 ^ 208 := by
  have hv' : v ≤ 340282366920938463463374607431768211456000000000000 := hv
  show v * 1000000000000 + 500000000000 < 411376139330301510538742295639337626245683966408394965837152256
  omega

theorem rootRound_eq {v g : Nat} (hv : v ≤ 2 ^ 128 * ONE) (hg0 : 0 < g) (hg : g < 2 ^ 170) :
    rootRound v g = .ok (rnd (v * ONE + ONE / 2) g) := by
  have hg' : g < 1496577676626844588240573268701473812127674924007424 := hg
  have hv2 := arg_lt hv
  have hU : (2 : Nat) ^ 208 < U256 := by decide
  have a1 : ONE * g < U256 := by
    show 1000000000000 * g < 115792089237316195423570985008687907853269984665640564039457584007913129639936
    omega
  have a2 : ONE * g + ONE / 2 < U256 := by
    show 1000000000000 * g + 500000000000 < 115792089237316195423570985008687907853269984665640564039457584007913129639936
    omega
  have e1 : mul ONE g = .ok g := by
    unfold mul
    rw [cmul_ok a1]
    show (cadd U256 (ONE * g) (ONE / 2) >>= fun s => cdiv s ONE) = _
    rw [cadd_ok a2, Res.ok_bind, cdiv_ok (by decide)]
    congr 1
    show (1000000000000 * g + 500000000000) / 1000000000000 = g
    omega
  have hq : (v * ONE + ONE / 2) / g ≤ v * ONE + ONE / 2 := Nat.div_le_self _ _
  have e2 : div v g = .ok ((v * ONE + ONE / 2) / g) := by
    unfold div
    rw [if_neg (by omega), cmul_ok (lt_of_le_of_lt (Nat.le_add_right _ _) (hv2.trans hU))]
    show (cadd U256 (v * ONE) (ONE / 2) >>= fun s => cdiv s g) = _
    rw [cadd_ok (hv2.trans hU), Res.ok_bind, cdiv_ok (by omega)]
  unfold rootRound
  rw [e1, Res.ok_bind, e2, Res.ok_bind]
  unfold rnd
  generalize (v * ONE + ONE / 2) / g = q at *
  have hq' : q < 411376139330301510538742295639337626245683966408394965837152256 := lt_of_le_of_lt hq hv2
  have a3 : g + q < U256 := by
    show g + q < 115792089237316195423570985008687907853269984665640564039457584007913129639936
    omega
  have e3 : add g q = .ok (g + q) := cadd_ok a3
  rw [e3, Res.ok_bind]
  exact half_sum (by show g + q < 1645504557321206042154969182557350504982735865633579863348609024; omega)

theorem root_lt {v : Nat} (hv : v ≤ 2 ^ 128 * ONE) : Nat.sqrt (v * ONE + ONE / 2) < 2 ^ 110 := by
  rw [Nat.sqrt_lt]
  exact (arg_lt hv).trans (by decide)

theorem rootLoop_eq {v : Nat} (hv : v ≤ 2 ^ 128 * ONE) (h0 : 0 < Nat.sqrt (v * ONE + ONE / 2)) (k : Nat) :
    ∀ {g : Nat}, Nat.sqrt (v * ONE + ONE / 2) ≤ g → g < 2 ^ 170 →
      rootLoop v k g = .ok (loop (v * ONE + ONE / 2) k g) := by
  have ht := root_lt hv
  induction k with
  | zero => intro g _ _; rfl
  | succ k ih =>
    intro g hg hG
    show (rootRound v g >>= fun g' => _) = _
    rw [rootRound_eq hv (by omega) hG, Res.ok_bind]
    have h2 : Nat.sqrt (v * ONE + ONE / 2) ≤ rnd (v * ONE + ONE / 2) g := sqrt_le_rnd (by omega)
    have h3 : rnd (v * ONE + ONE / 2) g < 2 ^ 170 := by
      rcases Nat.eq_or_lt_of_le hg with h | h
      · rw [← h]
        have := rnd_at (n := v * ONE + ONE / 2) h0
        omega
      · have := rnd_half h; omega
    unfold loop
    show (if gap g _ < 100 then _ else _) = _
    split
    · rfl
    · exact ih h2 h3

/-- On its whole range the library's root is the true one to the last digit: with `n` the argument and half
a unit, its square is above `n` less one step and not more than 9801 units above `n`. -/
theorem sqrt_spec {v : Nat} (h0 : 0 < v) (hv : v ≤ (U128 - 1) * ONE) :
    ∃ r, sqrt v = .ok r ∧ v * ONE + ONE / 2 < (r + 1) * (r + 1) ∧ r * r ≤ v * ONE + ONE / 2 + 9801 := by
  have hv' : v ≤ 2 ^ 128 * ONE := hv.trans (by decide)
  have hvn : v ≤ 340282366920938463463374607431768211456000000000000 := hv'
  have e1 : add v ONE = .ok (v + ONE) := cadd_ok (by
    show v + 1000000000000 < 115792089237316195423570985008687907853269984665640564039457584007913129639936
    omega)
  have e2 : div (v + ONE) (2 * ONE) = .ok ((v + ONE) / 2) := half_sum (by
    show v + 1000000000000 < 1645504557321206042154969182557350504982735865633579863348609024
    omega)
  have hlow : 1000000 ≤ Nat.sqrt (v * ONE + ONE / 2) := by
    rw [Nat.le_sqrt]
    show 1000000000000 ≤ v * 1000000000000 + 500000000000
    omega
  have hup := root_lt hv'
  have hst : Nat.sqrt (v * ONE + ONE / 2) ≤ (v + ONE) / 2 := by
    rw [← Nat.lt_succ_iff, Nat.sqrt_lt]
    have h1 : v + ONE ≤ 2 * ((v + ONE) / 2) + 1 := by omega
    generalize (v + ONE) / 2 = m at *
    have h2 : (v + ONE + 1) * (v + ONE + 1) ≤ (2 * (m + 1)) * (2 * (m + 1)) :=
      Nat.mul_self_le_mul_self (by omega)
    have h3 : 4 * (v * ONE + ONE / 2) < (v + ONE + 1) * (v + ONE + 1) := by
      have h5 : 2 * (ONE / 2) ≤ ONE := Nat.mul_div_le _ _
      generalize ONE / 2 = hh at *
      generalize ONE = o at *
      zify at *
      nlinarith [sq_nonneg ((v : Int) - o)]
    simp only [Nat.succ_eq_add_one]
    nlinarith
  have hdist : 4 * ((v + ONE) / 2 - Nat.sqrt (v * ONE + ONE / 2)) ≤
      2 ^ 93 * Nat.sqrt (v * ONE + ONE / 2) := by
    have hO : ONE = 1000000000000 := rfl
    rcases Nat.le_total v ONE with h | h
    · generalize Nat.sqrt (v * ONE + ONE / 2) = t at *
      generalize ONE = o at *
      omega
    · by_contra hc
      have h1 : 9903520314283042199192993792 * Nat.sqrt (v * ONE + ONE / 2) < 4 * v := by
        have hc' : ¬ 4 * ((v + ONE) / 2 - Nat.sqrt (v * ONE + ONE / 2)) ≤
          9903520314283042199192993792 * Nat.sqrt (v * ONE + ONE / 2) := hc
        generalize Nat.sqrt (v * ONE + ONE / 2) = t at *
        generalize ONE = o at *
        omega
      have h2 : v * 1000000000000 + 500000000000 < _ := Nat.lt_succ_sqrt (v * ONE + ONE / 2)
      have hup' : Nat.sqrt (v * ONE + ONE / 2) < 1298074214633706907132624082305024 := hup
      clear hst hup hc hv hv' hvn e1 e2
      generalize Nat.sqrt (v * ONE + ONE / 2) = t at *
      simp only [Nat.succ_eq_add_one] at h2
      have h4 : (t + 1) * (t + 1) ≤ (2 * t) * (2 * t) := Nat.mul_self_le_mul_self (by omega)
      have h6 : (2 * t) * (2 * t) = 4 * (t * t) := by ring
      have h5 : t * t ≤ t * 1298074214633706907132624082305024 := Nat.mul_le_mul_left _ (by omega)
      generalize t * t = tt at *
      generalize (t + 1) * (t + 1) = t1 at *
      omega
  have hloop := rootLoop_eq hv' (by omega) 100 hst (by
    show (v + 1000000000000) / 2 < 1496577676626844588240573268701473812127674924007424
    omega)
  obtain ⟨g, hg, hr, hgap⟩ := loop_far (n := v * ONE + ONE / 2) (by omega)
    (by omega) 93 hst hdist
  refine ⟨loop (v * ONE + ONE / 2) 100 ((v + ONE) / 2), ?_, ?_, ?_⟩
  · unfold sqrt
    rw [if_neg (by omega), e1, Res.ok_bind, e2, Res.ok_bind, if_neg (by omega), hloop]
  · have := rnd_lower (n := v * ONE + ONE / 2) hg
    rw [← hr] at this
    exact this
  · have h1 := rnd_upper (v * ONE + ONE / 2) g
    rw [← hr] at h1
    change gap g (loop (v * ONE + ONE / 2) 100 ((v + ONE) / 2)) < 100 at hgap
    generalize loop (v * ONE + ONE / 2) (93 + 7) ((v + ONE) / 2) = r at *
    generalize v * ONE + ONE / 2 = n at *
    unfold gap at hgap
    split at hgap
    · rename_i hle
      obtain ⟨d, rfl⟩ := Nat.exists_eq_add_of_le hle
      rw [Nat.add_sub_cancel_left] at hgap
      have : d * d ≤ 99 * 99 := Nat.mul_self_le_mul_self (by omega)
      nlinarith
    · rename_i hle
      obtain ⟨d, rfl⟩ := Nat.exists_eq_add_of_le (Nat.le_of_not_le hle)
      rw [Nat.add_sub_cancel_left] at hgap
      have : d * d ≤ 99 * 99 := Nat.mul_self_le_mul_self (by omega)
      nlinarith

end Spl
end Verif
