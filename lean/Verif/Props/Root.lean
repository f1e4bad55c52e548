import Verif.Lemmas.SplRoot
import Verif.Props.Singles
import Verif.Props.Value
import Verif.Spec.Basket

/-
C105: the square root of the maths library, and what rests on it.
-/

namespace Verif.Props
open Verif Spec

/-- C105 in full: on its whole range the library's root is within one unit of the twelfth decimal. -/
def C105_statement : Prop :=
  ∀ v, v ≤ (2 ^ 128 - 1) * 1000000000000 →
    ∃ r, Spl.sqrt v = .ok r ∧ (r - 1) * (r - 1) ≤ v * 1000000000000 ∧
      v * 1000000000000 < (r + 1) * (r + 1)

/-- C105 is false of very small numbers: half a unit is added to every quotient, so the root of 10⁻¹² is
1.2·10⁻⁶ instead of 10⁻⁶. -/
theorem C105_false : ¬ C105_statement := by
  intro h
  obtain ⟨r, h1, h2, _⟩ := h 1 (by decide)
  have e : Spl.sqrt 1 = .ok 1224744 := by decide +kernel
  rw [e] at h1
  rw [← Res.ok.inj h1] at h2
  revert h2
  decide

/-- C105.  The routine never runs out of rounds and fails only above `u128::MAX`: the square of the root of
`v > 0` is that of the true root, half a unit and at most 9801 units of the 24th decimal added. -/
theorem C105_root (v : Nat) (h0 : 0 < v) :
    ((2 ^ 128 - 1) * 1000000000000 < v ∧ Spl.sqrt v = .none) ∨
    ∃ r, Spl.sqrt v = .ok r ∧ v * 1000000000000 + 500000000000 < (r + 1) * (r + 1) ∧
      r * r ≤ v * 1000000000000 + 500000009801 := by
  by_cases hv : v ≤ (U128 - 1) * Spl.ONE
  · obtain ⟨r, h1, h2, h3⟩ := Spl.sqrt_spec h0 hv
    have e1 : Spl.ONE = 1000000000000 := rfl
    have e2 : Spl.ONE / 2 = 500000000000 := by decide
    rw [e2, e1] at h2 h3
    exact .inr ⟨r, h1, h2, h3.trans (le_of_eq (Nat.add_assoc _ _ _))⟩
  · exact .inl ⟨Nat.lt_of_not_le hv, if_pos (Nat.lt_of_not_le hv)⟩

theorem root_zero : Spl.sqrt 0 = .ok 0 := by decide +kernel

/-- C105, from one tenth on: the root is within one unit of the twelfth decimal. -/
theorem C105_close_partial (v : Nat) (h : 100000000000 ≤ v) (hv : v ≤ (2 ^ 128 - 1) * 1000000000000) :
    ∃ r, Spl.sqrt v = .ok r ∧ (r - 1) * (r - 1) ≤ v * 1000000000000 ∧
      v * 1000000000000 < (r + 1) * (r + 1) := by
  rcases C105_root v (Nat.lt_of_lt_of_le (show 0 < 100000000000 by decide) h) with h1 | ⟨r, h1, h2, h3⟩
  · exact absurd hv (Nat.not_le.2 h1.1)
  · clear hv
    refine ⟨r, h1, ?_, lt_of_le_of_lt (Nat.le_add_right _ _) h2⟩
    have h4 : 300000000000 ≤ r := by
      by_contra hlt
      have : (r + 1) * (r + 1) ≤ 90000000000000000000000 :=
        Nat.mul_self_le_mul_self (n := 300000000000) (by omega)
      omega
    obtain ⟨d, rfl⟩ := Nat.exists_eq_add_of_le (show 1 ≤ r by omega)
    rw [Nat.add_sub_cancel_left]
    have h5 : (1 + d) * (1 + d) = d * d + 2 * d + 1 := by ring
    omega

/-- C105.  The root of the square of a whole number is that number. -/
theorem C105_squares (n : Nat) (hn : n < 2 ^ 64) :
    Spl.sqrt (n * n * 1000000000000) = .ok (n * 1000000000000) := by
  rcases Nat.eq_zero_or_pos n with h0 | h0
  · subst h0; exact root_zero
  have hnn : 0 < n * n := Nat.mul_pos h0 h0
  have hb : n * n ≤ (2 ^ 64 - 1) * (2 ^ 64 - 1) := Nat.mul_self_le_mul_self (by omega)
  have hv : n * n * 1000000000000 ≤ (2 ^ 128 - 1) * 1000000000000 :=
    Nat.mul_le_mul_right _ (hb.trans (by decide))
  rcases C105_root (n * n * 1000000000000) (Nat.mul_pos hnn (by decide)) with h1 | ⟨r, h1, h2, h3⟩
  · exact absurd hv (Nat.not_le.2 h1.1)
  · clear hv hb
    rw [h1]
    congr 1
    have e : n * n * 1000000000000 * 1000000000000 = (n * 1000000000000) * (n * 1000000000000) := by ring
    rw [e] at h2 h3
    have h4 : 1000000000000 ≤ n * 1000000000000 := by omega
    clear h1 e
    generalize n * 1000000000000 = x at *
    rcases Nat.lt_trichotomy r x with h5 | h5 | h5
    · have := Nat.mul_self_le_mul_self (show r + 1 ≤ x by omega)
      omega
    · exact h5
    · have h6 := Nat.mul_self_le_mul_self (show x + 1 ≤ r by omega)
      have h7 : (x + 1) * (x + 1) = x * x + 2 * x + 1 := by ring
      omega

/-- C105.  What C59 and C104 ask of the root holds of the library's. -/
theorem C105_near (h : Bool) : NearRoot (Spl.library h) := by
  intro w r hr
  have hr' : Spl.sqrt w = .ok r := hr
  rcases Nat.eq_zero_or_pos w with h0 | h0
  · subst h0
    rw [root_zero] at hr'
    rw [← Res.ok.inj hr', Nat.zero_mul]
    exact Nat.zero_le _
  rcases C105_root w h0 with h1 | ⟨r', h1, h2, h3⟩
  · rw [h1.2] at hr'; cases hr'
  · rw [h1] at hr'
    have := Res.ok.inj hr'
    subst this
    exact h3.trans (Nat.add_le_add_left (by decide) _)

/-- C105.  And so does what C65 asks. -/
theorem C105_monotone (h : Bool) : MonotoneRoot (Spl.library h) := by
  intro m n a b hmn ha hb
  have ha' : Spl.sqrt (m * 1000000000000) = .ok a := ha
  have hb' : Spl.sqrt (n * 1000000000000) = .ok b := hb
  rcases Nat.eq_or_lt_of_le hmn with h0 | h0
  · subst h0
    rw [ha'] at hb'
    exact le_of_eq (Res.ok.inj hb')
  rcases Nat.eq_zero_or_pos m with h1 | h1
  · subst h1
    rw [Nat.zero_mul, root_zero] at ha'
    rw [← Res.ok.inj ha']
    exact Nat.zero_le _
  rcases C105_root _ (Nat.mul_pos h1 (show 0 < 1000000000000 by decide)) with h2 | ⟨a', h2, _, h3⟩
  · rw [h2.2] at ha'; cases ha'
  rcases C105_root _ (Nat.mul_pos (h1.trans h0) (show 0 < 1000000000000 by decide)) with h4 | ⟨b', h4, h5, _⟩
  · rw [h4.2] at hb'; cases hb'
  rw [h2] at ha'
  rw [h4] at hb'
  have e1 := Res.ok.inj ha'
  have e2 := Res.ok.inj hb'
  subst e1 e2
  by_contra hlt
  have h6 := Nat.mul_self_le_mul_self (show b' + 1 ≤ a' by omega)
  omega

/-- C105.  On constant-product and offset pools, with the library's root: a one-sided deposit mints no more
than the growth of the geometric mean of the balances pays for, up to one part in 10¹². -/
theorem C105_deposit (h : Bool) (c : Curve) (s A B S v m : Nat) (dir : TradeDirection) (f : Fees)
    (hc : rootSide c dir A B = some v) (hv : f.validate = .ok ()) (hs0 : s ≠ 0) (hs : s < 2 ^ 64)
    (hA : A < 2 ^ 64) (hB : B < 2 ^ 64) (hS : S < 2 ^ 64)
    (hm : c.depositSingle (Spl.library h) s A B S dir f = .ok m) :
    1000000000000 * ((S + m) ^ 2 * v) ≤ S ^ 2 * (1000000000000 * (v + s) + v) := by
  have := C59_root_deposit_fair (Spl.library h) c s A B S v m 1000000000000 dir f hc hv hs0 hs hA hB hS
    (le_refl _) (C105_near h) hm
  refine Nat.le_of_mul_le_mul_left ?_ (show 0 < 1000000000000 by decide)
  generalize 1000000000000 = o at *
  calc o * (o * ((S + m) ^ 2 * v)) = o * o * ((S + m) ^ 2 * v) := by ring
    _ ≤ _ := this
    _ = _ := by ring

/-- C105.  Not less: two units added to 10⁹ are paid for with one pool token of 10⁹, a little more than they
are worth. -/
theorem C105_sharp (h : Bool) :
    Curve.constantProduct.depositSingle (Spl.library h) 2 1000000000 70 1000000000 .AtoB noFees = .ok 1 ∧
    1000000000 ^ 2 * (1000000000 + 2) < (1000000000 + 1) ^ 2 * 1000000000 := by
  cases h <;> exact ⟨by decide +kernel, by decide⟩

/-- C105.  With the library's root no swap on a constant-product or offset pool lowers the pool's own
measure of value (C65). -/
theorem C105_value (h : Bool) (c : Curve) (hc : c = .constantProduct ∨ ∃ o, c = .offset o) (s x y : Nat)
    (dir : TradeDirection) (f : Fees) (r : SwapResult) (v v' : Nat) (hs : s < 2 ^ 64) (hx : x < 2 ^ 64)
    (hy : y < 2 ^ 64) (hx0 : 0 < x) (hy0 : 0 < y) (hr : c.swap (Spl.library h) s x y dir f = .ok r)
    (h1 : c.normalizedValue (Spl.library h) (sideA x y dir) (sideB x y dir) = .ok v)
    (h2 : c.normalizedValue (Spl.library h) (afterA r dir) (afterB r dir) = .ok v') : v ≤ v' := by
  rcases hc with rfl | ⟨o, rfl⟩
  · exact C65_product _ (C105_monotone h) s x y dir f r v v' hs hx hy hx0 hy0 hr h1 h2
  · exact C65_offset o _ (C105_monotone h) s x y dir f r v v' hs hx hy hx0 hy0 hr h1 h2

example : Spl.sqrt 3000000000000 = .ok 1732050807569 := by decide +kernel
example : (1732050807569 - 1) * (1732050807569 - 1) ≤ 3000000000000 * 1000000000000 ∧
    3000000000000 * 1000000000000 < (1732050807569 + 1) * (1732050807569 + 1) := by
  obtain ⟨r, h1, h2⟩ := C105_close_partial 3000000000000 (by decide) (by decide)
  have e : Spl.sqrt 3000000000000 = .ok 1732050807569 := by decide +kernel
  rw [e] at h1
  rw [← Res.ok.inj h1] at h2
  exact h2
/-- The largest argument. -/
example : ∃ r, Spl.sqrt ((2 ^ 128 - 1) * 1000000000000) = .ok r :=
  (C105_close_partial _ (by decide) (le_refl _)).imp fun _ h => h.1
example : Spl.sqrt (12345678901 * 12345678901 * 1000000000000) = .ok (12345678901 * 1000000000000) :=
  C105_squares 12345678901 (by decide)
example : 1000000000000 * ((12345 + 12345) ^ 2 * 1000) ≤
    12345 ^ 2 * (1000000000000 * (1000 + 3003) + 1000) :=
  C105_deposit true (.offset 200) 3003 50 800 12345 1000 12345 .BtoA sampleFees (by decide) (by decide)
    (by decide) (by decide) (by decide) (by decide) (by decide) (by decide +kernel)
example : ∃ v v', Curve.constantProduct.normalizedValue (Spl.library true) 5000 7000 = .ok v ∧
    Curve.constantProduct.normalizedValue (Spl.library true) 6000 5836 = .ok v' ∧ v ≤ v' :=
  ⟨5916079783099616, 5917431875400003, by decide +kernel, by decide +kernel, C105_value true .constantProduct (.inl rfl) 1000 5000 7000
    .AtoB ⟨25, 10000, 0, 0, 1, 100, 20, 100⟩ ⟨6000, 5836, 1000, 1164, 2, 0⟩ _ _ (by decide) (by decide)
    (by decide) (by decide) (by decide) (by decide +kernel) (by decide +kernel) (by decide +kernel)⟩

end Verif.Props
