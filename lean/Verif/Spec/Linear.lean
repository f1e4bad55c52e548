import Verif.Model.Linear
import Mathlib.Data.Rat.Defs
import Mathlib.Algebra.Order.Field.Rat
import Mathlib.Logic.Relation

/-
Specification vocabulary for linear bonding curves: exact rational cost, the class of
"representable" parameters, and trading histories of a pool.
-/

namespace Verif
namespace Spec

/-- Exact slope. -/
def slope (c : LinearPriceCurve) : ℚ :=
  (c.slope_numerator.toNat : ℚ) / c.slope_denominator.toNat

/-- Exact initial price. -/
def price (c : LinearPriceCurve) : ℚ :=
  (c.initial_token_a_price_numerator.toNat : ℚ) / c.initial_token_a_price_denominator.toNat

/-- Exact amount of A that must be locked when `b` B tokens are out:
the integral of `slope·x + price` from 0 to `b`. -/
def cost (c : LinearPriceCurve) (b : ℚ) : ℚ := slope c / 2 * b ^ 2 + price c * b

/-- Half the slope, the price and the squared price are whole multiples of `10^-18`. -/
def Representable (c : LinearPriceCurve) : Prop :=
  (2 * c.slope_denominator.toNat) ∣ (c.slope_numerator.toNat * 10 ^ 18) ∧
  c.initial_token_a_price_denominator.toNat ∣ (c.initial_token_a_price_numerator.toNat * 10 ^ 18) ∧
  (c.initial_token_a_price_denominator.toNat ^ 2) ∣
    (c.initial_token_a_price_numerator.toNat ^ 2 * 10 ^ 18)

instance (c : LinearPriceCurve) : Decidable (Representable c) := by
  unfold Representable; infer_instance

/-- One step in the life of a linear pool holding `A` token A and `B` token B.  Balances are u64. -/
inductive PoolStep (c : LinearPriceCurve) : Nat × Nat → Nat × Nat → Prop
  /-- Somebody offers `s` token A. -/
  | buy {A B : Nat} (s : Nat) (r : SwapWithoutFeesResult) (hs : s < 2 ^ 64)
      (hr : Linear.swapWithoutFees c s A B .AtoB = .ok r)
      (hd : r.destination_amount_swapped ≤ B) (hA : A + r.source_amount_swapped < 2 ^ 64) :
      PoolStep c (A, B) (A + r.source_amount_swapped, B - r.destination_amount_swapped)
  /-- Somebody offers `s` token B. -/
  | sell {A B : Nat} (s : Nat) (r : SwapWithoutFeesResult) (hs : s < 2 ^ 64)
      (hr : Linear.swapWithoutFees c s B A .BtoA = .ok r)
      (hd : r.destination_amount_swapped ≤ A) (hB : B + r.source_amount_swapped < 2 ^ 64) :
      PoolStep c (A, B) (A - r.destination_amount_swapped, B + r.source_amount_swapped)
  /-- Somebody sends tokens straight to the vaults. -/
  | donate {A B : Nat} (u w : Nat) (hA : A + u < 2 ^ 64) (hB : B + w < 2 ^ 64) :
      PoolStep c (A, B) (A + u, B + w)

/-- Any finite history. -/
def History (c : LinearPriceCurve) : Nat × Nat → Nat × Nat → Prop :=
  Relation.ReflTransGen (PoolStep c)

/-- Any finite history in which the B vault is never empty. -/
def HistoryNonEmpty (c : LinearPriceCurve) : Nat × Nat → Nat × Nat → Prop :=
  Relation.ReflTransGen (fun x y => PoolStep c x y ∧ y.2 ≠ 0)

/-- Any finite history in which the A vault never falls (nobody sells) and the B vault is never empty. -/
def HistoryRising (c : LinearPriceCurve) : Nat × Nat → Nat × Nat → Prop :=
  Relation.ReflTransGen (fun x y => PoolStep c x y ∧ x.1 ≤ y.1 ∧ y.2 ≠ 0)

end Spec
end Verif
