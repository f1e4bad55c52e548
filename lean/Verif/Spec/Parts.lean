import Verif.Spec.Linear

/-
Specification vocabulary for C05 and C70: one after the other.
-/

namespace Verif
namespace Spec

/-- Purchases for the offers in the list, in this order, with nothing in between. -/
inductive Purchases (c : LinearPriceCurve) : Nat × Nat → List Nat → Nat × Nat → Prop
  | none (x : Nat × Nat) : Purchases c x [] x
  | first {A B s : Nat} {l : List Nat} {z : Nat × Nat} {r : SwapWithoutFeesResult}
      (h : Linear.swapWithoutFees c s A B .AtoB = .ok r) (hd : r.destination_amount_swapped ≤ B)
      (hl : Purchases c (A + r.source_amount_swapped, B - r.destination_amount_swapped) l z) :
      Purchases c (A, B) (s :: l) z

/-- Sales of the amounts in the list, in this order, with nothing in between. -/
inductive Sales (c : LinearPriceCurve) : Nat × Nat → List Nat → Nat × Nat → Prop
  | none (x : Nat × Nat) : Sales c x [] x
  | first {A B s : Nat} {l : List Nat} {z : Nat × Nat} {r : SwapWithoutFeesResult}
      (h : Linear.swapWithoutFees c s B A .BtoA = .ok r) (hd : r.destination_amount_swapped ≤ A)
      (hl : Sales c (A - r.destination_amount_swapped, B + r.source_amount_swapped) l z) :
      Sales c (A, B) (s :: l) z

end Spec
end Verif
