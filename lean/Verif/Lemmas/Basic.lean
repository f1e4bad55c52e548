import Verif.Model.Res
import Mathlib.Tactic.Linarith
import Mathlib.Tactic.Ring
import Mathlib.Tactic.NormNum
import Mathlib.Tactic.Positivity

/-
Elementary facts about `Res` and the checked operations.
-/

namespace Verif

theorem U64_val : U64 = 18446744073709551616 := by decide
theorem U128_val : U128 = 340282366920938463463374607431768211456 := by decide
theorem U256_val : U256 =
    115792089237316195423570985008687907853269984665640564039457584007913129639936 := by decide

/-- `omega` after replacing the word-size bounds by their values. -/
macro "bomega" : tactic =>
  `(tactic| ((try simp only [U64_val, U128_val, U256_val] at *) <;> omega))

namespace Res

@[simp] theorem ok_bind {α β : Type} (a : α) (f : α → Res β) : (Res.ok a >>= f) = f a := rfl
@[simp] theorem none_bind {α β : Type} (f : α → Res β) : ((Res.none : Res α) >>= f) = .none := rfl
@[simp] theorem panic_bind {α β : Type} (f : α → Res β) :
    ((Res.panic : Res α) >>= f) = .panic := rfl

theorem bind_eq_ok {α β : Type} {x : Res α} {f : α → Res β} {b : β} :
    (x >>= f) = .ok b ↔ ∃ a, x = .ok a ∧ f a = .ok b := by
  cases x <;> simp

/-- Pulls a shared continuation out of a conditional. -/
theorem ite_bind {α β : Type} {c : Prop} [Decidable c] (x y : Res α) (k : α → Res β) :
    (if c then x >>= k else y >>= k) = ((if c then x else y) >>= k) := by split <;> rfl

end Res

theorem cadd_ok {lim a b : Nat} (h : a + b < lim) : cadd lim a b = .ok (a + b) := by
  simp [cadd, h]
theorem cmul_ok {lim a b : Nat} (h : a * b < lim) : cmul lim a b = .ok (a * b) := by
  simp [cmul, h]
theorem csub_ok {a b : Nat} (h : b ≤ a) : csub a b = .ok (a - b) := by simp [csub, h]
theorem cdiv_ok {a b : Nat} (h : b ≠ 0) : cdiv a b = .ok (a / b) := by simp [cdiv, h]
theorem crem_ok {a b : Nat} (h : b ≠ 0) : crem a b = .ok (a % b) := by simp [crem, h]
theorem asUint_ok {lim a : Nat} (h : a < lim) : asUint lim a = .ok a := by simp [asUint, h]
theorem tryUint_ok {lim a : Nat} (h : a < lim) : tryUint lim a = .ok a := by simp [tryUint, h]

theorem cadd_eq_ok {lim a b c : Nat} : cadd lim a b = .ok c ↔ a + b < lim ∧ c = a + b := by
  unfold cadd; split <;> simp_all [eq_comm]
theorem cmul_eq_ok {lim a b c : Nat} : cmul lim a b = .ok c ↔ a * b < lim ∧ c = a * b := by
  unfold cmul; split <;> simp_all [eq_comm]
theorem csub_eq_ok {a b c : Nat} : csub a b = .ok c ↔ b ≤ a ∧ c = a - b := by
  unfold csub; split <;> simp_all [eq_comm]
theorem cdiv_eq_ok {a b c : Nat} : cdiv a b = .ok c ↔ b ≠ 0 ∧ c = a / b := by
  unfold cdiv; split <;> simp_all [eq_comm]
theorem crem_eq_ok {a b c : Nat} : crem a b = .ok c ↔ b ≠ 0 ∧ c = a % b := by
  unfold crem; split <;> simp_all [eq_comm]
theorem asUint_eq_ok {lim a c : Nat} : asUint lim a = .ok c ↔ a < lim ∧ c = a := by
  unfold asUint; split <;> simp_all [eq_comm]
theorem tryUint_eq_ok {lim a c : Nat} : tryUint lim a = .ok c ↔ a < lim ∧ c = a := by
  unfold tryUint; split <;> simp_all [eq_comm]

theorem cadd_ne_panic {lim a b : Nat} : cadd lim a b ≠ .panic := by unfold cadd; split <;> simp
theorem cmul_ne_panic {lim a b : Nat} : cmul lim a b ≠ .panic := by unfold cmul; split <;> simp
theorem csub_ne_panic {a b : Nat} : csub a b ≠ .panic := by unfold csub; split <;> simp
theorem cdiv_ne_panic {a b : Nat} : cdiv a b ≠ .panic := by unfold cdiv; split <;> simp
theorem crem_ne_panic {a b : Nat} : crem a b ≠ .panic := by unfold crem; split <;> simp

end Verif
