/-
Result type and checked integer arithmetic shared by all model files.

`Res α` models a Rust computation of type `Option<T>` that may also abort:
`ok a` is `Some(a)`, `none` is `None`, `panic` is a Rust panic.  The two failure
modes are kept apart because the code catches `None` in places
(e.g. `curve/linear_price.rs` l.206-215) but never catches a panic.
-/

namespace Verif

/-- `Option<α>` with an explicit abort outcome. -/
inductive Res (α : Type) where
  | ok (a : α)
  | none
  | panic
  deriving Repr, DecidableEq, Inhabited

namespace Res

/-- Rust `?` on an `Option`, propagating aborts as well. -/
@[inline] def bind {α β : Type} : Res α → (α → Res β) → Res β
  | ok a, f => f a
  | none, _ => none
  | panic, _ => panic

instance : Monad Res where
  pure := Res.ok
  bind := Res.bind

end Res

/-- Exclusive upper bound of `u64`. -/
def U64 : Nat := 2 ^ 64
/-- Exclusive upper bound of `u128`. -/
def U128 : Nat := 2 ^ 128
/-- Exclusive upper bound of `U256` (crate `uint`). -/
def U256 : Nat := 2 ^ 256

/-- `checked_add` of an unsigned integer type with exclusive bound `lim`. -/
def cadd (lim a b : Nat) : Res Nat := if a + b < lim then .ok (a + b) else .none
/-- `checked_mul` of an unsigned integer type with exclusive bound `lim`. -/
def cmul (lim a b : Nat) : Res Nat := if a * b < lim then .ok (a * b) else .none
/-- `checked_sub` of an unsigned integer type. -/
def csub (a b : Nat) : Res Nat := if b ≤ a then .ok (a - b) else .none
/-- `checked_div` of an unsigned integer type. -/
def cdiv (a b : Nat) : Res Nat := if b = 0 then .none else .ok (a / b)
/-- `checked_rem` of an unsigned integer type. -/
def crem (a b : Nat) : Res Nat := if b = 0 then .none else .ok (a % b)
/-- Unchecked narrowing conversion that panics on overflow (`U256::as_u64`, `U256::as_u128`). -/
def asUint (lim a : Nat) : Res Nat := if a < lim then .ok a else .panic
/-- Checked narrowing conversion (`u64::try_from(..).ok()?`). -/
def tryUint (lim a : Nat) : Res Nat := if a < lim then .ok a else .none

end Verif
