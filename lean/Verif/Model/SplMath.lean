import Verif.Model.Res

/-
Model of the parts of crate `spl-math` 0.1.0 used by the program.  The crate source is not in
`/repo`; it is imported by `curve/constant_price.rs` l.15, `curve/constant_product.rs` l.15,
`curve/stable.rs` l.15 and `dfs_precise_number.rs` l.9, l.179.
-/

namespace Verif

/-- What is left open about `spl-math`.
`ceilZeroHalf` selects what `checked_ceil_div` does when the truncated quotient is zero
(`true`: round half up, giving `(1,0)` or `(0,0)`; `false`: fail).
`sqrt` is `PreciseNumber::sqrt` on raw 12-decimal values, an arbitrary function. -/
structure SplEnv where
  ceilZeroHalf : Bool
  sqrt : Nat → Res Nat

namespace Spl

/-- `CheckedCeilDiv::checked_ceil_div` for an unsigned integer type with bound `lim`
(called at curve/constant_price.rs l.49-53, l.130-136 and curve/constant_product.rs l.35-36).
Returns the rounded-up quotient and the smallest divisor that still gives it. -/
def ceilDiv (h : Bool) (lim a b : Nat) : Res (Nat × Nat) := do
  let q ← cdiv a b
  if q = 0 then
    if h then do
      let a2 ← cmul lim a 2
      if b ≤ a2 then .ok (1, 0) else .ok (0, 0)
    else .none
  else do
    let r ← crem a b
    if 0 < r then do
      let q' ← cadd lim q 1
      let b' ← cdiv a q'
      let r' ← crem a q'
      if 0 < r' then do
        let b'' ← cadd lim b' 1
        .ok (q', b'')
      else .ok (q', b')
    else .ok (q, b)

/-- `ONE` of `spl_math::precise_number`: 12 decimals. -/
def ONE : Nat := 1000000000000

/-- `PreciseNumber::new`. -/
def new (v : Nat) : Res Nat := cmul U256 v ONE

/-- `PreciseNumber::to_imprecise`; unlike the 18-decimal type it panics above `u128::MAX`. -/
def toImprecise (v : Nat) : Res Nat := do
  let c ← cadd U256 v (ONE / 2)
  let q ← cdiv c ONE
  asUint U128 q

/-- `PreciseNumber::floor`. -/
def floor (v : Nat) : Res Nat := do
  let q ← cdiv v ONE
  cmul U256 q ONE

/-- `PreciseNumber::ceiling`. -/
def ceiling (v : Nat) : Res Nat := do
  let s ← cadd U256 v (ONE - 1)
  let q ← cdiv s ONE
  cmul U256 q ONE

/-- `PreciseNumber::checked_div`. -/
def div (a b : Nat) : Res Nat :=
  if b = 0 then .none
  else match cmul U256 a ONE with
    | .ok v => do
      let s ← cadd U256 v (ONE / 2)
      cdiv s b
    | .none => do
      let s ← cadd U256 a (ONE / 2)
      let q ← cdiv s b
      cmul U256 q ONE
    | .panic => .panic

/-- `PreciseNumber::checked_mul`. -/
def mul (a b : Nat) : Res Nat :=
  match cmul U256 a b with
  | .ok v => do
    let s ← cadd U256 v (ONE / 2)
    cdiv s ONE
  | .none =>
    if a ≥ b then do
      let q ← cdiv a ONE
      cmul U256 q b
    else do
      let q ← cdiv b ONE
      cmul U256 q a
  | .panic => .panic

/-- `PreciseNumber::checked_add`. -/
def add (a b : Nat) : Res Nat := cadd U256 a b
/-- `PreciseNumber::checked_sub`. -/
def sub (a b : Nat) : Res Nat := csub a b

end Spl
end Verif
