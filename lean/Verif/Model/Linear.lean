import Verif.Model.Dfs
import Verif.Model.Types

/-
Model of `curve/linear_price.rs` l.20-486 (the linear bonding curve calculator).
-/

namespace Verif

/-- `LinearPriceCurve`, curve/linear_price.rs l.30-42 (field order as packed). -/
structure LinearPriceCurve where
  slope_numerator : UInt64
  slope_denominator : UInt64
  initial_token_a_price_numerator : UInt64
  initial_token_a_price_denominator : UInt64
  deriving Repr, DecidableEq, Inhabited

namespace Linear

/-- `match sqrt.checked_sub(&e_value) { .. }`, l.82-85: the difference, zero when negative. -/
def subOrZero (root e : Nat) : Res Nat :=
  match Dfs.sub root e with
  | .ok v => .ok v
  | .none => Dfs.new 0
  | .panic => .panic

/-- `solve_quadratic_positive_root`, l.50-93. -/
def solveQuadraticPositiveRoot (kn kd en ed lhs : Nat) (up : Bool) : Res Nat := do
  let four ← Dfs.new 4
  let f1 ← Dfs.mul kn four
  let f2 ← Dfs.mul f1 lhs
  let fourKLhs ← Dfs.div f2 kd
  let e1 ← Dfs.mul en en
  let e2 ← Dfs.div e1 ed
  let e3 ← Dfs.div e2 ed
  let radicand ← Dfs.add e3 fourKLhs
  let root ← Dfs.sqrtU64 radicand up
  let e ← Dfs.div en ed
  let numerator ← subOrZero root e
  let n1 ← Dfs.mul numerator kd
  let n2 ← Dfs.div n1 kn
  let two ← Dfs.new 2
  Dfs.div n2 two

/-- `amt_a_locked_at_b_value_quadratic`, l.104-128. -/
def amtALocked (c : LinearPriceCurve) (b : Nat) : Res Nat := do
  let sn ← Dfs.new c.slope_numerator.toNat
  let m1 ← Dfs.mul sn b
  let m2 ← Dfs.mul m1 b
  let sd ← Dfs.new c.slope_denominator.toNat
  let m3 ← Dfs.div m2 sd
  let two ← Dfs.new 2
  let halfMB2 ← Dfs.div m3 two
  let pn ← Dfs.new c.initial_token_a_price_numerator.toNat
  let p1 ← Dfs.mul pn b
  let pd ← Dfs.new c.initial_token_a_price_denominator.toNat
  let a0b ← Dfs.div p1 pd
  Dfs.add halfMB2 a0b

/-- `b_value_with_amt_a_locked_quadratic`, l.130-161. -/
def bValue (c : LinearPriceCurve) (a : Nat) (up : Bool) : Res Nat := do
  let sn ← Dfs.new c.slope_numerator.toNat
  let sd ← Dfs.new c.slope_denominator.toNat
  let one ← Dfs.new 1
  let kn ← Dfs.mul sn one
  let two ← Dfs.new 2
  let kd ← Dfs.mul sd two
  let en ← Dfs.new c.initial_token_a_price_numerator.toNat
  let ed ← Dfs.new c.initial_token_a_price_denominator.toNat
  solveQuadraticPositiveRoot kn kd en ed a up

/-- `maximum_a_remaining_for_swap_a_to_b`, l.166-187. -/
def maximumARemaining (c : LinearPriceCurve) (aStart bStart sourceAmount swapDest : Nat) :
    Res (Nat × Nat) := do
  let d ← Dfs.new swapDest
  let maxB ← Dfs.add bStart d
  let maxA ← amtALocked c maxB
  let diff ← Dfs.sub maxA aStart
  let rem ← Dfs.toImprecise diff
  if rem ≤ sourceAmount then .ok (rem, swapDest) else .none

/-- `swap_a_to_b`, l.190-228.  `None` from the buy-out check is swallowed (l.206-215). -/
def swapAToB (c : LinearPriceCurve) (sourceAmount swapSource swapDest : Nat) :
    Res (Nat × Nat) := do
  let aStart ← Dfs.new swapSource
  let bStart ← bValue c aStart true
  match maximumARemaining c aStart bStart sourceAmount swapDest with
  | .ok r => .ok r
  | .panic => .panic
  | .none => do
    let s ← Dfs.new sourceAmount
    let aEnd ← Dfs.add aStart s
    let bEnd ← bValue c aEnd false
    let diff ← Dfs.sub bEnd bStart
    let fl ← Dfs.floor diff
    let out ← Dfs.toImprecise fl
    .ok (sourceAmount, out)

/-- `swap_b_to_a`, l.230-277. -/
def swapBToA (c : LinearPriceCurve) (sourceAmount swapDest : Nat) : Res (Nat × Nat) := do
  let a ← Dfs.new swapDest
  let bStart ← bValue c a true
  let s ← Dfs.new sourceAmount
  let bEnd0 := (Dfs.unsignedSub bStart s).1
  let neg := (Dfs.unsignedSub bStart s).2
  let bEnd ← Dfs.ceiling bEnd0
  if neg = true then do
    let taken ← Dfs.toImprecise bStart
    .ok (taken, swapDest)
  else do
    let aEnd ← amtALocked c bEnd
    let a' ← Dfs.new swapDest
    let diff ← Dfs.sub a' aEnd
    let fl ← Dfs.floor diff
    let out ← Dfs.toImprecise fl
    .ok (sourceAmount, out)

/-- `is_curve_param_valid`, l.281-303. -/
def isCurveParamValid (c : LinearPriceCurve) : Res Unit :=
  if c.slope_numerator = 0 ∨ c.slope_denominator = 0 ∨
      c.initial_token_a_price_denominator = 0 then .none
  else do
    let n ← Dfs.new c.slope_numerator.toNat
    let d ← Dfs.new c.slope_denominator.toNat
    let one ← Dfs.new 1
    let e18 ← Dfs.new 1000000000000000000
    let minimum ← Dfs.div one e18
    let q ← Dfs.div n d
    if q ≥ minimum then .ok () else .none

/-- `swap_without_fees`, l.307-330. -/
def swapWithoutFees (c : LinearPriceCurve) (sourceAmount swapSource swapDest : Nat)
    (dir : TradeDirection) : Res SwapWithoutFeesResult := do
  let r ← match dir with
    | .AtoB => swapAToB c sourceAmount swapSource swapDest
    | .BtoA => swapBToA c sourceAmount swapDest
  let s ← mapZeroToNone r.1
  let d ← mapZeroToNone r.2
  .ok ⟨s, d⟩

end Linear
end Verif
