import Verif.Model.Curve

/-
Model of `normalized_value` of the five curves (trait method, curve/calculator.rs l.187-191), the
measure of a pool's worth that the curve tests use.  The constant-price one is in
`Model/ConstantPrice.lean`.
-/

namespace Verif

/-- `normalized_value` of curve/constant_product.rs, l.162-171. -/
def ConstantProduct.normalizedValue (e : SplEnv) (swapA swapB : Nat) : Res Nat := do
  let a ← Spl.new swapA
  let b ← Spl.new swapB
  let p ← Spl.mul a b
  e.sqrt p

/-- `normalized_value` of curve/offset.rs, l.145-155. -/
def Offset.normalizedValue (e : SplEnv) (offset : UInt64) (swapA swapB : Nat) : Res Nat := do
  let b ← cadd U128 swapB offset.toNat
  ConstantProduct.normalizedValue e swapA b

/-- `normalized_value` of curve/stable.rs, l.273-286 (the branch compiled outside tests). -/
def Stable.normalizedValue (amp : UInt64) (swapA swapB : Nat) : Res Nat := do
  let leverage ← cmul U64 amp.toNat 2
  let d ← Stable.computeD leverage swapA swapB
  Spl.new d

/-- First half of `normalized_value` of curve/linear_price.rs, l.425-430: the total value in
token B, 18 decimals. -/
def Linear.totalValue (c : LinearPriceCurve) (swapA swapB : Nat) : Res Nat := do
  let a ← Dfs.new swapA
  let bOfA ← Linear.bValue c a false
  let b ← Dfs.new swapB
  Dfs.add bOfA b

/-- l.434-438: shift right until 32 bits are left. -/
def Linear.truncate32 (v : Nat) : Nat :=
  if Dfs.bits v > 32 then v >>> (Dfs.bits v - 32) else v

/-- `normalized_value` of curve/linear_price.rs, l.420-443; the result is stored unscaled in the
12-decimal type. -/
def Linear.normalizedValue (c : LinearPriceCurve) (swapA swapB : Nat) : Res Nat := do
  let t ← Linear.totalValue c swapA swapB
  .ok (Linear.truncate32 t)

/-- Trait dispatch, curve/calculator.rs l.187-191. -/
def Curve.normalizedValue (e : SplEnv) (c : Curve) (swapA swapB : Nat) : Res Nat :=
  match c with
  | constantProduct => ConstantProduct.normalizedValue e swapA swapB
  | constantPrice p => ConstantPrice.normalizedValue p swapA swapB
  | stable amp => Stable.normalizedValue amp swapA swapB
  | offset o => Offset.normalizedValue e o swapA swapB
  | linear l => Linear.normalizedValue l swapA swapB

end Verif
