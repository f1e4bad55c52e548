import Verif.Model.State

/-
`SwapCurve` as the code has it, curve/base.rs l.62-68: a curve type and, beside it, a calculator.  The rest of
the model has the calculator only (`Curve`); `Matched` says when that is all there is to it.
-/

namespace Verif

open State

/-- `curve_type as u8`, curve/base.rs l.27-41. -/
def CurveType.tag : CurveType → UInt8
  | .ConstantProduct => 0
  | .ConstantPrice => 1
  | .Stable => 2
  | .Offset => 3
  | .LinearPrice => 30

/-- `TryFrom<u8> for CurveType`, curve/base.rs l.255-268. -/
def CurveType.tryFrom (b : UInt8) : Except Err CurveType :=
  if b = 0 then .ok .ConstantProduct
  else if b = 1 then .ok .ConstantPrice
  else if b = 2 then .ok .Stable
  else if b = 3 then .ok .Offset
  else if b = 30 then .ok .LinearPrice
  else .error .InvalidAccountData

/-- `SwapCurve`, curve/base.rs l.62-68.  The trait object is one of the five calculators. -/
structure SwapCurve where
  curve_type : CurveType
  calculator : Curve
  deriving DecidableEq, Repr

namespace SwapCurve

/-- `SwapCurve::pack_into_slice`, curve/base.rs l.239-244: the type's byte, then whatever the calculator
writes over what was there. -/
def packIntoSlice (c : SwapCurve) (old : List UInt8) : List UInt8 :=
  c.curve_type.tag :: (packCalc c.calculator ++ old.drop (1 + (packCalc c.calculator).length))

/-- `SwapCurve::unpack_from_slice`, curve/base.rs l.215-236. -/
def unpackFromSlice (l : List UInt8) : Except Err SwapCurve := do
  let t ← CurveType.tryFrom (byteAt l 0)
  .ok ⟨t, match t with
    | .ConstantProduct => .constantProduct
    | .ConstantPrice => .constantPrice (u64At l 1)
    | .Stable => .stable (u64At l 1)
    | .Offset => .offset (u64At l 1)
    | .LinearPrice => .linear ⟨u64At l 1, u64At l 9, u64At l 17, u64At l 25⟩⟩

/-- `PartialEq for SwapCurve`, curve/base.rs l.196-204. -/
def eq (a b : SwapCurve) : Bool :=
  decide (a.packIntoSlice (List.replicate 33 0) = b.packIntoSlice (List.replicate 33 0))

/-- `Clone for SwapCurve`, curve/base.rs l.186-192; the error is the panic of `unwrap`. -/
def clone (a : SwapCurve) : Except Err SwapCurve :=
  unpackFromSlice (a.packIntoSlice (List.replicate 33 0))

/-- `Default for SwapCurve`, curve/base.rs l.171-179, with `Default for CurveType`, l.249-253. -/
def default : SwapCurve := ⟨.ConstantProduct, .constantProduct⟩

/-- The curve of a new constant-price pool, lib.rs l.63-66. -/
def newConstantPrice (token_b_price : UInt64) : SwapCurve := ⟨.ConstantPrice, .constantPrice token_b_price⟩

/-- The curve of a new linear pool, lib.rs l.94-104. -/
def newLinearPrice (c : LinearPriceCurve) : SwapCurve := ⟨.LinearPrice, .linear c⟩

end SwapCurve
end Verif
