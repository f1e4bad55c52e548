import Verif.Model.Res

/-
Model of `dfs_precise_number.rs`: the 18-decimal fixed-point type `DFSPreciseNumber`.
A number is represented by its raw 256-bit integer (field `value`, l.24-27), a `Nat`.
-/

namespace Verif
namespace Dfs

/-- `ONE`, dfs_precise_number.rs l.18. -/
def ONE : Nat := 1000000000000000000
/-- `SQRT_ONE`, dfs_precise_number.rs l.20. -/
def SQRT_ONE : Nat := 1000000000

/-- `rounding_correction`, l.43-45. -/
def roundingCorrection : Nat := ONE / 2

/-- `new`, l.52-55. -/
def new (v : Nat) : Res Nat := cmul U256 v ONE

/-- `to_imprecise`, l.58-69.  The comparison `corrected <= Some(u128::MAX)` is on options;
`corrected` is always `Some` here because `ONE ≠ 0`. -/
def toImprecise (v : Nat) : Res Nat := do
  let c ← cadd U256 v roundingCorrection
  let q ← cdiv c ONE
  if q < U128 then .ok q else .none

/-- `floor`, l.98-101. -/
def floor (v : Nat) : Res Nat := do
  let q ← cdiv v ONE
  cmul U256 q ONE

/-- `ceiling`, l.104-111. -/
def ceiling (v : Nat) : Res Nat := do
  let om ← csub ONE 1
  let s ← cadd U256 v om
  let q ← cdiv s ONE
  cmul U256 q ONE

/-- `checked_div`, l.114-134. -/
def div (a b : Nat) : Res Nat :=
  if b = 0 then .none
  else match cmul U256 a ONE with
    | .ok v => do
      let s ← cadd U256 v roundingCorrection
      cdiv s b
    | .none => do
      let s ← cadd U256 a roundingCorrection
      let q ← cdiv s b
      cmul U256 q ONE
    | .panic => .panic

/-- `checked_mul`, l.137-154. -/
def mul (a b : Nat) : Res Nat :=
  match cmul U256 a b with
  | .ok v => do
    let s ← cadd U256 v roundingCorrection
    cdiv s ONE
  | .none =>
    if a ≥ b then do
      let q ← cdiv a ONE
      cmul U256 q b
    else do
      let q ← cdiv b ONE
      cmul U256 q a
  | .panic => .panic

/-- `checked_add`, l.157-160. -/
def add (a b : Nat) : Res Nat := cadd U256 a b

/-- `checked_sub`, l.163-166. -/
def sub (a b : Nat) : Res Nat := csub a b

/-- `unsigned_sub`, l.169-177: absolute difference and "is negative" flag. -/
def unsignedSub (a b : Nat) : Nat × Bool :=
  if b ≤ a then (a - b, false) else (b - a, true)

/-- Loop of `sqrt_babylonian`, l.200-203: `while z < y { y = z; z = (x / z + z) / 2 }`.
Returns the final `y`.  `fuel` bounds the number of iterations; running out of fuel is
`panic`, which `Lemmas` shows never happens with the fuel used below. -/
def babLoop (x : Nat) : Nat → Nat → Nat → Res Nat
  | 0, _, _ => .panic
  | fuel + 1, y, z =>
    if z < y then do
      let q ← cdiv x z
      let s ← cadd U64 q z
      let z' ← cdiv s 2
      babLoop x fuel z z'
    else .ok y

/-- `sqrt_babylonian`, l.194-214. -/
def sqrtBabylonian (x : Nat) (up : Bool) : Res Nat := do
  let z ← match cadd U64 x 1 with
    | .ok v => cdiv v 2
    | .none => cdiv x 2
    | .panic => .panic
  let y ← babLoop x (x + 2) x z
  let yy ← cmul U64 y y
  if up = true ∧ yy < x then cadd U64 y 1 else .ok y

/-- `U256::bits()` of the `uint` crate: bit length, 0 for 0. -/
def bits (v : Nat) : Nat := if v = 0 then 0 else Nat.log2 v + 1

/-- `sqrt_u64`, l.223-320.  `2u128.pow(pad/2)` cannot overflow because `pad ≤ 192`.
`self.value << pad` (l.239) is the truncating shift of the `uint` crate, hence `% U256`. -/
def sqrtU64 (v : Nat) (up : Bool) : Res Nat :=
  let valueBits := bits v
  if valueBits ≤ 64 then do
    -- l.228-275
    let padBits := (64 - valueBits) / 2 * 2
    let cf ← new (2 ^ (padBits / 2))
    let padded ← asUint U64 (v <<< padBits % U256)
    let s ← sqrtBabylonian padded up
    let sqrtOne ← new SQRT_ONE
    let num ← mul s sqrtOne
    let unrounded ← div num cf
    let back ← mul unrounded cf
    if up = true ∧ back < num then add unrounded 1 else .ok unrounded
  else do
    -- l.276-317
    let padBits := (valueBits - 64 + 1) / 2 * 2
    let cf ← new (2 ^ (padBits / 2))
    let unroundedPadded := v >>> padBits
    let paddedV ←
      if up = true ∧ unroundedPadded <<< padBits % U256 < v then cadd U256 unroundedPadded 1
      else .ok unroundedPadded
    let padded ← asUint U64 paddedV
    let s ← sqrtBabylonian padded up
    let sqrtOne ← new SQRT_ONE
    let t ← mul s sqrtOne
    mul t cf

end Dfs
end Verif
