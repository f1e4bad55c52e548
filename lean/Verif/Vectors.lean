import Verif.Model.SwapCurve
import Verif.Model.Compare
import Verif.Model.Processor

/-
The model on the values of the repository's own unit tests.  These are tests of the model, not
proofs about the code: each `example` evaluates a model function on the arguments of a test in
/repo and compares it with the value that test asserts.  Nothing else in the project uses them.
-/

namespace Verif
namespace Vectors

/-! ## `dfs_precise_number.rs` -/

/-- A quotient of two whole numbers, as the tests build fractions. -/
def frac (a b : Nat) : Res Nat := do
  let x ← Dfs.new a
  let y ← Dfs.new b
  Dfs.div x y

/-- `sqrt_u64(up).unwrap().almost_eq(expected, precision)`. -/
def near (number : Res Nat) (up : Bool) (expected : Res Nat) (precision : Nat) : Res Bool := do
  let x ← number
  let r ← Dfs.sqrtU64 x up
  let e ← expected
  .ok (Dfs.almostEq r e precision)

/-- `sqrt_u64(up).unwrap().eq(expected)`. -/
def same (number : Res Nat) (up : Bool) (expected : Res Nat) : Res Bool := do
  let x ← number
  let r ← Dfs.sqrtU64 x up
  let e ← expected
  .ok (decide (r = e))

/-- `number.value.bits()`. -/
def width (number : Res Nat) : Res Nat := do
  let x ← number
  .ok (Dfs.bits x)

/-! `test_to_imprecise`, l.329-340. -/

example : (do let x ← Dfs.new 0; let y ← Dfs.floor x; Dfs.toImprecise y) = .ok 0 := by
  decide +kernel

example : (do let x ← Dfs.new (2 ^ 128 - 1); Dfs.toImprecise x) = .ok (2 ^ 128 - 1) := by
  decide +kernel

example : (do let x ← Dfs.new (2 ^ 128 - 1); let y ← Dfs.add x x; Dfs.toImprecise y) = .none := by
  decide +kernel

/-! `test_sqrt_u64`, l.343-617. -/

example : width (frac 123456789 (10 ^ 17)) = .ok 31 := by decide +kernel

example : near (frac 123456789 (10 ^ 17)) false (frac 351364182864446216 (10 ^ 22))
    (Dfs.ONE / 1000000000) = .ok true := by decide +kernel

example : width (frac 1 (10 ^ 8)) = .ok 34 := by decide +kernel

example : near (frac 1 (10 ^ 8)) false (frac 1 (10 ^ 4)) (Dfs.ONE / 1000000000) = .ok true := by
  decide +kernel

example : width (frac 18446744073709551615 (10 ^ 18)) = .ok 64 := by decide +kernel

example : near (frac 18446744073709551615 (10 ^ 18)) false (frac 4294967295999999999 (10 ^ 18))
    (Dfs.ONE / 1000000000) = .ok true := by decide +kernel

example : near (Dfs.new 1) false (Dfs.new 1) (Dfs.ONE / 1000000000000) = .ok true := by
  decide +kernel

example : width (Dfs.new 1234567890123456789) = .ok 120 := by decide +kernel

example : near (Dfs.new 1234567890123456789) false
    (do let d ← frac 111111099355555502655555 (10 ^ 24); let w ← Dfs.new 1111111106; Dfs.add w d)
    (Dfs.ONE * 10) = .ok true := by decide +kernel

example : width (do let x ← Dfs.new 123456789; let y ← Dfs.new (10 ^ 30); Dfs.mul x y) =
    .ok 187 := by decide +kernel

example : near (do let x ← Dfs.new 123456789; let y ← Dfs.new (10 ^ 30); Dfs.mul x y) false
    (Dfs.new 11111111060555555440) (Dfs.ONE * 10 ^ 11) = .ok true := by decide +kernel

example : same (frac 4 (10 ^ 18)) false (frac 2 (10 ^ 9)) = .ok true := by decide +kernel

example : same (frac 4 (10 ^ 18)) true (frac 2 (10 ^ 9)) = .ok true := by decide +kernel

example : same (frac 3 (10 ^ 18)) false (frac 1732050807 (10 ^ 18)) = .ok true := by decide +kernel

example : same (frac 3 (10 ^ 18)) true (frac 1732050808 (10 ^ 18)) = .ok true := by decide +kernel

example : same (Dfs.new 400) false (Dfs.new 20) = .ok true := by decide +kernel

example : same (Dfs.new 400) true (Dfs.new 20) = .ok true := by decide +kernel

example : near (Dfs.new 300) false (frac 1732050807568 (10 ^ 11)) (Dfs.ONE / 10000000) =
    .ok true := by decide +kernel

example : (do let x ← Dfs.new 300; let r ← Dfs.sqrtU64 x false
              let e ← frac 1732050807568 (10 ^ 11); .ok (Dfs.lessThan r e)) = .ok true := by
  decide +kernel

example : near (Dfs.new 300) true (frac 1732050807568 (10 ^ 11)) (Dfs.ONE / 10000000) =
    .ok true := by decide +kernel

example : (do let x ← Dfs.new 300; let r ← Dfs.sqrtU64 x true
              let e ← frac 1732050807568 (10 ^ 11); .ok (Dfs.greaterThan r e)) = .ok true := by
  decide +kernel

/-! `test_floor`, `test_ceiling`, l.620-641. -/

example : (do let x ← Dfs.new 2; Dfs.floor (x + 1)) = Dfs.new 2 := by decide +kernel

example : (do let x ← Dfs.new 2; let y ← Dfs.floor (x + 1); Dfs.floor y) = Dfs.new 2 := by
  decide +kernel

example : (do let x ← Dfs.new 2; Dfs.ceiling (x - 1)) = Dfs.new 2 := by decide +kernel

example : (do let x ← Dfs.new 2; let y ← Dfs.ceiling (x - 1); Dfs.ceiling y) = Dfs.new 2 := by
  decide +kernel

/-! ## `curve/linear_price.rs` -/

/-! `solve_quadratic_positive_root_cases`, l.2049-2095. -/

/-- The root, for coefficients given as whole numbers. -/
def root (kn kd en ed lhs : Nat) : Res Nat := do
  let kn ← Dfs.new kn
  let kd ← Dfs.new kd
  let en ← Dfs.new en
  let ed ← Dfs.new ed
  let lhs ← Dfs.new lhs
  let r ← Linear.solveQuadraticPositiveRoot kn kd en ed lhs true
  Dfs.toImprecise r

example : root 1 1 0 1 25 = .ok 5 := by decide +kernel

example : root 5 5 10 2 0 = .ok 0 := by decide +kernel

example : root 3 3 28 7 5 = .ok 1 := by decide +kernel

/-! `swap_a_to_b_basic`, curve/linear_price.rs l.496-569. -/

example : Linear.swapAToB ⟨1, 2, 150, 3⟩ 101 0 5000 = .ok (101, 2) := by decide +kernel

example : Linear.swapAToB ⟨1, 2, 150, 3⟩ 103 101 4998 = .ok (103, 2) := by decide +kernel

example : Linear.swapAToB ⟨1, 200000000, 150, 3⟩ 10100000000 0 500000000000 = .ok (10100000000,
    200000000) := by decide +kernel

example : Linear.swapAToB ⟨1, 200000000, 150, 3⟩ 590000000000 8160000000000 2000000000 = .ok
    (590000000000, 2000000000) := by decide +kernel

example : Linear.swapAToB ⟨1, 200000000, 150, 3⟩ 1000000000000 8160000000000 2000000000 = .ok
    (590000000000, 2000000000) := by decide +kernel

example : Linear.swapAToB ⟨5689549999968874, 1000000000000, 35915742315103, 1⟩
    7296939463019977479999 0 5000000000 = .ok (7296939463019977479999, 199999997) :=
    by decide +kernel

example : Linear.swapAToB ⟨5689549999968874, 1000000000000, 35915742315103, 1⟩
    7524521463008709920000 7296939463030000000000 4800000000 = .ok (7524521463008709920000,
    199999997) := by decide +kernel


/-! `swap_b_to_a_basic`, curve/linear_price.rs l.572-638. -/

example : Linear.swapBToA ⟨1, 2, 150, 3⟩ 2 101 = .ok (2, 101) := by decide +kernel

example : Linear.swapBToA ⟨1, 2, 150, 3⟩ 2 204 = .ok (2, 103) := by decide +kernel

example : Linear.swapBToA ⟨1, 200000000, 150, 3⟩ 200000000 10100000000 = .ok (200000000,
    10100000000) := by decide +kernel

example : Linear.swapBToA ⟨5689549999968874, 1000000000000, 35915742315103, 1⟩ 200000000
    7296939463019977480000 = .ok (200000000, 7296939427104235162052) := by decide +kernel

example : Linear.swapBToA ⟨5689549999968874, 1000000000000, 35915742315103, 1⟩ 200000000
    14821460926038709920000 = .ok (200000000, 7524521388911427798427) := by decide +kernel

example : Linear.swapBToA ⟨5689549999968874, 1000000000000, 35915742315103, 1⟩ 300000000
    7296939463019977480000 = .ok (200000000, 7296939463019977480000) := by decide +kernel


/-! `swap_0_0_curve`, curve/linear_price.rs l.641-664. -/

example : Linear.swapAToB ⟨1, 2, 0, 1⟩ 9 0 5000 = .ok (9, 6) := by decide +kernel

example : Linear.swapBToA ⟨1, 2, 0, 1⟩ 6 9 = .ok (6, 9) := by decide +kernel

example : Linear.swapBToA ⟨1, 2, 0, 1⟩ 11 9 = .ok (6, 9) := by decide +kernel


/-! `swap_without_fees`, curve/linear_price.rs l.667-696. -/

example : Linear.swapWithoutFees ⟨1, 2, 350, 7⟩ 101 0 5000 .AtoB = .ok ⟨101, 2⟩ :=
    by decide +kernel

example : Linear.swapWithoutFees ⟨1, 2, 350, 7⟩ 2 4998 101 .BtoA = .ok ⟨2, 101⟩ :=
    by decide +kernel


/-! `swap_large_price_max_a`, curve/linear_price.rs l.727-793. -/

example : ∀ e < 96, Linear.swapWithoutFees ⟨18446744073709551615, 18446744073709551614,
    18446744073709551615, 1⟩ (2 ^ e) 0 100000000000000000000 .AtoB = .none := by decide +kernel

example : Linear.swapWithoutFees ⟨18446744073709551615, 18446744073709551614,
    18446744073709551615, 1⟩ 158456325028528675187087900672 0 100000000000000000000 .AtoB = .ok
    ⟨158456325028528675187087900672, 4611686018⟩ := by decide +kernel

example : Linear.swapWithoutFees ⟨18446744073709551615, 18446744073709551614,
    18446744073709551615, 1⟩ 340282366920938463463374607431768211455 0 100000000000000000000 .AtoB
    = .ok ⟨340282366920938463463374607431768211455, 13503953894904916780⟩ := by decide +kernel

example : Linear.swapWithoutFees ⟨18446744073709551615, 18446744073709551614,
    18446744073709551615, 1⟩ 1 0 18446744073709551616 .BtoA = .none := by decide +kernel


/-! `swap_large_price_a_u32`, curve/linear_price.rs l.801-933. -/

example : Linear.swapWithoutFees ⟨18446744073709551615, 18446744073709551614, 4294967295, 1⟩
    18446744073709551615 0 100000000000000000000 .AtoB = .ok ⟨18446744073709551615, 3144134275⟩ :=
    by decide +kernel

example : Linear.swapWithoutFees ⟨18446744073709551615, 18446744073709551614, 4294967295, 1⟩
    340282366920938463463374607431768211455 0 100000000000000000000 .AtoB = .ok
    ⟨340282366920938463463374607431768211455, 26087635639488208246⟩ := by decide +kernel

example : Linear.swapWithoutFees ⟨18446744073709551615, 18446744073709551614, 4294967295, 1⟩
    13043817819744104123 0 340282366920938463463374607431768211455 .BtoA = .ok
    ⟨13043817819744104123, 255211775087270790878881086478269459899⟩ := by decide +kernel

example : Linear.swapWithoutFees ⟨18446744073709551615, 18446744073709551614, 4294967295, 1⟩
    6521908914483738081 0 85070591833667672584493520953498751556 .BtoA = .ok ⟨6521908914483738081,
    63802943845173758276417067327404556546⟩ := by decide +kernel

example : Linear.swapWithoutFees ⟨18446744073709551615, 18446744073709551614, 4294967295, 1⟩
    6521908918180041637 0 21267647988493914308076453626094195010 .BtoA = .ok ⟨6521908918180041637,
    21267647988493914308076453626094195010⟩ := by decide +kernel

example : Linear.swapWithoutFees ⟨18446744073709551615, 18446744073709551614, 4294967295, 1⟩
    340282366920938463463374607431768211455 0 21267647988493914308076453626094195010 .BtoA = .ok
    ⟨6521908918180041637, 21267647988493914308076453626094195010⟩ := by decide +kernel


/-! `swap_large_price_low_slope_u128`, curve/linear_price.rs l.941-1076. -/

example : Linear.swapWithoutFees ⟨1, 1000000000000000000, 0, 1⟩ 1 0
    340282366920938463463374607431768211454 .AtoB = .ok ⟨1, 1414213561⟩ := by decide +kernel

example : Linear.swapWithoutFees ⟨1, 1000000000000000000, 0, 1⟩
    340282366920938463463374607431768211455 0 340282366920938463463374607431768211454 .AtoB = .ok
    ⟨340282366920938463463374607431768211455, 26087635642281361408000000000⟩ := by decide +kernel

example : Linear.swapWithoutFees ⟨1, 1000000000000000000, 0, 1⟩ 26087635642281361408000000000 0
    340282366920938463463374607431768211455 .BtoA = .ok ⟨26087635642281361408000000000,
    340282366920938463426481119284349108223⟩ := by decide +kernel

example : Linear.swapWithoutFees ⟨1, 1000000000000000000, 0, 1⟩ 13043817821140680704000000000 0
    340282366920938463463374607431768211455 .BtoA = .ok ⟨13043817821140680704000000000,
    255211775133339314018502795692393627647⟩ := by decide +kernel

example : Linear.swapWithoutFees ⟨1, 1000000000000000000, 0, 1⟩ 6521908914865307648000000000 0
    85070591787599149444871811739374583808 .BtoA = .ok ⟨6521908914865307648000000000,
    63802943840699362083653858804530937856⟩ := by decide +kernel

example : Linear.swapWithoutFees ⟨1, 1000000000000000000, 0, 1⟩ 6521908914865307648000000000 0
    21267647946899787361217952934843645952 .BtoA = .ok ⟨6521908914865307648000000000,
    21267647946899787361217952934843645952⟩ := by decide +kernel

example : Linear.swapWithoutFees ⟨1, 1000000000000000000, 0, 1⟩
    340282366920938463463374607431768211455 0 21267647946899787361217952934843645952 .BtoA = .ok
    ⟨6521908914865307648000000000, 21267647946899787361217952934843645952⟩ := by decide +kernel


/-! `swap_large_price_low_slope_u64`, curve/linear_price.rs l.1084-1210. -/

example : Linear.swapWithoutFees ⟨1, 1000000000000000000, 0, 1⟩ 18446744073709551615 0
    340282366920938463463374607431768211454 .AtoB = .ok ⟨18446744073709551615,
    6074000998000000000⟩ := by decide +kernel

example : Linear.swapWithoutFees ⟨1, 1000000000000000000, 0, 1⟩ 6074000998000000000 0
    18446744073709551615 .BtoA = .ok ⟨6074000998000000000, 18446744073709551613⟩ :=
    by decide +kernel

example : Linear.swapWithoutFees ⟨1, 1000000000000000000, 0, 1⟩ 3037000499000000000 0
    18446744073709551615 .BtoA = .ok ⟨3037000499000000000, 13835058052172426114⟩ :=
    by decide +kernel

example : Linear.swapWithoutFees ⟨1, 1000000000000000000, 0, 1⟩ 1518500250500000000 0
    4611686021537125501 .BtoA = .ok ⟨1518500250500000000, 3458764514634343874⟩ :=
    by decide +kernel

example : Linear.swapWithoutFees ⟨1, 1000000000000000000, 0, 1⟩ 1518500252000000000 0
    1152921506902781627 .BtoA = .ok ⟨1518500252000000000, 1152921506902781627⟩ :=
    by decide +kernel

example : Linear.swapWithoutFees ⟨1, 1000000000000000000, 0, 1⟩
    340282366920938463463374607431768211455 0 1152921506902781627 .BtoA = .ok
    ⟨1518500252000000000, 1152921506902781627⟩ := by decide +kernel


/-! `swap_large_initial_a_num_and_den`, curve/linear_price.rs l.1218-1329. -/

example : Linear.swapWithoutFees ⟨18446744073709551615, 18446744073709551614,
    18446744073709551614, 18446744073709551615⟩ 18446744073709551615 0 100000000000000000000 .AtoB
    = .ok ⟨18446744073709551615, 6074000997⟩ := by decide +kernel

example : Linear.swapWithoutFees ⟨18446744073709551615, 18446744073709551614,
    18446744073709551614, 18446744073709551615⟩ 3037000499 0 18446744073709551615 .BtoA = .ok
    ⟨3037000499, 13835058049135425613⟩ := by decide +kernel

example : Linear.swapWithoutFees ⟨18446744073709551615, 18446744073709551614,
    18446744073709551614, 18446744073709551615⟩ 1518500250 0 4611686021537125501 .BtoA = .ok
    ⟨1518500250, 3458764513875093749⟩ := by decide +kernel

example : Linear.swapWithoutFees ⟨18446744073709551615, 18446744073709551614,
    18446744073709551614, 18446744073709551615⟩ 1518500252 0 1152921507662031752 .BtoA = .ok
    ⟨1518500251, 1152921507662031752⟩ := by decide +kernel

example : Linear.swapWithoutFees ⟨18446744073709551615, 18446744073709551614,
    18446744073709551614, 18446744073709551615⟩ 340282366920938463463374607431768211455 0
    1152921507662031752 .BtoA = .ok ⟨1518500251, 1152921507662031752⟩ := by decide +kernel


/-! `swap_maximum_slope`, curve/linear_price.rs l.1337-1393. -/

example : ∀ e < 63, Linear.swapWithoutFees ⟨18446744073709551615, 1, 18446744073709551614,
    18446744073709551615⟩ (2 ^ e) 0 100000000000000000000 .AtoB = .none := by decide +kernel

example : Linear.swapWithoutFees ⟨18446744073709551615, 1, 18446744073709551614,
    18446744073709551615⟩ 18446744073709551615 0 100000000000000000000 .AtoB = .ok
    ⟨18446744073709551615, 1⟩ := by decide +kernel

example : Linear.swapWithoutFees ⟨18446744073709551615, 1, 18446744073709551614,
    18446744073709551615⟩ 340282366920938463463374607431768211455 0 100000000000000000000 .AtoB =
    .ok ⟨340282366920938463463374607431768211455, 6074000998⟩ := by decide +kernel


/-! `swap_very_large_slope`, curve/linear_price.rs l.1402-1509. -/

example : Linear.swapWithoutFees ⟨576460752303423488, 1, 18446744073709551614,
    18446744073709551615⟩ 18446744073709551615 0 100000000000000000000 .AtoB = .ok
    ⟨18446744073709551615, 7⟩ := by decide +kernel

example : Linear.swapWithoutFees ⟨576460752303423488, 1, 18446744073709551614,
    18446744073709551615⟩ 3 0 18446744073709551615 .BtoA = .ok ⟨3, 11240984669916758010⟩ :=
    by decide +kernel

example : Linear.swapWithoutFees ⟨576460752303423488, 1, 18446744073709551614,
    18446744073709551615⟩ 2 0 7205759403792793605 .BtoA = .ok ⟨2, 2594073385365405697⟩ :=
    by decide +kernel

example : Linear.swapWithoutFees ⟨576460752303423488, 1, 18446744073709551614,
    18446744073709551615⟩ 3 0 2594073385365405699 .BtoA = .ok ⟨3, 2305843009213693954⟩ :=
    by decide +kernel

example : Linear.swapWithoutFees ⟨576460752303423488, 1, 18446744073709551614,
    18446744073709551615⟩ 340282366920938463463374607431768211455 0 2594073385365405699 .BtoA =
    .ok ⟨3, 2594073385365405699⟩ := by decide +kernel


/-! `swap_is_slope_valid`, curve/linear_price.rs l.1513-1567. -/

example : Linear.isCurveParamValid ⟨0, 1000000000001, 1, 1⟩ ≠ .ok () := by decide +kernel

example : Linear.isCurveParamValid ⟨1, 0, 1, 1⟩ ≠ .ok () := by decide +kernel

example : Linear.isCurveParamValid ⟨1, 1000000000000000001, 1, 1⟩ ≠ .ok () := by decide +kernel

example : Linear.isCurveParamValid ⟨1, 1000000000000000000, 1, 1⟩ = .ok () := by decide +kernel

example : Linear.isCurveParamValid ⟨37, 1400000000000000000, 1, 1⟩ = .ok () := by decide +kernel

example : Linear.isCurveParamValid ⟨1, 1000000000000, 1, 0⟩ ≠ .ok () := by decide +kernel


/-! `test_taki`, curve/linear_price.rs l.1570-1799. -/

example : Linear.swapWithoutFees ⟨37, 1400000000000000000, 7, 2⟩ 1 0 1285000000000000 .AtoB =
    .none := by decide +kernel

example : Linear.swapWithoutFees ⟨37, 1400000000000000000, 7, 2⟩ 1000 0 1285000000000000 .AtoB =
    .none := by decide +kernel

example : Linear.swapWithoutFees ⟨37, 1400000000000000000, 7, 2⟩ 1000000 0 1285000000000000 .AtoB
    = .none := by decide +kernel

example : Linear.swapWithoutFees ⟨37, 1400000000000000000, 7, 2⟩ 10000000 0 1285000000000000 .AtoB
    = .none := by decide +kernel

example : Linear.swapWithoutFees ⟨37, 1400000000000000000, 7, 2⟩ 100000000 0 1285000000000000
    .AtoB = .none := by decide +kernel

example : Linear.swapWithoutFees ⟨37, 1400000000000000000, 7, 2⟩ 133000000 0 1285000000000000
    .AtoB = .ok ⟨133000000, 37837837⟩ := by decide +kernel

example : Linear.swapWithoutFees ⟨37, 1400000000000000000, 7, 2⟩ 1000000000 0 1285000000000000
    .AtoB = .ok ⟨1000000000, 264864864⟩ := by decide +kernel

example : Linear.swapWithoutFees ⟨37, 1400000000000000000, 7, 2⟩ 1000000000000 0 1285000000000000
    .AtoB = .ok ⟨1000000000000, 285713513513⟩ := by decide +kernel

example : Linear.swapWithoutFees ⟨37, 1400000000000000000, 7, 2⟩ 1000000000000000 0
    1285000000000000 .AtoB = .ok ⟨1000000000000000, 285406724324324⟩ := by decide +kernel

example : Linear.swapWithoutFees ⟨37, 1400000000000000000, 7, 2⟩ 1000000000000000000 0
    1285000000000000000000 .AtoB = .ok ⟨1000000000000000000, 172877287081081081⟩ :=
    by decide +kernel

example : Linear.swapWithoutFees ⟨37, 1400000000000000000, 7, 2⟩ 72877287081081081 0
    1000000000000000000 .BtoA = .ok ⟨72877287081081081, 517857142392277990⟩ := by decide +kernel

example : Linear.swapWithoutFees ⟨37, 1400000000000000000, 7, 2⟩ 99900000000000000 0
    482142857607722010 .BtoA = .ok ⟨99900000000000000, 481792725048334364⟩ := by decide +kernel

example : Linear.swapWithoutFees ⟨37, 1400000000000000000, 7, 2⟩ 99900000000000 0 350132559387646
    .BtoA = .ok ⟨99900000000000, 349782048444306⟩ := by decide +kernel

example : Linear.swapWithoutFees ⟨37, 1400000000000000000, 7, 2⟩ 99000000000 0 350510943340 .BtoA
    = .ok ⟨99000000000, 346462294672⟩ := by decide +kernel

example : Linear.swapWithoutFees ⟨37, 1400000000000000000, 7, 2⟩ 1000000000 0 4048648668 .BtoA =
    .ok ⟨1000000000, 3443243262⟩ := by decide +kernel

example : Linear.swapWithoutFees ⟨37, 1400000000000000000, 7, 2⟩ 100000000000 0 4048648668 .BtoA =
    .ok ⟨1172972973, 4048648668⟩ := by decide +kernel

/-! ## The other curves

They use crate `spl-math`, of which the model leaves two things open; none of these values depends
on either. -/

/-- What `spl-math` leaves open, with any square root. -/
def spl (h : Bool) : SplEnv := ⟨h, fun _ => .panic⟩

/-! `curve/constant_price.rs`, `swap_calculation_no_price`, `swap_calculation_large_price`,
`swap_calculation_max_min`, l.276-384. -/

example : ConstantPrice.swapWithoutFees 1 100 .AtoB = .ok ⟨100, 100⟩ := by decide +kernel

example : ConstantPrice.swapWithoutFees 1 100 .BtoA = .ok ⟨100, 100⟩ := by decide +kernel

example : ConstantPrice.swapWithoutFees 1123513 (1123513 - 1) .AtoB = .none := by decide +kernel

example : ConstantPrice.swapWithoutFees 1123513 1 .AtoB = .none := by decide +kernel

example : ConstantPrice.swapWithoutFees 1123513 1123513 .AtoB = .ok ⟨1123513, 1⟩ := by
  decide +kernel

example : ConstantPrice.swapWithoutFees 18446744073709551615 (18446744073709551615 - 1) .AtoB =
    .none := by decide +kernel

example : ConstantPrice.swapWithoutFees 18446744073709551615 1 .AtoB = .none := by decide +kernel

example : ConstantPrice.swapWithoutFees 18446744073709551615 0 .AtoB = .none := by decide +kernel

example : ConstantPrice.swapWithoutFees 18446744073709551615 18446744073709551615 .AtoB =
    .ok ⟨18446744073709551615, 1⟩ := by decide +kernel

/-! `curve/constant_product.rs`, `initial_pool_amount`, `trading_token_conversion`,
`fail_trading_token_conversion`, `constant_product_swap_rounding`, l.291-414. -/

example : Curve.newPoolSupply .constantProduct = INITIAL_SWAP_POOL_AMOUNT := by decide +kernel

example : ConstantProduct.poolTokensToTradingTokens 5 10 2 49 .Ceiling = .ok ⟨1, 25⟩ := by
  decide +kernel

example : ConstantProduct.poolTokensToTradingTokens 5 101 100 202 .Ceiling = .ok ⟨5, 10⟩ := by
  decide +kernel

example : ConstantProduct.poolTokensToTradingTokens 2 10 5 501 .Ceiling = .ok ⟨1, 101⟩ := by
  decide +kernel

example : ConstantProduct.poolTokensToTradingTokens 5 10 (2 ^ 128 - 1) 0 .Floor = .none := by
  decide +kernel

example : ConstantProduct.poolTokensToTradingTokens 5 10 0 (2 ^ 128 - 1) .Floor = .none := by
  decide +kernel

example (h : Bool) : ConstantProduct.swap (spl h) 10 70000000000 4000000 = .none := by
  cases h <;> decide +kernel

/-- The table of that test: what is sold, both balances, what is taken and what is given. -/
def rounding : List (Nat × Nat × Nat × Nat × Nat) :=
  [(10, 4000000, 70000000000, 10, 174999), (20, 30000 - 20, 10000, 18, 6),
   (19, 30000 - 20, 10000, 18, 6), (18, 30000 - 20, 10000, 18, 6), (10, 20000, 30000, 10, 14),
   (10, 20000 - 9, 30000, 10, 14), (10, 20000 - 10, 30000, 10, 15), (100, 60000, 30000, 99, 49),
   (99, 60000, 30000, 99, 49), (98, 60000, 30000, 97, 48)]

example (h : Bool) : ∀ r ∈ rounding,
    ConstantProduct.swap (spl h) r.1 r.2.1 r.2.2.1 = .ok ⟨r.2.2.2.1, r.2.2.2.2⟩ := by
  cases h <;> decide +kernel

/-! `curve/stable.rs`, `initial_pool_amount`, `trading_token_conversion`, l.362-396. -/

example : Curve.newPoolSupply (.stable 1) = INITIAL_SWAP_POOL_AMOUNT := by decide +kernel

example : Stable.poolTokensToTradingTokens 5 10 2 49 .Ceiling = .ok ⟨1, 25⟩ := by decide +kernel

example : Stable.poolTokensToTradingTokens 5 101 100 202 .Ceiling = .ok ⟨5, 10⟩ := by
  decide +kernel

example : Stable.poolTokensToTradingTokens 2 10 5 501 .Ceiling = .ok ⟨1, 101⟩ := by decide +kernel

/-! `curve/offset.rs`, `swap_no_offset`, `swap_offset`, `swap_a_to_b_max_offset`,
`swap_b_to_a_max_offset`, l.217-305. -/

example (h : Bool) : Offset.swapWithoutFees (spl h) 0 100 1000 50000 .AtoB = .ok ⟨100, 4545⟩ := by
  cases h <;> decide +kernel

example (h : Bool) : Offset.swapWithoutFees (spl h) 0 100 1000 50000 .BtoA = .ok ⟨100, 4545⟩ := by
  cases h <;> decide +kernel

example (h : Bool) : Offset.swapWithoutFees (spl h) 1000000 100 1000000 0 .AtoB =
    .ok ⟨100, 100 - 1⟩ := by cases h <;> decide +kernel

example (h : Bool) : Offset.swapWithoutFees (spl h) 1000000 100 1000000 0 .BtoA = .none := by
  cases h <;> decide +kernel

example (h : Bool) : Offset.swapWithoutFees (spl h) 18446744073709551615 1000 10000000 1000 .AtoB =
    .ok ⟨1000, 1844489958375117⟩ := by cases h <;> decide +kernel

example (h : Bool) : Offset.swapWithoutFees (spl h) 18446744073709551615 18446744073709551615
    10000000 1000 .BtoA = .ok ⟨18373104376818475561, 499⟩ := by cases h <;> decide +kernel

/-! `curve/base.rs`, `constant_product_trade_fee`, `constant_product_owner_fee`,
`constant_product_no_fee`, l.295-408. -/

example (h : Bool) : Curve.swap (spl h) .constantProduct 100 1000 50000 .AtoB
    ⟨1, 100, 0, 0, 0, 0, 0, 0⟩ = .ok ⟨1100, 45496, 100, 4504, 1, 0⟩ := by
  cases h <;> decide +kernel

example (h : Bool) : Curve.swap (spl h) .constantProduct 100 1000 50000 .AtoB
    ⟨0, 0, 1, 100, 0, 0, 0, 0⟩ = .ok ⟨1100, 45496, 100, 4504, 0, 1⟩ := by
  cases h <;> decide +kernel

example (h : Bool) : Curve.swap (spl h) .constantProduct 100 1000 50000 .AtoB
    ⟨0, 0, 0, 0, 0, 0, 0, 0⟩ = .ok ⟨1100, 45455, 100, 4545, 0, 0⟩ := by
  cases h <;> decide +kernel

/-! ## `curve/fees.rs`, `state.rs`, `constraints.rs` -/

/-! `pack_fees`, curve/fees.rs l.191-229. -/

example : State.unpackFees (State.packFees ⟨1, 4, 2, 5, 4, 10, 7, 100⟩) =
    ⟨1, 4, 2, 5, 4, 10, 7, 100⟩ := by decide +kernel

/-- A word in eight bytes, for words below 256. -/
def word (b : UInt8) : List UInt8 := [b, 0, 0, 0, 0, 0, 0, 0]

example : State.unpackFees (word 1 ++ word 4 ++ word 2 ++ word 5 ++ word 4 ++ word 10 ++ word 7 ++
    word 100) = ⟨1, 4, 2, 5, 4, 10, 7, 100⟩ := by decide +kernel

/-! `swap_version_pack`, `swap_v1_pack`, state.rs l.257-375. -/

deriving instance DecidableEq for Except

/-- A key of 32 equal bytes. -/
def key (b : UInt8) : Pubkey := State.keyAt (List.replicate 32 b) 0

/-- The pool of these tests. -/
def swapInfo : SwapV1 :=
  ⟨true, 255, key 1, key 2, key 3, key 4, key 5, key 6, key 7, ⟨1, 4, 3, 10, 2, 7, 5, 20⟩,
    .stable 1⟩

example : (do let l ← SwapVersion.pack swapInfo (List.replicate SwapVersion.LATEST_LEN 0)
              SwapVersion.unpack l) = .ok swapInfo := by decide +kernel

example : SwapV1.unpack (SwapV1.packIntoSlice swapInfo (List.replicate SwapV1.LEN 0)) =
    .ok swapInfo := by decide +kernel

example : SwapV1.unpack ([1, 255] ++ List.replicate 32 1 ++ List.replicate 32 2 ++
    List.replicate 32 3 ++ List.replicate 32 4 ++ List.replicate 32 5 ++ List.replicate 32 6 ++
    List.replicate 32 7 ++ word 1 ++ word 4 ++ word 3 ++ word 10 ++ word 2 ++ word 7 ++ word 5 ++
    word 20 ++ [2] ++ word 1 ++ List.replicate 24 0) = .ok swapInfo := by decide +kernel

example : SwapV1.unpackFromSlice (List.replicate SwapV1.LEN 0) =
    .ok ⟨false, 0, key 0, key 0, key 0, key 0, key 0, key 0, key 0, ⟨0, 0, 0, 0, 0, 0, 0, 0⟩,
      .constantProduct⟩ := by decide +kernel

example : SwapV1.unpack (List.replicate SwapV1.LEN 0) = .error .UninitializedAccount := by
  decide +kernel

/-! `validate_fees`, constraints.rs l.106-196. -/

/-- The constraints of that test. -/
def constraints : SwapConstraints := ⟨none, [.ConstantProduct], ⟨1, 4, 2, 5, 4, 10, 10, 100⟩⟩

example : constraints.validateCurve .constantProduct = .ok () := by decide +kernel

example : constraints.validateFees ⟨1, 4, 2, 5, 4, 10, 10, 100⟩ = .ok () := by decide +kernel

example : constraints.validateFees ⟨0, 4, 2, 5, 4, 10, 10, 100⟩ = .error (.swap .InvalidFee) := by
  decide +kernel

example : constraints.validateFees ⟨1, 3, 2, 5, 4, 10, 10, 100⟩ = .error (.swap .InvalidFee) := by
  decide +kernel

example : constraints.validateFees ⟨1, 5, 2, 5, 4, 10, 10, 100⟩ = .error (.swap .InvalidFee) := by
  decide +kernel

example : constraints.validateFees ⟨1, 4, 1, 5, 4, 10, 10, 100⟩ = .error (.swap .InvalidFee) := by
  decide +kernel

example : constraints.validateFees ⟨1, 4, 2, 4, 4, 10, 10, 100⟩ = .error (.swap .InvalidFee) := by
  decide +kernel

example : constraints.validateCurve (.constantPrice 1) = .error (.swap .UnsupportedCurveType) := by
  decide +kernel

end Vectors
end Verif
