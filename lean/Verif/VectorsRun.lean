import Verif.Props.Sample

/-
The model of whole instructions on the repository's integration tests, tests/token-bonding-curve.ts.
As in `Verif.Vectors` these are tests of the model, not proofs about the code: each `example` executes
one instruction on a ledger with the balances of the test at that point, and compares the balances the
test looks at afterwards with the values it asserts.
-/

namespace Verif
namespace VectorsRun
open Sample

/-- The ledger of these tests.  Pool 1: vaults 3 and 4, pool mint 5, fee account 6, destination 7 of
user 62.  User 50 holds 30 (A), 31 (B) and an empty pool token account 34, user 51 holds 32 (A) and 33
(B), user 62 holds 35 (A) and 36 (B), both empty.  `state` is the content of the pool's account. -/
def world (state : List UInt8) (supply a b : UInt64) (ua ub va vb : UInt64) : World := ledger [
  (key 1, ⟨key 100, .raw state⟩),
  (key 3, tok (key 20) (key 129) a),
  (key 4, tok (key 21) (key 129) b),
  (key 5, mnt (key 129) supply),
  (key 6, tok (key 5) (key 60) 0),
  (key 7, tok (key 5) (key 62) supply),
  (key 20, mnt (key 61) (a + ua + va)),
  (key 21, mnt (key 61) (b + ub + vb)),
  (key 30, tok (key 20) (key 50) ua),
  (key 31, tok (key 21) (key 50) ub),
  (key 32, tok (key 20) (key 51) va),
  (key 33, tok (key 21) (key 51) vb),
  (key 34, tok (key 5) (key 50) 0),
  (key 35, tok (key 20) (key 62) 0),
  (key 36, tok (key 21) (key 62) 0)]

/-- The pool's account before and after initialisation. -/
def blank : List UInt8 := List.replicate 324 0
def stored (fees : Fees) (c : Curve) : List UInt8 :=
  1 :: SwapV1.packIntoSlice ⟨true, 255, key 101, key 3, key 4, key 5, key 20, key 21, key 6, fees, c⟩
    (List.replicate 323 0)

/-- Content of an account. -/
def raw (w : World) (k : Pubkey) : List UInt8 :=
  match (w k).data with
  | .raw l => l
  | _ => []

/-- Balances after an instruction signed by someone, or the error. -/
def result (signer : UInt8) (i : Instr) (ks : List UInt8) (w : World) : Except Err (List Int) :=
  after (exec env [key signer] i w) (bals ks)

/-- Whether an instruction is turned down. -/
def rejects (signer : UInt8) (i : Instr) (w : World) : Bool :=
  match exec env [key signer] i w with
  | .ok _ => false
  | .error _ => true

/-- What the pool's account holds after an instruction. -/
def leaves (signer : UInt8) (i : Instr) (w : World) : List UInt8 :=
  match exec env [key signer] i w with
  | .ok w' => raw w' (key 1)
  | .error _ => []

def buyBy (u src dst : UInt8) (x : UInt64) : Instr :=
  .swap ⟨key 1, key 129, key u, key src, key 3, key 4, key dst, key 5, key 6, key 101⟩ x 0
def sellBy (u src dst : UInt8) (x : UInt64) : Instr :=
  .swap ⟨key 1, key 129, key u, key src, key 4, key 3, key dst, key 5, key 6, key 101⟩ x 0

/-! "should perform constant price swap!", l.129-279. -/

def priceFees : Fees := ⟨2, 100, 3, 100, 7, 100, 11, 100⟩
def initPrice : Instr := .initConstantPrice init1 priceFees 5

example : result 1 initPrice [6, 7] (world blank 0 100000000000 200000000000 0 0 0 0) =
    .ok [0, 1000000000] := by decide +kernel

example : leaves 1 initPrice (world blank 0 100000000000 200000000000 0 0 0 0) =
    stored priceFees (.constantPrice 5) := by decide +kernel

example : result 50 (buyBy 50 30 31 2000000000) [30, 3, 31, 4]
    (world (stored priceFees (.constantPrice 5)) 1000000000 100000000000 200000000000 3000000000
      20000000000 0 0) = .ok [1000000000, 102000000000, 20380000000, 199620000000] := by
  decide +kernel

/-! "should initialize linear price swap!", l.344-618. -/

def forte : LinearPriceCurve := ⟨1, 200000000, 150, 3⟩
def initForte : Instr := .initLinearPrice init1 forte
def pool : List UInt8 := stored linearFees (.linear forte)

example : result 1 initForte [6, 7] (world blank 0 0 50000000000 0 0 0 0) = .ok [0, 1000000000] := by
  decide +kernel

example : leaves 1 initForte (world blank 0 0 50000000000 0 0 0 0) = pool := by decide +kernel

example : result 50 (buyBy 50 30 31 240000000000) [30, 3, 31, 4]
    (world pool 1000000000 0 50000000000 1000000000000 20000000000 0 0) =
    .ok [760000000000, 240000000000, 24000000000, 46000000000] := by decide +kernel

example : result 51 (buyBy 51 32 33 150000000000) [32, 3, 33, 4]
    (world pool 1000000000 240000000000 46000000000 760000000000 24000000000 400000000000
      10000000000) = .ok [250000000000, 390000000000, 12000000000, 44000000000] := by
  decide +kernel

example : result 50 (sellBy 50 31 30 3000000000) [30, 3, 31, 4]
    (world pool 1000000000 390000000000 44000000000 760000000000 24000000000 250000000000
      12000000000) = .ok [977500000000, 172500000000, 21000000000, 47000000000] := by
  decide +kernel

example : result 51 (sellBy 51 33 32 5000000000) [32, 3, 33, 4]
    (world pool 1000000000 172500000000 47000000000 977500000000 21000000000 250000000000
      12000000000) = .ok [422500000000, 0, 9000000000, 50000000000] := by
  decide +kernel

example : result 50 (buyBy 50 30 31 10000000000000) [30, 3, 31, 4]
    (world pool 1000000000 0 50000000000 10977500000000 21000000000 422500000000 9000000000) =
    .ok [2227500000000, 8750000000000, 71000000000, 0] := by decide +kernel

/-! "should fail invalid linear price swaps!", l.620-691. -/

example : rejects 1 initForte (world blank 0 0 0 0 0 0 0) = true := by decide +kernel

example : rejects 1 initForte (world blank 0 1 1 0 0 0 0) = true := by decide +kernel

/-! "should disallow linear price swaps deposits/withdrawals!", l.693-854. -/

def idle : World := world pool 1000000000 0 50000000000 10000000000 20000000000 0 0

example : rejects 50 (.depositAll ⟨key 1, key 129, key 50, key 30, key 31, key 3, key 4, key 5, key 34,
    key 101⟩ 1000000000 10000000000 20000000000) idle = true := by decide +kernel

example : rejects 50 (.depositSingle ⟨key 1, key 129, key 50, key 31, key 3, key 4, key 5, key 34,
    key 101⟩ 10000000000 1000000000) idle = true := by decide +kernel

example : rejects 62 (.withdrawAll ⟨key 1, key 129, key 62, key 5, key 7, key 3, key 4, key 35, key 36,
    key 6, key 101⟩ 1000000000 0 10000000000) idle = true := by decide +kernel

example : rejects 62 (.withdrawSingle ⟨key 1, key 129, key 62, key 5, key 7, key 3, key 4, key 36,
    key 6, key 101⟩ 10000000000 1000000000) idle = true := by decide +kernel

/-! "should handle taki low slope!", l.856-1442. -/

def taki : LinearPriceCurve := ⟨37, 1400000000000000000, 7, 2⟩
def initTaki : Instr := .initLinearPrice init1 taki
def takiPool : List UInt8 := stored linearFees (.linear taki)

example : result 1 initTaki [6, 7] (world blank 0 0 5000000000 0 0 0 0) = .ok [0, 1000000000] := by
  decide +kernel

example : leaves 1 initTaki (world blank 0 0 5000000000 0 0 0 0) = takiPool := by decide +kernel

/-- The ledger of that test: the pool's balances and the user's. -/
def at_ (a b ua ub : UInt64) : World := world takiPool 1000000000 a b ua ub 0 0

example : ∀ x ∈ [1, 1000, 1000000, 10000000],
    rejects 50 (buyBy 50 30 31 x) (at_ 0 5000000000 10000000000 1000000000) = true := by
  decide +kernel

def buyTaki (x : UInt64) : World → Except Err (List Int) := result 50 (buyBy 50 30 31 x) [30, 3, 31, 4]
def sellTaki (x : UInt64) : World → Except Err (List Int) :=
  result 50 (sellBy 50 31 30 x) [30, 3, 31, 4]

example : buyTaki 133000000 (at_ 0 5000000000 10000000000 1000000000) =
    .ok [9867000000, 133000000, 1037837837, 4962162163] := by decide +kernel

example : buyTaki 1000000000 (at_ 133000000 9962162163 14867000000 1037837837) =
    .ok [13867000000, 1133000000, 1264864864, 9735135136] := by decide +kernel

example : buyTaki 1000000000000 (at_ 1133000000 5009735135136 5013867000000 1264864864) =
    .ok [4013867000000, 1001133000000, 286940540539, 4724059459461] := by decide +kernel

example : buyTaki 1000000000000000
    (at_ 1001133000000 5004724059459461 5004013867000000 286940540539) =
    .ok [4004013867000000, 1001001133000000, 285693021621620, 4719317978378380] := by decide +kernel

example : buyTaki 100000000000000000
    (at_ 1001001133000000 34719317978378380 104004013867000000 285693021621620) =
    .ok [4004013867000000, 101001001133000000, 26254896686486484, 8750114313513516] := by
  decide +kernel

example : sellTaki 26000000000000000
    (at_ 101001001133000000 8750114313513516 4004013867000000 26254896686486484) =
    .ok [104112020877786866, 892994122213134, 254896686486484, 34750114313513516] := by
  decide +kernel

example : sellTaki 254000000000000
    (at_ 892994122213134 34750114313513516 104112020877786866 254896686486484) =
    .ok [105001879405610388, 3135594389612, 896686486484, 35004114313513516] := by decide +kernel

example : sellTaki 890000000000
    (at_ 3135594389612 35004114313513516 105001879405610388 896686486484) =
    .ok [105004994397296837, 20602703163, 6686486484, 35005004313513516] := by decide +kernel

example : sellTaki 5000000000 (at_ 20602703163 35005004313513516 105004994397296837 6686486484) =
    .ok [105005011840540528, 3159459472, 1686486484, 35005009313513516] := by decide +kernel

example : sellTaki 1686486484 (at_ 3159459472 35005009313513516 105005011840540528 1686486484) =
    .ok [105005015000000000, 0, 778378376, 35005010221621624] := by decide +kernel

end VectorsRun
end Verif
