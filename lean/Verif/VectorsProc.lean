import Verif.Model.SplRoot
import Verif.Props.Sample

/-
The model of the processor on the scenarios of the processor's own tests, processor.rs l.1055-6771.
The repository keeps these tests as a comment (they were written for the program this one was forked
from, and use its instruction module, which is gone), so nobody runs them; but they say which error each
wrong account and each wrong amount is meant to give, and most of the checks are still the same code.
As in `Verif.Vectors` these are tests of the model, not proofs.  The transfers are signed by the owner
of the accounts rather than by someone they approved, which makes no difference to the errors.
-/

namespace Verif
namespace VectorsProc
open Sample hiding env
open Processor

/-- The sample environment with the square root of `spl-math` (`Model/SplRoot.lean`). -/
def env : Env := { Sample.env with spl := Spl.library true }

/-- The error of a run, if it fails. -/
def failure (r : Except Err World) : Option Err :=
  match r with
  | .ok _ => none
  | .error e => some e

/-- An error of the program, of the token program. -/
abbrev sw (e : SwapError) : Option Err := some (.swap e)
abbrev tk (e : TokenError) : Option Err := some (.token e)

/-- Token accounts with more than an owner and an amount. -/
def tokWith (mint owner : Pubkey) (amount : UInt64) (delegate close : Option Pubkey) : Account :=
  ⟨key 101, .token ⟨mint, owner, amount, delegate, false, 0, close⟩⟩

/-- Accounts before a pool is created, as `SwapAccountInfo::new` (l.1155-1233) makes them: pool account 1
with authority 129, vaults 3 and 4, pool mint 5, fee account 6 and pool token account 7 of user 50. -/
def fresh (a b : UInt64) : List (Pubkey × Account) := [
  (key 1, ⟨key 100, .raw (List.replicate 324 0)⟩),
  (key 3, tok (key 20) (key 129) a),
  (key 4, tok (key 21) (key 129) b),
  (key 5, mnt (key 129) 0),
  (key 6, tok (key 5) (key 50) 0),
  (key 7, tok (key 5) (key 50) 0),
  (key 20, mnt (key 50) a),
  (key 21, mnt (key 50) b)]

/-! ### `test_initialize`, l.1858-2698 -/

def fees : Fees := ⟨1, 2, 1, 10, 1, 5, 20, 100⟩

/-- Creating the pool with some accounts put in the place of others. -/
def create (curve : Curve) (acc : InitAccounts) (changed : List (Pubkey × Account)) : Option Err :=
  failure (processInitialize env [] fees curve acc (ledger (changed ++ fresh 1000 2000)))

/-- The same for a constant product pool and the usual accounts. -/
def product (changed : List (Pubkey × Account)) : Option Err := create .constantProduct init1 changed

example : create .constantProduct { init1 with authority := key 130 } [] = sw .InvalidProgramAddress := by
  decide +kernel
example : product [(key 3, ⟨key 101, .raw []⟩)] = sw .ExpectedAccount := by decide +kernel
example : product [(key 4, ⟨key 101, .raw []⟩)] = sw .ExpectedAccount := by decide +kernel
example : product [(key 5, ⟨key 101, .raw []⟩)] = sw .ExpectedMint := by decide +kernel
example : product [(key 3, tok (key 20) (key 50) 1000)] = sw .InvalidOwner := by decide +kernel
example : product [(key 4, tok (key 21) (key 50) 2000)] = sw .InvalidOwner := by decide +kernel
example : product [(key 7, tok (key 5) (key 129) 0)] = sw .InvalidOutputOwner := by decide +kernel
example : product [(key 6, tok (key 5) (key 129) 0)] = sw .InvalidOutputOwner := by decide +kernel
example : product [(key 5, mnt (key 50) 0)] = sw .InvalidOwner := by decide +kernel
example : product [(key 5, ⟨key 101, .mint ⟨some (key 129), 0, some (key 50)⟩⟩)] =
  sw .InvalidFreezeAuthority := by decide +kernel
example : product [(key 3, { tok (key 20) (key 129) 1000 with owner := key 77 })] =
  sw .IncorrectTokenProgramId := by decide +kernel
example : product [(key 4, { tok (key 21) (key 129) 2000 with owner := key 77 })] =
  sw .IncorrectTokenProgramId := by decide +kernel
example : product [(key 3, tok (key 20) (key 129) 0)] = sw .EmptySupply := by decide +kernel
example : product [(key 4, tok (key 21) (key 129) 0)] = sw .EmptySupply := by decide +kernel
example : product [(key 5, mnt (key 129) 100), (key 7, tok (key 5) (key 50) 100)] = sw .InvalidSupply := by
  decide +kernel
example : product [(key 5, mnt (key 129) 10)] = sw .InvalidSupply := by decide +kernel
example : product [(key 6, tok (key 20) (key 50) 0)] = sw .IncorrectPoolMint := by decide +kernel
example : product [(key 3, tokWith (key 20) (key 129) 1000 (some (key 50)) none)] = sw .InvalidDelegate := by
  decide +kernel
example : product [(key 4, tokWith (key 21) (key 129) 2000 (some (key 50)) none)] = sw .InvalidDelegate := by
  decide +kernel
example : product [(key 3, tokWith (key 20) (key 129) 1000 none (some (key 50)))] =
  sw .InvalidCloseAuthority := by decide +kernel
example : product [(key 4, tokWith (key 21) (key 129) 2000 none (some (key 50)))] =
  sw .InvalidCloseAuthority := by decide +kernel
example : create .constantProduct { init1 with tokenProgram := key 77 } [] = sw .IncorrectTokenProgramId := by
  decide +kernel
example : product [(key 4, tok (key 20) (key 129) 10)] = sw .RepeatedMint := by decide +kernel
example : product [] = none := by decide +kernel
example : create (.constantPrice 0) init1 [] = sw .InvalidCurve := by decide +kernel
example : create (.constantPrice 10000) init1 [] = none := by decide +kernel
example : create (.offset 0) init1 [] = sw .InvalidCurve := by decide +kernel
example : create (.offset 10) init1 [] = none := by decide +kernel

/-- Creating a pool under constraints with fees of 25/10000 and 5/10000, l.2555-2680. -/
def constrained (owner : Pubkey) (f : Fees) : Option Err :=
  failure (processInitialize
    { env with constraints := some ⟨some owner, [.ConstantProduct], ⟨25, 10000, 5, 10000, 1, 5, 20, 100⟩⟩ }
    [] f .constantProduct init1 (ledger (fresh 1000 2000)))

example : constrained (key 51) ⟨25, 10000, 5, 10000, 1, 5, 20, 100⟩ = sw .InvalidOwner := by decide +kernel
example : constrained (key 50) ⟨24, 10000, 5, 10000, 1, 5, 20, 100⟩ = sw .InvalidFee := by decide +kernel
example : constrained (key 50) ⟨25, 10000, 5, 10000, 1, 5, 20, 100⟩ = none := by decide +kernel

/-! ### Pools in use -/

/-- Content of the account of a pool. -/
def stored (f : Fees) (c : Curve) : List UInt8 :=
  1 :: SwapV1.packIntoSlice ⟨true, 255, key 101, key 3, key 4, key 5, key 20, key 21, key 6, f, c⟩
    (List.replicate 323 0)

/-- A pool in use, with accounts 30 (token A), 31 (token B) and 34 (pool tokens) of another user, 51, as
`setup_token_accounts` (l.1260-1300) makes them; 37 is another pool token account of user 51. -/
def inUse (f : Fees) (c : Curve) (a b ua ub up : UInt64) : List (Pubkey × Account) := [
  (key 1, ⟨key 100, .raw (stored f c)⟩),
  (key 3, tok (key 20) (key 129) a),
  (key 4, tok (key 21) (key 129) b),
  (key 5, mnt (key 129) (1000000000 + up)),
  (key 6, tok (key 5) (key 50) 0),
  (key 7, tok (key 5) (key 50) 1000000000),
  (key 8, mnt (key 129) 0),
  (key 20, mnt (key 50) (a + ua)),
  (key 21, mnt (key 50) (b + ub)),
  (key 30, tok (key 20) (key 51) ua),
  (key 31, tok (key 21) (key 51) ub),
  (key 34, tok (key 5) (key 51) up),
  (key 37, tok (key 5) (key 51) 0)]

/-- Creating the pool leaves that content, and creating it again is refused. -/
example : failure (processInitialize env [] fees .constantProduct init1
    (ledger (inUse fees .constantProduct 1000 2000 0 0 0))) = sw .AlreadyInUse := by decide +kernel

/-! ### `test_deposit`, l.2701-3311 -/

/-- Deposits into a constant product pool with 1000 A and 9000 B. -/
def dep (ua ub : UInt64) (changed : List (Pubkey × Account)) (signer : Pubkey) (acc : DepositAllAccounts)
    (pool maxA maxB : UInt64) : Except Err World :=
  processDepositAll env [signer] pool maxA maxB acc
    (ledger (changed ++ inUse fees .constantProduct 1000 9000 ua ub 0))

/-- The accounts of a deposit. -/
def depAcc : DepositAllAccounts :=
  ⟨key 1, key 129, key 51, key 30, key 31, key 3, key 4, key 5, key 34, key 101⟩

/-- The deposit of the test with something wrong about its accounts. -/
def depBad (changed : List (Pubkey × Account)) (acc : DepositAllAccounts) : Option Err :=
  failure (dep 100 900 changed acc.userAuthority acc 100000000 100 900)

example : depBad [(key 1, ⟨key 100, .raw (List.replicate 324 0)⟩)] depAcc = some .UninitializedAccount := by
  decide +kernel
example : depBad [(key 1, ⟨key 101, .raw (stored fees .constantProduct)⟩)] depAcc =
  some .IncorrectProgramId := by decide +kernel
example : depBad [] { depAcc with authority := key 130 } = sw .InvalidProgramAddress := by decide +kernel
example : failure (dep 50 900 [] (key 51) depAcc 100000000 100 900) = tk .InsufficientFunds := by
  decide +kernel
example : failure (dep 100 450 [] (key 51) depAcc 100000000 100 900) = tk .InsufficientFunds := by
  decide +kernel
example : depBad [] { depAcc with sourceA := key 31, sourceB := key 30 } = tk .MintMismatch := by
  decide +kernel
example : depBad [(key 38, tok (key 20) (key 51) 100)] { depAcc with destination := key 38 } =
  tk .MintMismatch := by decide +kernel
example : depBad [] { depAcc with userAuthority := key 99 } = tk .OwnerMismatch := by decide +kernel
example : depBad [] { depAcc with tokenProgram := key 77 } = sw .IncorrectTokenProgramId := by decide +kernel
example : depBad [] { depAcc with tokenA := key 30 } = sw .IncorrectSwapAccount := by decide +kernel
example : depBad [] { depAcc with tokenB := key 31 } = sw .IncorrectSwapAccount := by decide +kernel
example : depBad [] { depAcc with poolMint := key 8 } = sw .IncorrectPoolMint := by decide +kernel
example : failure (dep 100 900 [] (key 51) depAcc 1 100 900) = sw .ZeroTradingTokens := by decide +kernel
example : failure (dep 100 900 [] (key 51) depAcc 100000000 10 900) = sw .ExceededSlippage := by
  decide +kernel
example : failure (dep 100 900 [] (key 51) depAcc 100000000 100 90) = sw .ExceededSlippage := by
  decide +kernel
example : depBad [] { depAcc with userAuthority := key 129, sourceA := key 3, sourceB := key 4 } =
  sw .InvalidInput := by decide +kernel
/-- The vaults have 1100 and 9900, the user nothing, and the supply is what the two accounts hold. -/
example : after (dep 100 900 [] (key 51) depAcc 100000000 100 900) (bals [3, 4, 30, 31, 7, 34]) =
  .ok [1100, 9900, 0, 0, 1000000000, 100000000] := by decide +kernel
example : after (dep 100 900 [] (key 51) depAcc 100000000 100 900)
    (fun w => [Spec.supply w (key 5)]) = .ok [1100000000] := by decide +kernel

/-! ### `test_withdraw`, l.3314-4118 -/

def feesW : Fees := ⟨1, 2, 1, 10, 1, 5, 7, 100⟩

/-- Withdrawals from a constant product pool with 1000 A and 2000 B; the user has 100 A and 200 B. -/
def wd (up : UInt64) (changed : List (Pubkey × Account)) (signer : Pubkey) (acc : WithdrawAllAccounts)
    (pool minA minB : UInt64) : Except Err World :=
  processWithdrawAll env [signer] pool minA minB acc
    (ledger (changed ++ inUse feesW .constantProduct 1000 2000 100 200 up))

def wdAcc : WithdrawAllAccounts :=
  ⟨key 1, key 129, key 51, key 5, key 34, key 3, key 4, key 30, key 31, key 6, key 101⟩

/-- The withdrawal of the test (25000000 pool tokens for at least 2 A and 5 B) with something wrong about
its accounts. -/
def wdBad (changed : List (Pubkey × Account)) (acc : WithdrawAllAccounts) : Option Err :=
  failure (wd 100000000 changed acc.userAuthority acc 25000000 2 5)

example : wdBad [(key 1, ⟨key 100, .raw (List.replicate 324 0)⟩)] wdAcc = some .UninitializedAccount := by
  decide +kernel
example : wdBad [(key 1, ⟨key 101, .raw (stored feesW .constantProduct)⟩)] wdAcc =
  some .IncorrectProgramId := by decide +kernel
example : wdBad [] { wdAcc with authority := key 130 } = sw .InvalidProgramAddress := by decide +kernel
example : failure (wd 12500000 [] (key 51) wdAcc 25000000 1 2) = tk .InsufficientFunds := by decide +kernel
example : wdBad [] { wdAcc with destA := key 31, destB := key 30 } = tk .MintMismatch := by decide +kernel
example : wdBad [(key 38, tok (key 20) (key 51) 25000000)] { wdAcc with source := key 38 } =
  tk .MintMismatch := by decide +kernel
example : wdBad [] { wdAcc with fee := key 37 } = sw .IncorrectFeeAccount := by decide +kernel
example : wdBad [] { wdAcc with userAuthority := key 99 } = tk .OwnerMismatch := by decide +kernel
example : wdBad [] { wdAcc with tokenProgram := key 77 } = sw .IncorrectTokenProgramId := by decide +kernel
example : wdBad [] { wdAcc with tokenA := key 30 } = sw .IncorrectSwapAccount := by decide +kernel
example : wdBad [] { wdAcc with tokenB := key 31 } = sw .IncorrectSwapAccount := by decide +kernel
example : wdBad [] { wdAcc with poolMint := key 8 } = sw .IncorrectPoolMint := by decide +kernel
example : failure (wd 100000000 [] (key 51) wdAcc 1 0 0) = sw .ZeroTradingTokens := by decide +kernel
example : failure (wd 100000000 [] (key 51) wdAcc 25000000 20 5) = sw .ExceededSlippage := by decide +kernel
example : failure (wd 100000000 [] (key 51) wdAcc 25000000 2 50) = sw .ExceededSlippage := by decide +kernel
example : wdBad [] { wdAcc with destA := key 3 } = sw .InvalidInput := by decide +kernel
example : wdBad [] { wdAcc with destB := key 4 } = sw .InvalidInput := by decide +kernel
/-- The user has what is left of their pool tokens, the fee account a fifth of 25000000, and what the user
gets is the part of the other 20000000 in the vaults (18 and 36). -/
example : after (wd 100000000 [] (key 51) wdAcc 25000000 2 5) (bals [34, 6, 3, 4, 30, 31]) =
  .ok [75000000, 5000000, 982, 1964, 118, 236] := by decide +kernel
/-- From the fee account itself there is no fee, l.4057-4117. -/
example : after (wd 0 [(key 6, tok (key 5) (key 50) 5000000), (key 5, mnt (key 129) 1080000000)] (key 50)
    { wdAcc with userAuthority := key 50, source := key 6 } 5000000 0 0) (bals [6, 3, 4, 30, 31]) =
  .ok [0, 996, 1991, 104, 209] := by decide +kernel

/-! ### `test_deposit_one_exact_in`, l.4121-4631 -/

/-- One-sided deposits into the pool of `test_deposit`. -/
def one (ua ub : UInt64) (changed : List (Pubkey × Account)) (acc : DepositSingleAccounts)
    (amount minPool : UInt64) : Except Err World :=
  processDepositSingle env [acc.userAuthority] amount minPool acc
    (ledger (changed ++ inUse ⟨1, 2, 1, 10, 1, 5, 20, 100⟩ .constantProduct 1000 9000 ua ub 0))

def oneAcc : DepositSingleAccounts := ⟨key 1, key 129, key 51, key 30, key 3, key 4, key 5, key 34, key 101⟩

/-- 100 A for at least 10000000 pool tokens, with something wrong about the accounts. -/
def oneBad (changed : List (Pubkey × Account)) (acc : DepositSingleAccounts) : Option Err :=
  failure (one 100 900 changed acc 100 10000000)

example : oneBad [(key 1, ⟨key 100, .raw (List.replicate 324 0)⟩)] oneAcc = some .UninitializedAccount := by
  decide +kernel
example : oneBad [(key 1, ⟨key 101, .raw (stored fees .constantProduct)⟩)] oneAcc =
  some .IncorrectProgramId := by decide +kernel
example : oneBad [] { oneAcc with authority := key 130 } = sw .InvalidProgramAddress := by decide +kernel
example : failure (one 50 450 [] oneAcc 100 0) = tk .InsufficientFunds := by decide +kernel
example : failure (one 50 450 [] { oneAcc with source := key 31 } 900 0) = tk .InsufficientFunds := by
  decide +kernel
example : oneBad [] { oneAcc with destination := key 31 } = tk .MintMismatch := by decide +kernel
example : oneBad [] { oneAcc with userAuthority := key 99 } = tk .OwnerMismatch := by decide +kernel
example : oneBad [] { oneAcc with tokenProgram := key 77 } = sw .IncorrectTokenProgramId := by decide +kernel
example : oneBad [] { oneAcc with tokenA := key 30 } = sw .IncorrectSwapAccount := by decide +kernel
example : oneBad [] { oneAcc with tokenB := key 31 } = sw .IncorrectSwapAccount := by decide +kernel
example : oneBad [] { oneAcc with poolMint := key 8 } = sw .IncorrectPoolMint := by decide +kernel
example : failure (one 100 900 [] oneAcc 10 10000000) = sw .ExceededSlippage := by decide +kernel
example : failure (one 100 900 [] { oneAcc with source := key 31 } 90 10000000) = sw .ExceededSlippage := by
  decide +kernel
example : oneBad [] { oneAcc with userAuthority := key 129, source := key 3 } = sw .InvalidInput := by
  decide +kernel
example : oneBad [] { oneAcc with userAuthority := key 129, source := key 4 } = sw .InvalidInput := by
  decide +kernel
example : after (one 100 900 [] oneAcc 100 10000000) (bals [3, 30]) = .ok [1100, 0] := by decide +kernel
example : after (one 100 900 [] { oneAcc with source := key 31 } 900 10000000) (bals [4, 31]) =
  .ok [9900, 0] := by decide +kernel

/-! ### `test_withdraw_one_exact_out`, l.4634-5312 -/

/-- One-sided withdrawals from a constant product pool with 100000 A and 200000 B; the user has 10000 A
and 20000 B. -/
def out (up : UInt64) (changed : List (Pubkey × Account)) (acc : WithdrawSingleAccounts)
    (amount maxPool : UInt64) : Except Err World :=
  processWithdrawSingle env [acc.userAuthority] amount maxPool acc
    (ledger (changed ++ inUse feesW .constantProduct 100000 200000 10000 20000 up))

def outAcc : WithdrawSingleAccounts :=
  ⟨key 1, key 129, key 51, key 5, key 34, key 3, key 4, key 30, key 6, key 101⟩
def outAccB : WithdrawSingleAccounts := { outAcc with destination := key 31 }

/-- 250 A for at most 25000000 pool tokens, with something wrong about the accounts. -/
def outBad (changed : List (Pubkey × Account)) (acc : WithdrawSingleAccounts) : Option Err :=
  failure (out 25000000 changed acc 250 25000000)

example : outBad [(key 1, ⟨key 100, .raw (List.replicate 324 0)⟩)] outAcc = some .UninitializedAccount := by
  decide +kernel
example : outBad [(key 1, ⟨key 101, .raw (stored feesW .constantProduct)⟩)] outAcc =
  some .IncorrectProgramId := by decide +kernel
example : outBad [] { outAccB with authority := key 130 } = sw .InvalidProgramAddress := by decide +kernel
example : failure (out 25000 [] outAccB 500 25000000) = tk .InsufficientFunds := by decide +kernel
example : failure (out 25000000 [(key 30, tok (key 20) (key 51) 25000000)] { outAccB with source := key 30 }
    500 25000000) = tk .MintMismatch := by decide +kernel
example : outBad [] { outAcc with fee := key 37 } = sw .IncorrectFeeAccount := by decide +kernel
example : outBad [] { outAcc with userAuthority := key 99 } = tk .OwnerMismatch := by decide +kernel
example : outBad [] { outAcc with tokenProgram := key 77 } = sw .IncorrectTokenProgramId := by decide +kernel
example : outBad [] { outAcc with tokenA := key 30 } = sw .IncorrectSwapAccount := by decide +kernel
example : outBad [] { outAccB with tokenB := key 31 } = sw .IncorrectSwapAccount := by decide +kernel
example : outBad [] { outAcc with poolMint := key 8 } = sw .IncorrectPoolMint := by decide +kernel
example : failure (out 25000000 [] outAcc 250 25000) = sw .ExceededSlippage := by decide +kernel
example : failure (out 25000000 [] outAccB 500 25000) = sw .ExceededSlippage := by decide +kernel
example : outBad [] { outAcc with destination := key 3 } = sw .InvalidInput := by decide +kernel
example : outBad [] { outAcc with destination := key 4 } = sw .InvalidInput := by decide +kernel
/-- The amount asked for moves from the vault to the user. -/
example : after (out 100000000 [] outAcc 250 25000000) (bals [3, 30]) = .ok [99750, 10250] := by
  decide +kernel
/-- From the fee account itself. -/
example : after (out 0 [(key 6, tok (key 5) (key 50) 400000)]
    { outAcc with userAuthority := key 50, source := key 6 } 2 400000) (bals [3, 30]) =
  .ok [99998, 10002] := by decide +kernel

/-! ### `test_invalid_swap`, l.5709-6366 -/

def feesS : Fees := ⟨1, 4, 1, 10, 1, 5, 9, 100⟩

/-- Trades on a constant product pool with 1000 A and 5000 B; the user has 200 A and 1000 B. -/
def trade (changed : List (Pubkey × Account)) (acc : SwapAccounts) (host : Option Pubkey)
    (amount min : UInt64) : Except Err World :=
  processSwap env [acc.userAuthority] amount min acc host
    (ledger (changed ++ inUse feesS .constantProduct 1000 5000 200 1000 0))

def swAcc : SwapAccounts :=
  ⟨key 1, key 129, key 51, key 30, key 3, key 4, key 31, key 5, key 6, key 101⟩

/-- 200 A for at least 500 B, with something wrong about the accounts. -/
def swBad (changed : List (Pubkey × Account)) (acc : SwapAccounts) : Option Err :=
  failure (trade changed acc none 200 500)

example : swBad [(key 1, ⟨key 100, .raw (List.replicate 324 0)⟩)] swAcc = some .UninitializedAccount := by
  decide +kernel
example : swBad [(key 1, ⟨key 101, .raw (stored feesS .constantProduct)⟩)] swAcc =
  some .IncorrectProgramId := by decide +kernel
example : swBad [] { swAcc with authority := key 130 } = sw .InvalidProgramAddress := by decide +kernel
example : swBad [] { swAcc with tokenProgram := key 77 } = sw .IncorrectTokenProgramId := by decide +kernel
example : failure (trade [] swAcc none 400 1000) = tk .InsufficientFunds := by decide +kernel
example : swBad [] { swAcc with swapSource := key 30, swapDestination := key 31 } =
  sw .IncorrectSwapAccount := by decide +kernel
example : swBad [] { swAcc with source := key 31, destination := key 30 } = tk .MintMismatch := by
  decide +kernel
example : swBad [] { swAcc with swapDestination := key 3, destination := key 30 } = sw .InvalidInput := by
  decide +kernel
example : swBad [] { swAcc with poolMint := key 8 } = sw .IncorrectPoolMint := by decide +kernel
example : swBad [] { swAcc with poolFee := key 34 } = sw .IncorrectFeeAccount := by decide +kernel
example : swBad [] { swAcc with userAuthority := key 99 } = tk .OwnerMismatch := by decide +kernel
example : failure (trade [] ⟨key 1, key 129, key 51, key 31, key 4, key 3, key 30, key 5, key 6, key 101⟩
    none 1 1) = sw .ZeroTradingTokens := by decide +kernel
example : failure (trade [] swAcc none 200 1000) = sw .ExceededSlippage := by decide +kernel
example : swBad [] { swAcc with userAuthority := key 129, source := key 3 } = sw .InvalidInput := by
  decide +kernel
example : swBad [] { swAcc with destination := key 4 } = sw .InvalidInput := by decide +kernel
example : swBad [] swAcc = none := by decide +kernel
/-- A host account that is no pool token account. -/
example : failure (trade [(key 38, tok (key 20) (key 51) 200)] swAcc (some (key 38)) 200 0) =
  sw .IncorrectPoolMint := by decide +kernel

/-! ### `test_valid_swap_with_fee_constraints`, l.5560-5706 -/

/-- 500000 A for B on a pool with 1000000 A and 5000000 B, with a host account: the fee account and the
host account share the fee 90 to 10, as the test computes. -/
example : (match processSwap env [key 51] 500000 0 swAcc (some (key 37))
      (ledger (inUse ⟨1, 10, 1, 30, 1, 30, 10, 100⟩ .constantProduct 1000000 5000000 1000000 5000000 0)) with
    | .ok w => decide (0 < Spec.bal w (key 6) ∧
        Spec.bal w (key 6) * 100 / (100 - 10) = Spec.bal w (key 37) + Spec.bal w (key 6))
    | .error _ => false) = true := by decide +kernel

/-! ### `test_overdraw_offset_curve`, l.6369-6516 -/

/-- The offset pool of the test, with given balances of the vaults and of the user. -/
def over (a b ua ub supply fee : UInt64) : World := ledger ([
  (key 5, mnt (key 129) supply), (key 6, tok (key 5) (key 50) fee)] ++
  inUse ⟨1, 10, 1, 30, 1, 30, 10, 100⟩ (.offset 2000000) a b ua ub 0)

def backAcc : SwapAccounts :=
  ⟨key 1, key 129, key 51, key 31, key 4, key 3, key 30, key 5, key 6, key 101⟩

/-- No token B in the pool yet. -/
example : failure (processSwap env [key 51] 500000 0 swAcc none (over 1000000000 0 500000 1000 1000000000 0))
  = sw .ZeroTradingTokens := by decide +kernel
/-- Selling token B at the offset price, then buying, then buying again, which is one trade too many. -/
def sold : Except Err World :=
  processSwap env [key 51] 1000 0 backAcc none (over 1000000000 0 500000 1000 1000000000 0)
def bought : Except Err World := sold.bind (processSwap env [key 51] 500000 0 swAcc none)
example : failure sold = none := by decide +kernel
example : failure bought = none := by decide +kernel
example : failure (bought.bind (processSwap env [key 51] 500000 0 swAcc none)) = sw .ZeroTradingTokens := by
  decide +kernel
example : failure (bought.bind (processDepositAll env [key 51] 100 100 100 depAcc)) =
  sw .UnsupportedCurveOperation := by decide +kernel

/-! ### `test_withdraw_all_offset_curve`, l.6519-6597 -/

/-- The creator takes everything out: the curve says to pay `offset + 10` of token B, and 10 are paid. -/
example : after (processWithdrawAll env [key 50] 1000000000 0 0
      { wdAcc with userAuthority := key 50, source := key 7 }
      (ledger (inUse ⟨1, 10, 1, 30, 0, 30, 10, 100⟩ (.offset 2000000) 1000000000 10 0 0 0)))
    (bals [30, 31, 3, 4]) = .ok [1000000000, 10, 0, 0] := by decide +kernel

/-! ### `test_withdraw_all_constant_price_curve`, l.6600-6768 -/

/-- A constant price pool at price 2000000 with 10^9 A and 1000 B. -/
def unbalanced : World :=
  ledger (inUse ⟨1, 10, 1, 30, 0, 30, 10, 100⟩ (.constantPrice 2000000) 1000000000 1000 0 0 0)
def takeAll (minA minB : UInt64) : Except Err World :=
  processWithdrawAll env [key 50] 1000000000 minA minB
    { wdAcc with userAuthority := key 50, source := key 7 } unbalanced

example : failure (takeAll 1000000000 1000) = sw .ExceededSlippage := by decide +kernel
example : after (takeAll 0 0) (bals [30, 31, 3, 4]) = .ok [1000000000, 750, 0, 250] := by decide +kernel
/-- The pool tokens are all gone, 250 B are left; a deposit has to match them. -/
def refill (ua ub : UInt64) : Option Err :=
  failure (processDepositAll env [key 51] 1 ua ub depAcc (ledger ([(key 5, mnt (key 129) 0),
    (key 7, tok (key 5) (key 50) 0)] ++
    inUse ⟨1, 10, 1, 30, 0, 30, 10, 100⟩ (.constantPrice 2000000) 0 250 ua ub 0)))
example : refill 20000000 10 = sw .ExceededSlippage := by decide +kernel
example : refill 250000000 125 = none := by decide +kernel

end VectorsProc
end Verif
