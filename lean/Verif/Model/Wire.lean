import Verif.Model.Exec

/-
Model of the entrypoint that `#[program]` (lib.rs l.31-166) and `#[derive(Accounts)]`
(instructions/*.rs) generate with anchor-lang 0.20.1 (not in `/repo`): instruction data are an
eight-byte tag followed by the arguments in Borsh encoding, accounts are taken in the order of the
struct fields.
-/

namespace Verif

/-- Arguments of an instruction, lib.rs l.38-165. -/
inductive Args where
  | initConstantPrice (fees : Fees) (token_b_price : UInt64)
  | initLinearPrice (c : LinearPriceCurve)
  | swap (amountIn minOut : UInt64)
  | depositAll (poolTokens maxA maxB : UInt64)
  | withdrawAll (poolTokens minA minB : UInt64)
  | depositSingle (amountIn minPool : UInt64)
  | withdrawSingle (amountOut maxPool : UInt64)
  deriving DecidableEq

/-- One account passed to the program (`AccountInfo`: `key`, `is_signer`, `is_writable`). -/
structure Meta where
  key : Pubkey
  signer : Bool
  writable : Bool
  deriving DecidableEq

instance : Inhabited Meta := ⟨⟨default, false, false⟩⟩

namespace Wire

open State

/-- First eight bytes of SHA-256 of "global:initialize_constant_price", lib.rs l.38. -/
def tagInitConstantPrice : List UInt8 := [125, 94, 220, 25, 84, 243, 56, 187]
/-- The same for "global:initialize_linear_price", lib.rs l.73. -/
def tagInitLinearPrice : List UInt8 := [216, 58, 55, 98, 142, 240, 233, 224]
/-- The same for "global:swap", lib.rs l.108. -/
def tagSwap : List UInt8 := [248, 198, 158, 145, 225, 117, 135, 200]
/-- The same for "global:deposit_all_token_types", lib.rs l.113. -/
def tagDepositAll : List UInt8 := [32, 95, 69, 60, 75, 79, 205, 238]
/-- The same for "global:withdraw_all_token_types", lib.rs l.128. -/
def tagWithdrawAll : List UInt8 := [189, 254, 156, 174, 210, 9, 164, 216]
/-- The same for "global:deposit_single_token_type_exact_amount_in", lib.rs l.143. -/
def tagDepositSingle : List UInt8 := [99, 207, 4, 42, 88, 157, 45, 55]
/-- The same for "global:withdraw_single_token_type_exact_amount_out", lib.rs l.155. -/
def tagWithdrawSingle : List UInt8 := [243, 192, 70, 139, 209, 156, 8, 139]
/-- `IDL_IX_TAG` of anchor-lang, little-endian: the built-in IDL instructions. -/
def tagIdl : List UInt8 := [64, 244, 188, 120, 167, 233, 105, 10]

/-- Borsh-decode `n` consecutive `u64` fields at the front of `l`; what follows them is ignored
(`deserialize`, not `try_from_slice`). -/
def fields (n : Nat) (l : List UInt8) (f : (Nat → UInt64) → Args) : Except Err Args :=
  if l.length < 8 * n then .error (.anchor .InstructionDidNotDeserialize)
  else .ok (f fun i => u64At l (8 * i))

/-- The generated dispatcher on the instruction data: tag, then arguments in the order of lib.rs
l.41-49 (constant price), l.75-78 (linear price), l.108, l.115-117, l.130-132, l.145-146,
l.157-158. -/
def parse (data : List UInt8) : Except Err Args :=
  if data.length < 8 then .error (.anchor .InstructionMissing)
  else
    let tag := data.take 8
    let ix := data.drop 8
    if tag = tagInitConstantPrice then
      fields 9 ix fun x => .initConstantPrice ⟨x 0, x 1, x 2, x 3, x 4, x 5, x 6, x 7⟩ (x 8)
    else if tag = tagInitLinearPrice then
      fields 4 ix fun x => .initLinearPrice ⟨x 0, x 1, x 2, x 3⟩
    else if tag = tagSwap then fields 2 ix fun x => .swap (x 0) (x 1)
    else if tag = tagDepositAll then fields 3 ix fun x => .depositAll (x 0) (x 1) (x 2)
    else if tag = tagWithdrawAll then fields 3 ix fun x => .withdrawAll (x 0) (x 1) (x 2)
    else if tag = tagDepositSingle then fields 2 ix fun x => .depositSingle (x 0) (x 1)
    else if tag = tagWithdrawSingle then fields 2 ix fun x => .withdrawSingle (x 0) (x 1)
    else .error (.anchor .InstructionFallbackNotFound)

/-- The generated `try_accounts`: enough accounts; fields marked `signer` have signed, fields marked
`mut` are writable. -/
def checkAccounts (ms : List Meta) (count signer : Nat) (muts : List Nat) : Except Err Unit := do
  require (count ≤ ms.length) (.anchor .AccountNotEnoughKeys)
  require (ms[signer]!.signer = true) (.anchor .ConstraintSigner)
  require (∀ i ∈ muts, ms[i]!.writable = true) (.anchor .ConstraintMut)

/-- Accounts in field order: instructions/initialize.rs l.13-34, swap.rs l.6-37,
deposit_all_token_types.rs l.6-34, withdraw_all_token_types.rs l.6-38,
deposit_single_token_type_exact_amount_in.rs l.6-32,
withdraw_single_token_type_exact_amount_out.rs l.6-36.  Accounts beyond these are ignored. -/
def bindAccounts (ms : List Meta) (args : Args) : Except Err Instr :=
  let k := fun i => ms[i]!.key
  match args with
  | .initConstantPrice f p => do
    checkAccounts ms 8 0 [0, 4, 6]
    .ok (.initConstantPrice ⟨k 0, k 1, k 2, k 3, k 4, k 5, k 6, k 7⟩ f p)
  | .initLinearPrice c => do
    checkAccounts ms 8 0 [0, 4, 6]
    .ok (.initLinearPrice ⟨k 0, k 1, k 2, k 3, k 4, k 5, k 6, k 7⟩ c)
  | .swap x y => do
    checkAccounts ms 10 2 [3, 4, 5, 6, 7, 8]
    .ok (.swap ⟨k 0, k 1, k 2, k 3, k 4, k 5, k 6, k 7, k 8, k 9⟩ x y)
  | .depositAll x y z => do
    checkAccounts ms 10 2 [3, 4, 5, 6, 7, 8]
    .ok (.depositAll ⟨k 0, k 1, k 2, k 3, k 4, k 5, k 6, k 7, k 8, k 9⟩ x y z)
  | .withdrawAll x y z => do
    checkAccounts ms 11 2 [3, 4, 5, 6, 7, 8, 9]
    .ok (.withdrawAll ⟨k 0, k 1, k 2, k 3, k 4, k 5, k 6, k 7, k 8, k 9, k 10⟩ x y z)
  | .depositSingle x y => do
    checkAccounts ms 9 2 [3, 4, 5, 6, 7]
    .ok (.depositSingle ⟨k 0, k 1, k 2, k 3, k 4, k 5, k 6, k 7, k 8⟩ x y)
  | .withdrawSingle x y => do
    checkAccounts ms 10 2 [3, 4, 5, 6, 7, 8]
    .ok (.withdrawSingle ⟨k 0, k 1, k 2, k 3, k 4, k 5, k 6, k 7, k 8, k 9⟩ x y)

/-- Keys that have signed. -/
def signersOf (ms : List Meta) : List Pubkey := (ms.filter (·.signer)).map (·.key)

/-- The program's entrypoint.  `idl` stands for Anchor's built-in IDL instructions. -/
def entry (env : Env) (idl : List Meta → List UInt8 → World → Except Err World) (ms : List Meta)
    (data : List UInt8) (w : World) : Except Err World :=
  if data.take 8 = tagIdl then idl ms (data.drop 8) w
  else do
    let args ← parse data
    let i ← bindAccounts ms args
    exec env (signersOf ms) i w

end Wire
end Verif
