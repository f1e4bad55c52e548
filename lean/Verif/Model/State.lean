import Verif.Model.Curve

/-
Model of `state.rs` and of the `Pack` implementations in `curve/base.rs`, `curve/fees.rs` and
the individual curves, at byte level.
-/

namespace Verif

/-- A 32-byte address (`solana_program::pubkey::Pubkey`). -/
structure Pubkey where
  bytes : List UInt8
  len : bytes.length = 32
  deriving DecidableEq

/-- The address made of 32 copies of one byte (`Pubkey::new_from_array([b; 32])`), used in
examples. -/
def Pubkey.fill (b : UInt8) : Pubkey := ⟨List.replicate 32 b, by simp⟩

instance : Inhabited Pubkey := ⟨Pubkey.fill 0⟩

/-- Non-token errors of the model: `ProgramError` variants, runtime errors, `SwapError`s and a
Rust panic.  `token` is any error returned by the token program. -/
inductive TokenError where
  | AccountFrozen | InsufficientFunds | MintMismatch | OwnerMismatch | FixedSupply
  | Overflow | InvalidAccount | MissingSignature | AlreadyInUse | InvalidState | MintCannotFreeze
  | AuthorityTypeNotSupported | NonNativeHasBalance | InvalidInstruction | InvalidNumberOfSigners
  | NonNativeNotSupported
  deriving Repr, DecidableEq

/-- Errors of Anchor's dispatch and account checks (anchor-lang 0.20.1, not in `/repo`). -/
inductive AnchorError where
  | InstructionMissing | InstructionFallbackNotFound | InstructionDidNotDeserialize
  | AccountNotEnoughKeys | ConstraintMut | ConstraintSigner
  deriving Repr, DecidableEq

/-- Outcome of a failed instruction. -/
inductive Err where
  | anchor (e : AnchorError)
  | swap (e : SwapError)
  | token (e : TokenError)
  | IncorrectProgramId
  | InvalidAccountData
  | UninitializedAccount
  | MissingRequiredSignature
  | ExternalAccountDataModified
  | InvalidSeeds
  | Panic
  deriving Repr, DecidableEq

namespace State

/-- `u64::to_le_bytes`. -/
def leBytes (x : UInt64) : List UInt8 :=
  (List.range 8).map fun i => UInt8.ofNat (x.toNat / 256 ^ i % 256)

/-- Little-endian value of a byte list. -/
def leNat : List UInt8 → Nat
  | [] => 0
  | b :: bs => b.toNat + 256 * leNat bs

/-- `u64::from_le_bytes(*array_ref![input, off, 8])`. -/
def u64At (l : List UInt8) (off : Nat) : UInt64 := UInt64.ofNat (leNat ((l.drop off).take 8))

/-- `Pubkey::new_from_array` of 32 bytes at `off`.  The zero padding is never used because
callers check the total length first. -/
def keyAt (l : List UInt8) (off : Nat) : Pubkey :=
  ⟨((l.drop off) ++ List.replicate 32 0).take 32, by simp⟩

/-- Byte at an offset (callers check the length first). -/
def byteAt (l : List UInt8) (off : Nat) : UInt8 := l.getD off 0

/-- `Fees::pack_into_slice`, curve/fees.rs l.138-158. -/
def packFees (f : Fees) : List UInt8 :=
  leBytes f.trade_fee_numerator ++ leBytes f.trade_fee_denominator ++
  leBytes f.owner_trade_fee_numerator ++ leBytes f.owner_trade_fee_denominator ++
  leBytes f.owner_withdraw_fee_numerator ++ leBytes f.owner_withdraw_fee_denominator ++
  leBytes f.host_fee_numerator ++ leBytes f.host_fee_denominator

/-- `Fees::unpack_from_slice`, curve/fees.rs l.160-187. -/
def unpackFees (l : List UInt8) : Fees :=
  ⟨u64At l 0, u64At l 8, u64At l 16, u64At l 24, u64At l 32, u64At l 40, u64At l 48, u64At l 56⟩

/-- `curve_type as u8`, curve/base.rs l.27-41, l.242. -/
def curveTag : Curve → UInt8
  | .constantProduct => 0
  | .constantPrice _ => 1
  | .stable _ => 2
  | .offset _ => 3
  | .linear _ => 30

/-- Bytes written by the calculator's `DynPack::pack_into_slice`: constant_product.rs l.273,
constant_price.rs l.255-260, stable.rs l.339-344, offset.rs l.179-184, linear_price.rs l.475-486. -/
def packCalc : Curve → List UInt8
  | .constantProduct => []
  | .constantPrice p => leBytes p
  | .stable a => leBytes a
  | .offset o => leBytes o
  | .linear c =>
    leBytes c.slope_numerator ++ leBytes c.slope_denominator ++
    leBytes c.initial_token_a_price_numerator ++ leBytes c.initial_token_a_price_denominator

/-- `SwapCurve::pack_into_slice`, curve/base.rs l.239-244.  Bytes of the 32-byte calculator area
that the calculator does not write keep their previous contents. -/
def packCurve (c : Curve) (old : List UInt8) : List UInt8 :=
  curveTag c :: (packCalc c ++ old.drop (1 + (packCalc c).length))

/-- `SwapCurve::unpack_from_slice`, curve/base.rs l.215-236, with `TryFrom<u8>`, l.255-267. -/
def unpackCurve (l : List UInt8) : Except Err Curve :=
  let t := byteAt l 0
  if t = 0 then .ok .constantProduct
  else if t = 1 then .ok (.constantPrice (u64At l 1))
  else if t = 2 then .ok (.stable (u64At l 1))
  else if t = 3 then .ok (.offset (u64At l 1))
  else if t = 30 then .ok (.linear ⟨u64At l 1, u64At l 9, u64At l 17, u64At l 25⟩)
  else .error .InvalidAccountData

end State

/-- `SwapV1`, state.rs l.88-124. -/
structure SwapV1 where
  is_initialized : Bool
  bump_seed : UInt8
  token_program_id : Pubkey
  token_a : Pubkey
  token_b : Pubkey
  pool_mint : Pubkey
  token_a_mint : Pubkey
  token_b_mint : Pubkey
  pool_fee_account : Pubkey
  fees : Fees
  swap_curve : Curve
  deriving DecidableEq

namespace SwapV1

open State

/-- `SwapV1::LEN`, state.rs l.183. -/
def LEN : Nat := 323

/-- `SwapV1::pack_into_slice`, state.rs l.185-211, on a slice with previous contents `old`. -/
def packIntoSlice (s : SwapV1) (old : List UInt8) : List UInt8 :=
  [if s.is_initialized then 1 else 0] ++ [s.bump_seed] ++ s.token_program_id.bytes ++
  s.token_a.bytes ++ s.token_b.bytes ++ s.pool_mint.bytes ++ s.token_a_mint.bytes ++
  s.token_b_mint.bytes ++ s.pool_fee_account.bytes ++ packFees s.fees ++
  packCurve s.swap_curve (old.drop 290)

/-- `SwapV1::unpack_from_slice`, state.rs l.214-248 (field order of the struct literal). -/
def unpackFromSlice (l : List UInt8) : Except Err SwapV1 := do
  let init ←
    if byteAt l 0 = 0 then .ok false
    else if byteAt l 0 = 1 then .ok true
    else .error .InvalidAccountData
  let curve ← unpackCurve (l.drop 290)
  .ok ⟨init, byteAt l 1, keyAt l 2, keyAt l 34, keyAt l 66, keyAt l 98, keyAt l 130,
    keyAt l 162, keyAt l 194, unpackFees (l.drop 226), curve⟩

/-- `Pack::unpack` of solana-program: length check, decode, initialised check. -/
def unpack (l : List UInt8) : Except Err SwapV1 :=
  if l.length ≠ LEN then .error .InvalidAccountData
  else do
    let s ← unpackFromSlice l
    if s.is_initialized then .ok s else .error .UninitializedAccount

/-- `Pack::pack` of solana-program: length check, encode. -/
def pack (s : SwapV1) (dst : List UInt8) : Except Err (List UInt8) :=
  if dst.length ≠ LEN then .error .InvalidAccountData
  else .ok (packIntoSlice s dst)

end SwapV1

namespace SwapVersion

/-- `SwapVersion::LATEST_LEN`, state.rs l.54. -/
def LATEST_LEN : Nat := 1 + SwapV1.LEN

/-- `SwapVersion::pack`, state.rs l.57-64 (`dst[0] = 1` panics on an empty slice). -/
def pack (s : SwapV1) (dst : List UInt8) : Except Err (List UInt8) :=
  match dst with
  | [] => .error .Panic
  | _ :: rest => do
    let r ← SwapV1.pack s rest
    .ok (1 :: r)

/-- `SwapVersion::unpack`, state.rs l.68-76. -/
def unpack (l : List UInt8) : Except Err SwapV1 :=
  match l with
  | [] => .error .InvalidAccountData
  | v :: rest => if v = 1 then SwapV1.unpack rest else .error .UninitializedAccount

/-- `SwapVersion::is_initialized`, state.rs l.80-85. -/
def isInitialized (l : List UInt8) : Bool :=
  match unpack l with
  | .ok s => s.is_initialized
  | .error _ => false

end SwapVersion
end Verif
