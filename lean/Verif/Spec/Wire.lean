import Verif.Model.Wire

/-
What the bytes and the account list of an instruction should mean: the public interface as
documented in lib.rs and in the numbered comments of instructions/*.rs.
-/

namespace Verif

/-- The arguments of an instruction without its accounts. -/
def Instr.args : Instr → Args
  | .initConstantPrice _ f p => .initConstantPrice f p
  | .initLinearPrice _ c => .initLinearPrice c
  | .swap _ x y => .swap x y
  | .depositAll _ x y z => .depositAll x y z
  | .withdrawAll _ x y z => .withdrawAll x y z
  | .depositSingle _ x y => .depositSingle x y
  | .withdrawSingle _ x y => .withdrawSingle x y

namespace Spec

/-- Name of an instruction on the wire. -/
def tag : Args → List UInt8
  | .initConstantPrice .. => [125, 94, 220, 25, 84, 243, 56, 187]
  | .initLinearPrice .. => [216, 58, 55, 98, 142, 240, 233, 224]
  | .swap .. => [248, 198, 158, 145, 225, 117, 135, 200]
  | .depositAll .. => [32, 95, 69, 60, 75, 79, 205, 238]
  | .withdrawAll .. => [189, 254, 156, 174, 210, 9, 164, 216]
  | .depositSingle .. => [99, 207, 4, 42, 88, 157, 45, 55]
  | .withdrawSingle .. => [243, 192, 70, 139, 209, 156, 8, 139]

/-- Arguments in the order of lib.rs. -/
def words : Args → List UInt64
  | .initConstantPrice f p => [f.trade_fee_numerator, f.trade_fee_denominator,
      f.owner_trade_fee_numerator, f.owner_trade_fee_denominator, f.owner_withdraw_fee_numerator,
      f.owner_withdraw_fee_denominator, f.host_fee_numerator, f.host_fee_denominator, p]
  | .initLinearPrice c => [c.slope_numerator, c.slope_denominator,
      c.initial_token_a_price_numerator, c.initial_token_a_price_denominator]
  | .swap x y => [x, y]
  | .depositAll x y z => [x, y, z]
  | .withdrawAll x y z => [x, y, z]
  | .depositSingle x y => [x, y]
  | .withdrawSingle x y => [x, y]

/-- Instruction data: the tag, then each argument as eight little-endian bytes. -/
def encode (a : Args) : List UInt8 := tag a ++ (words a).flatMap State.leBytes

/-- What an instruction needs of one account: which it is, whether it must have signed, whether it
must be writable. -/
inductive Role where
  | reads (k : Pubkey)
  | signs (k : Pubkey)
  | writes (k : Pubkey)
  | signsAndWrites (k : Pubkey)

/-- An account passed fits the role. -/
def Role.Ok : Role → Meta → Prop
  | .reads k, m => m.key = k
  | .signs k, m => m.key = k ∧ m.signer = true
  | .writes k, m => m.key = k ∧ m.writable = true
  | .signsAndWrites k, m => m.key = k ∧ m.signer = true ∧ m.writable = true

/-- The documented accounts of an instruction, in order. -/
def roles : Instr → List Role
  | .initConstantPrice a _ _ => [.signsAndWrites a.swap, .reads a.authority, .reads a.tokenA,
      .reads a.tokenB, .writes a.poolMint, .reads a.fee, .writes a.destination,
      .reads a.tokenProgram]
  | .initLinearPrice a _ => [.signsAndWrites a.swap, .reads a.authority, .reads a.tokenA,
      .reads a.tokenB, .writes a.poolMint, .reads a.fee, .writes a.destination,
      .reads a.tokenProgram]
  | .swap a _ _ => [.reads a.swap, .reads a.authority, .signs a.userAuthority, .writes a.source,
      .writes a.swapSource, .writes a.swapDestination, .writes a.destination, .writes a.poolMint,
      .writes a.poolFee, .reads a.tokenProgram]
  | .depositAll a _ _ _ => [.reads a.swap, .reads a.authority, .signs a.userAuthority,
      .writes a.sourceA, .writes a.sourceB, .writes a.tokenA, .writes a.tokenB,
      .writes a.poolMint, .writes a.destination, .reads a.tokenProgram]
  | .withdrawAll a _ _ _ => [.reads a.swap, .reads a.authority, .signs a.userAuthority,
      .writes a.poolMint, .writes a.source, .writes a.tokenA, .writes a.tokenB, .writes a.destA,
      .writes a.destB, .writes a.fee, .reads a.tokenProgram]
  | .depositSingle a _ _ => [.reads a.swap, .reads a.authority, .signs a.userAuthority,
      .writes a.source, .writes a.tokenA, .writes a.tokenB, .writes a.poolMint,
      .writes a.destination, .reads a.tokenProgram]
  | .withdrawSingle a _ _ => [.reads a.swap, .reads a.authority, .signs a.userAuthority,
      .writes a.poolMint, .writes a.source, .writes a.tokenA, .writes a.tokenB,
      .writes a.destination, .writes a.fee, .reads a.tokenProgram]

/-- The account list starts with accounts fitting the roles; more may follow. -/
def Fits : List Meta → List Role → Prop
  | _, [] => True
  | [], _ :: _ => False
  | m :: ms, r :: rs => r.Ok m ∧ Fits ms rs

end Spec
end Verif
