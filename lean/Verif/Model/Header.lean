import Verif.Model.Wire

/-
Model of the C bindings shipped with the program, inc/token-swap.h, with the layout a C compiler gives
them on little-endian 64-bit targets (an `enum` takes four bytes, a union holding `uint64_t`s starts at
a multiple of eight; bytes of padding hold anything).
-/

namespace Verif
namespace Header

open State

/-- `TokenSwap_Fee`, token-swap.h l.13-22: the denominator comes first. -/
structure Fee where
  denominator : UInt64
  numerator : UInt64
  deriving DecidableEq

/-- `TokenSwap_SwapInstruction`, token-swap.h l.27-111. -/
inductive Instruction where
  | initialize (fee : Fee)
  | swap (amount : UInt64)
  | deposit (amount : UInt64)
  | withdraw (amount : UInt64)
  deriving DecidableEq

/-- `TokenSwap_SwapInstruction_Tag`, token-swap.h l.27-85: an `int` counting from zero. -/
def Instruction.tag : Instruction → List UInt8
  | .initialize _ => [0, 0, 0, 0]
  | .swap _ => [1, 0, 0, 0]
  | .deposit _ => [2, 0, 0, 0]
  | .withdraw _ => [3, 0, 0, 0]

/-- The member of the union that is in use, token-swap.h l.87-101. -/
def Instruction.body : Instruction → List UInt8
  | .initialize f => leBytes f.denominator ++ leBytes f.numerator
  | .swap x => leBytes x
  | .deposit x => leBytes x
  | .withdraw x => leBytes x

/-- The struct in memory, token-swap.h l.103-111: the tag, padding, the union; `rest` is the part of
the union not in use and whatever the caller sends after the struct. -/
def Instruction.bytes (i : Instruction) (pad rest : List UInt8) : List UInt8 :=
  i.tag ++ pad ++ i.body ++ rest

/-- `TokenSwap_SwapInfo`, token-swap.h l.118-137. -/
structure SwapInfo where
  token_a : Pubkey
  token_b : Pubkey
  pool_mint : Pubkey
  fee : Fee
  deriving DecidableEq

/-- `TokenSwap_State`, token-swap.h l.142-162. -/
inductive AccountState where
  | unallocated
  | init (info : SwapInfo)
  deriving DecidableEq

/-- Size of `TokenSwap_State`: tag and padding, three addresses, a fee. -/
def stateLen : Nat := 8 + 3 * 32 + 16

/-- Account data read as a `TokenSwap_State`; `none` when they are shorter than the struct or the tag
is none of the enumeration. -/
def readState (l : List UInt8) : Option AccountState :=
  if l.length < stateLen then none
  else if leNat (l.take 4) = 0 then some .unallocated
  else if leNat (l.take 4) = 1 then
    some (.init ⟨keyAt l 8, keyAt l 40, keyAt l 72, ⟨u64At l 104, u64At l 112⟩⟩)
  else none

end Header
end Verif
