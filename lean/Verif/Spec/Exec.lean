import Verif.Model.Exec
import Verif.Spec.Ledger

/-
Vocabulary for statements about whole instructions.
-/

namespace Verif

/-- All accounts an instruction names. -/
def Instr.named : Instr → List Pubkey
  | .initConstantPrice a _ _ => [a.swap, a.authority, a.tokenA, a.tokenB, a.poolMint, a.fee,
      a.destination, a.tokenProgram]
  | .initLinearPrice a _ => [a.swap, a.authority, a.tokenA, a.tokenB, a.poolMint, a.fee,
      a.destination, a.tokenProgram]
  | .swap a _ _ => [a.swap, a.authority, a.userAuthority, a.source, a.swapSource,
      a.swapDestination, a.destination, a.poolMint, a.poolFee, a.tokenProgram]
  | .depositAll a _ _ _ => [a.swap, a.authority, a.userAuthority, a.sourceA, a.sourceB, a.tokenA,
      a.tokenB, a.poolMint, a.destination, a.tokenProgram]
  | .withdrawAll a _ _ _ => [a.swap, a.authority, a.userAuthority, a.poolMint, a.source, a.tokenA,
      a.tokenB, a.destA, a.destB, a.fee, a.tokenProgram]
  | .depositSingle a _ _ => [a.swap, a.authority, a.userAuthority, a.source, a.tokenA, a.tokenB,
      a.poolMint, a.destination, a.tokenProgram]
  | .withdrawSingle a _ _ => [a.swap, a.authority, a.userAuthority, a.poolMint, a.source, a.tokenA,
      a.tokenB, a.destination, a.fee, a.tokenProgram]

/-- The account an instruction names as the pool's own mint. -/
def Instr.poolMint : Instr → Pubkey
  | .initConstantPrice a _ _ => a.poolMint
  | .initLinearPrice a _ => a.poolMint
  | .swap a _ _ => a.poolMint
  | .depositAll a _ _ _ => a.poolMint
  | .withdrawAll a _ _ _ => a.poolMint
  | .depositSingle a _ _ => a.poolMint
  | .withdrawSingle a _ _ => a.poolMint

namespace Spec

/-- `s` is the configuration stored at `k` in an account of the program. -/
def PoolAt (env : Env) (w : World) (k : Pubkey) (s : SwapV1) : Prop :=
  (w k).owner = env.programId ∧ ∃ l, (w k).data = .raw l ∧ SwapVersion.unpack l = .ok s

end Spec
end Verif
