import Verif.Spec.Live

/-
What a pool needs in order to be created.
-/

namespace Verif
namespace Spec

open Processor

/-- Everything an initialise instruction asks for, about the ledger, the accounts named, the fees and
the curve. -/
structure Admissible (env : Env) (w : World) (signers : List Pubkey) (a : InitAccounts) (f : Fees)
    (c : Curve) : Prop where
  signed : a.swap ∈ signers
  derived : a.authority = (env.findPda a.swap).1
  program : a.tokenProgram = env.tokenProgramId
  state : (w a.swap).owner = env.programId ∧ ∃ l, (w a.swap).data = .raw l ∧ l.length = 324
  unused : ∀ s, ¬ PoolAt env w a.swap s
  vaults : ∃ tA tB, tokenAt w a.tokenA = some tA ∧ tokenAt w a.tokenB = some tB ∧
    SoleOwner env w a.tokenA tA.mint a.authority ∧ SoleOwner env w a.tokenB tB.mint a.authority ∧
    tA.mint ≠ tB.mint ∧ Startable c tA.amount tB.amount
  minter : SoleMinter env w a.poolMint a.authority
  unissued : supply w a.poolMint = 0
  feeAccount : (w a.fee).owner = env.tokenProgramId ∧ ∃ t, tokenAt w a.fee = some t ∧
    t.mint = a.poolMint ∧ t.owner ≠ a.authority ∧ Allowed env f c t.owner
  first : ∃ t, tokenAt w a.destination = some t ∧ t.owner ≠ a.authority
  room : CanReceive env w a.destination a.poolMint 1000000000
  fees : ProperFees f

end Spec
end Verif
