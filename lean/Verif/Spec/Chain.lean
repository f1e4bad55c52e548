import Verif.Model.Chain
import Verif.Spec.Exec

/-
Vocabulary for statements about whole executions.
-/

namespace Verif
namespace Spec

/-- The ledger holds no initialised pool. -/
def NoPools (env : Env) (w : World) : Prop := ∀ k s, ¬ PoolAt env w k s

/-- Ledgers that can occur: reached by any execution, with pool accounts among `K`, from one without
pools. -/
def Reachable (env : Env) (K : Pubkey → Prop) (w : World) : Prop :=
  ∃ w0, NoPools env w0 ∧ Steps env K w0 w

/-- The token account at `k` holds tokens of `mint` for `owner` alone: it exists, and nobody else
can spend from it or close it. -/
def SoleOwner (env : Env) (w : World) (k mint owner : Pubkey) : Prop :=
  (w k).owner = env.tokenProgramId ∧ ∃ t, (w k).data = .token t ∧ t.mint = mint ∧
    t.owner = owner ∧ t.delegate = none ∧ t.close_authority = none

/-- The mint at `k` can be minted by `owner` alone and frozen by nobody. -/
def SoleMinter (env : Env) (w : World) (k owner : Pubkey) : Prop :=
  (w k).owner = env.tokenProgramId ∧ ∃ m, (w k).data = .mint m ∧ m.mint_authority = some owner ∧
    m.freeze_authority = none

/-- The pool stored at `k` with configuration `s` has custody of its vaults and mint through its
derived address `pda`. -/
structure Custody (env : Env) (w : World) (k : Pubkey) (s : SwapV1) (pda : Pubkey) : Prop where
  derived : env.createPda k s.bump_seed = some pda
  vaultA : SoleOwner env w s.token_a s.token_a_mint pda
  vaultB : SoleOwner env w s.token_b s.token_b_mint pda
  mints : s.token_a_mint ≠ s.token_b_mint
  minter : SoleMinter env w s.pool_mint pda

end Spec
end Verif
