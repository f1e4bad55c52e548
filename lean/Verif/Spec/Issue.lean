import Verif.Spec.Consent

/-
Vocabulary for statements about who can issue tokens.
-/

namespace Verif
namespace Spec

/-- The mint at `m` exists, and `f` says who can issue tokens in it. -/
def Minter (env : Env) (w : World) (m : Pubkey) (f : Option Pubkey) : Prop :=
  (w m).owner = env.tokenProgramId ∧ ∃ q, (w m).data = .mint q ∧ q.mint_authority = f

end Spec
end Verif
