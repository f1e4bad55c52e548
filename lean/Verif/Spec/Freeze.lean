import Verif.Spec.Consent

/-
Vocabulary for statements about frozen token accounts.
-/

namespace Verif
namespace Spec

/-- A frozen token account in mint `m`: its tokens cannot be moved. -/
def FrozenAt (env : Env) (w : World) (x m : Pubkey) : Prop :=
  (w x).owner = env.tokenProgramId ∧ ∃ t, (w x).data = .token t ∧ t.mint = m ∧ t.frozen = true

/-- The mint at `m` exists, and `f` says who can freeze accounts in it. -/
def Freezer (env : Env) (w : World) (m : Pubkey) (f : Option Pubkey) : Prop :=
  (w m).owner = env.tokenProgramId ∧ ∃ q, (w m).data = .mint q ∧ q.freeze_authority = f

end Spec
end Verif
