import Verif.Spec.Outside
import Mathlib.Algebra.BigOperators.Group.Finset.Basic

/-
Specification vocabulary for C73: the tokens of a mint held anywhere, against its recorded supply.
-/

namespace Verif
namespace Spec

/-- Tokens of `m` held in an account: counted only if the account really is one of the token
program. -/
def held (env : Env) (m : Pubkey) (a : Account) : Nat :=
  match a.data with
  | .token t => if a.owner = env.tokenProgramId ∧ t.mint = m then t.amount.toNat else 0
  | _ => 0

/-- The supply recorded in an account: counted only if it really is a mint of the token program. -/
def issued (env : Env) (a : Account) : Nat :=
  match a.data with
  | .mint m => if a.owner = env.tokenProgramId then m.supply.toNat else 0
  | _ => 0

/-- Every token of `m` on record is in some account, and no others are: all but finitely many
accounts hold none, and what the rest hold adds up to the recorded supply. -/
def Accounted (env : Env) (w : World) (m : Pubkey) : Prop :=
  ∃ F0 : Finset Pubkey, ∀ F, F0 ⊆ F → ∑ k ∈ F, held env m (w k) = issued env (w m)

end Spec
end Verif
