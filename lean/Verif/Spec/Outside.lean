import Verif.Model.TokenProgram
import Verif.Spec.Chain

/-
Vocabulary for statements about what third parties can do.
-/

namespace Verif
namespace Spec

/-- Derived addresses hold no account of their own: they belong to the system program. -/
def Clean (env : Env) (sys : Pubkey) (K : Pubkey → Prop) (w : World) : Prop :=
  ∀ x, IsPda env K x → (w x).owner = sys

/-- Anything happens except an instruction of this program naming the pool `k`. -/
inductive Elsewhere (env : Env) (sys : Pubkey) (K : Pubkey → Prop) (k : Pubkey) (w w' : World) :
    Prop
  | instr (signers : List Pubkey) (i : Instr) (hk : K i.pool) (hs : ∀ x ∈ signers, ¬ IsPda env K x)
      (hne : i.pool ≠ k) (h : exec env signers i w = .ok w')
  | outside (h : Outside env sys K w w')

/-- The authority `a` can sign for itself: it is not an account of the token program (which could be
a multisig). -/
def Plain (env : Env) (w : World) (signers : List Pubkey) (a : Pubkey) : Prop :=
  (w a).owner ≠ env.tokenProgramId ∧ a ∈ signers

end Spec
end Verif
