import Verif.Spec.Path

/-
Specification vocabulary for C89 on steep curves.
-/

namespace Verif
namespace Spec

/-- Whatever happens on the chain, as long as vault B of the pool is not emptied. -/
abbrev Calm (env : Env) (K : Pubkey → Prop) (s : SwapV1) : World → World → Prop :=
  Relation.ReflTransGen fun u v => Step env K u v ∧ bal v s.token_b ≠ 0

end Spec
end Verif
