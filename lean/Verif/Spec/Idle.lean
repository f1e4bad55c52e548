import Verif.Spec.Consent
import Verif.Spec.Claim

/-
Executions during which some parties do nothing.
-/

namespace Verif
namespace Spec

/-- An execution nobody in `S` approves any step of, `n` steps being instructions of this program on the
pool at `k`, all of them allowed by `Q`. -/
inductive Away (env : Env) (sys : Pubkey) (K S : Pubkey → Prop) (k : Pubkey) (Q : Instr → Prop)
    (w : World) : Nat → World → Prop
  | start : Away env sys K S k Q w 0 w
  | instr {n : Nat} {u u' : World} (signers : List Pubkey) (i : Instr) :
      Away env sys K S k Q w n u → K i.pool → (∀ x ∈ signers, ¬ IsPda env K x) →
      (∀ x ∈ signers, ¬ S x) → (i.pool = k → Q i) → exec env signers i u = .ok u' →
      Away env sys K S k Q w (if i.pool = k then n + 1 else n) u'
  | outside {n : Nat} {u u' : World} : Away env sys K S k Q w n u → Outside env sys K u u' →
      Without env sys K S u u' → Away env sys K S k Q w n u'

end Spec
end Verif
