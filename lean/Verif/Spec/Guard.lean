import Verif.Spec.Ledger

/-
What the token program protects: frozen accounts and delegates' allowances.
-/

namespace Verif
namespace Spec

/-- The token account at `k` is frozen. -/
def Frozen (w : World) (k : Pubkey) : Prop := ∃ t, tokenAt w k = some t ∧ t.frozen = true

/-- What `u` may still spend from the account at `k` as its delegate. -/
def allowance (w : World) (k u : Pubkey) : Int :=
  match tokenAt w k with
  | some t => if t.delegate = some u then (t.delegated_amount.toNat : Int) else 0
  | none => 0

end Spec
end Verif
