import Verif.Model.TokenProgram
import Verif.Spec.Chain

/-
Vocabulary for statements about who approved what.
-/

namespace Verif
namespace Spec

/-- The account at `x` holds a multisig of the token program: threshold, number of keys and
initialised flag in the first three bytes, then eleven keys. -/
def MultisigAt (env : Env) (w : World) (x : Pubkey) (b : List UInt8) : Prop :=
  (w x).owner = env.tokenProgramId ∧ (w x).data = .raw b ∧ b.length = 355

/-- Enough keys of the multisig `b` are among the signers: there is a set of positions, no smaller
than the threshold, whose keys all signed. -/
def Enough (b : List UInt8) (signers : List Pubkey) : Prop :=
  ∃ P : Finset Nat, (State.byteAt b 0).toNat ≤ P.card ∧
    ∀ i ∈ P, i < (State.byteAt b 1).toNat ∧ State.keyAt b (3 + 32 * i) ∈ signers

/-- `x` approves of what the signers do through the token program. -/
def Consents (env : Env) (w : World) (signers : List Pubkey) (x : Pubkey) : Prop :=
  (∃ b, MultisigAt env w x b ∧ Enough b signers) ∨ ((¬ ∃ b, MultisigAt env w x b) ∧ x ∈ signers)

/-- A step that nobody in `S` approves of: an instruction of this program none of them signs, a
token-program instruction none of them consents to, or a step of others that leaves every account
of the token program alone that holds anything. -/
inductive Without (env : Env) (sys : Pubkey) (K : Pubkey → Prop) (S : Pubkey → Prop)
    (w w' : World) : Prop
  | instr (signers : List Pubkey) (i : Instr) (hk : K i.pool) (hs : ∀ x ∈ signers, ¬ IsPda env K x)
      (hn : ∀ x ∈ signers, ¬ S x) (h : exec env signers i w = .ok w')
  | token (signers : List Pubkey) (i : Token.TokenInstr) (hs : ∀ x ∈ signers, ¬ IsPda env K x)
      (hn : ∀ x, S x → ¬ Consents env w signers x)
      (h : i.exec env.tokenProgramId signers w = .ok w')
  | other (h : Outside env sys K w w')
      (hn : ∀ k, (w k).owner = env.tokenProgramId → ¬ Zeros (w k).data → w' k = w k)

/-- What the delegate of a token account may still take. -/
def allowed (w : World) (k : Pubkey) : Int :=
  match tokenAt w k with
  | some t => if t.delegate.isSome then (t.delegated_amount.toNat : Int) else 0
  | none => 0

/-- The delegate of a token account. -/
def delegateOf (w : World) (k : Pubkey) : Option Pubkey := (tokenAt w k).bind (·.delegate)

/-- A token account in mint `m` that belongs to `o`, who has not let anybody else close it. -/
def OwnedBy (env : Env) (w : World) (k m o : Pubkey) : Prop :=
  (w k).owner = env.tokenProgramId ∧ ∃ t, tokenAt w k = some t ∧ t.mint = m ∧ t.owner = o ∧
    t.close_authority = none

end Spec
end Verif
