import Verif.Model.TokenProgram
import Verif.Spec.Live

/-
Vocabulary for setting up a pool from nothing.
-/

namespace Verif
namespace Spec

/-- One thing the signers `S` can do by themselves: a token-program instruction, creating an account at an
unused address among `S`, or an instruction of this program. -/
inductive Deed (env : Env) (sys : Pubkey) (K : Pubkey → Prop) (S : List Pubkey) (w w' : World) : Prop
  | token (i : Token.TokenInstr) (h : i.exec env.tokenProgramId S w = .ok w')
  | create (k owner : Pubkey) (n : Nat) (hk : k ∈ S) (ho : (w k).owner = sys)
      (h : w' = w.set k ⟨owner, .raw (List.replicate n 0)⟩)
  | instr (i : Instr) (hk : K i.pool) (h : exec env S i w = .ok w')

/-- Several such things. -/
def Deeds (env : Env) (sys : Pubkey) (K : Pubkey → Prop) (S : List Pubkey) : World → World → Prop :=
  Relation.ReflTransGen (Deed env sys K S)

/-- Addresses for the accounts of a new pool: nothing is there yet, they differ, and none is a derived
address of the program (whose key nobody has). -/
structure UnusedAddrs (env : Env) (sys : Pubkey) (K : Pubkey → Prop) (w : World) (l : List Pubkey) : Prop where
  free : ∀ k ∈ l, (w k).owner = sys
  apart : l.Nodup
  keyed : ∀ k ∈ l, ¬ IsPda env K k

end Spec
end Verif
