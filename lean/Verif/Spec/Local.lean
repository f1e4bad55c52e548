import Verif.Spec.Wire

/-
What it means for an instruction to depend on and to affect nothing but its own accounts.
-/

namespace Verif
namespace Spec

/-- The account a role is about. -/
def Role.key : Role → Pubkey
  | .reads k => k
  | .signs k => k
  | .writes k => k
  | .signsAndWrites k => k

/-- The role allows changing the account. -/
def Role.MayWrite : Role → Prop
  | .writes _ => True
  | .signsAndWrites _ => True
  | _ => False

/-- `k` is one of the accounts passed to the instruction. -/
def Uses (i : Instr) (k : Pubkey) : Prop := ∃ r ∈ roles i, r.key = k

/-- `k` is passed to the instruction as writable. -/
def Writes (i : Instr) (k : Pubkey) : Prop := ∃ r ∈ roles i, r.key = k ∧ r.MayWrite

/-- Two ledgers look the same to an instruction. -/
def Alike (i : Instr) (w u : World) : Prop := ∀ k, Uses i k → w k = u k

/-- Two results of an instruction are the same as far as it is concerned: the same error, or
success with the same contents of its accounts. -/
def SameVerdict (i : Instr) : Except Err World → Except Err World → Prop
  | .ok w, .ok u => Alike i w u
  | .error e, .error f => e = f
  | _, _ => False

/-- Neither of two instructions writes an account of the other. -/
def Apart (i j : Instr) : Prop :=
  (∀ k, Writes i k → ¬ Uses j k) ∧ (∀ k, Writes j k → ¬ Uses i k)

end Spec
end Verif
