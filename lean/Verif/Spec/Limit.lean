import Verif.Model.Exec

/-
What a user's limit on an instruction should do: nothing but refuse results that are not good
enough.
-/

namespace Verif
namespace Spec

/-- The error reported for a limit not met. -/
def slip : Err := .swap .ExceededSlippage

/-- The largest `u64`. -/
def largest : UInt64 := 18446744073709551615

/-- `run y` is the instruction asking for at least `y`.  Whatever `y` is, the instruction does what it
would do without a demand if `y` is at most `T`, and otherwise is refused for its limit; without a
demand it is never refused for its limit. -/
def AtLeast (run : UInt64 → Except Err World) (T : Nat) : Prop :=
  run 0 ≠ .error slip ∧
  ∀ y, (y.toNat ≤ T → run y = run 0) ∧ (T < y.toNat → run y = .error slip)

/-- The same for an instruction offering at most `y`. -/
def AtMost (run : UInt64 → Except Err World) (T : Nat) : Prop :=
  run largest ≠ .error slip ∧
  ∀ y, (T ≤ y.toNat → run y = run largest) ∧ (y.toNat < T → run y = .error slip)

/-- Two demands at once. -/
def AtLeastBoth (run : UInt64 → UInt64 → Except Err World) (T S : Nat) : Prop :=
  run 0 0 ≠ .error slip ∧
  ∀ x y, (x.toNat ≤ T ∧ y.toNat ≤ S → run x y = run 0 0) ∧
    (T < x.toNat ∨ S < y.toNat → run x y = .error slip)

/-- Two offers at once. -/
def AtMostBoth (run : UInt64 → UInt64 → Except Err World) (T S : Nat) : Prop :=
  run largest largest ≠ .error slip ∧
  ∀ x y, (T ≤ x.toNat ∧ S ≤ y.toNat → run x y = run largest largest) ∧
    (x.toNat < T ∨ y.toNat < S → run x y = .error slip)

end Spec
end Verif
