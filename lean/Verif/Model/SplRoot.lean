import Verif.Model.SplMath

/-
Model of `PreciseNumber::sqrt` of crate `spl-math` 0.1.0, recalled like the rest of the crate (its source
is not in `/repo`).  The curves take the root as a parameter (`SplEnv`); this is the routine published.
-/

namespace Verif
namespace Spl

/-- One round of `PreciseNumber::newtonian_root_approximation` for the second root: `root − 1` is one, so
the first term is `1 · guess` and the power `guess¹`, which `checked_pow` returns unchanged. -/
def rootRound (v guess : Nat) : Res Nat := do
  let first ← mul ONE guess
  let second ← div v guess
  let s ← add first second
  div s (2 * ONE)

/-- The rounds: until two guesses are less than 100 units of the twelfth decimal apart. -/
def rootLoop (v : Nat) : Nat → Nat → Res Nat
  | 0, guess => .ok guess
  | k + 1, guess => do
    let g ← rootRound v guess
    if (if g ≤ guess then guess - g else g - guess) < 100 then .ok g else rootLoop v k g

/-- `PreciseNumber::sqrt` (called at curve/constant_product.rs l.117, l.148, l.170): `None` above `u128::MAX`, at most 100 rounds from the mean of one and the
argument; zero for zero. -/
def sqrt (v : Nat) : Res Nat :=
  if (U128 - 1) * ONE < v then .none
  else do
    let s ← add v ONE
    let guess ← div s (2 * ONE)
    if v = 0 then .ok 0 else rootLoop v 100 guess

/-- `spl-math` with this root; which of the two published `checked_ceil_div` is in use stays open. -/
def library (h : Bool) : SplEnv := ⟨h, sqrt⟩

end Spl
end Verif
