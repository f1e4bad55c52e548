import Verif.Model.Ledger
import Mathlib.Algebra.BigOperators.Group.Finset.Basic

/-
Observations on ledgers used to state what instructions do, independent of the processor.
-/

namespace Verif
namespace Spec

/-- The token account stored at an address, if any. -/
def tokenAt (w : World) (k : Pubkey) : Option TokenAccount :=
  match (w k).data with
  | .token t => some t
  | _ => none

/-- The mint stored at an address, if any. -/
def mintAt (w : World) (k : Pubkey) : Option Mint :=
  match (w k).data with
  | .mint m => some m
  | _ => none

/-- Token balance of an address (zero if it is not a token account). -/
def bal (w : World) (k : Pubkey) : Int :=
  match tokenAt w k with
  | some t => (t.amount.toNat : Int)
  | none => 0

/-- Recorded supply of a mint (zero if the address is not a mint). -/
def supply (w : World) (k : Pubkey) : Int :=
  match mintAt w k with
  | some m => (m.supply.toNat : Int)
  | none => 0

/-- The mint of the tokens held at an address. -/
def mintOf (w : World) (k : Pubkey) : Option Pubkey := (tokenAt w k).map (·.mint)

/-- `x` if `c` holds, else zero. -/
def when (c : Prop) [Decidable c] (x : Int) : Int := if c then x else 0

/-- What may happen to the contents of one account when only balances and supplies move: bytes are
untouched, token accounts keep mint, owner, frozen state and close authority and gain no delegate,
mints keep both authorities. -/
def DataFrame : Data → Data → Prop
  | .raw b, .raw b' => b' = b
  | .token t, .token t' => t'.mint = t.mint ∧ t'.owner = t.owner ∧ t'.frozen = t.frozen ∧
      t'.close_authority = t.close_authority ∧ (t'.delegate = t.delegate ∨ t'.delegate = none)
  | .mint m, .mint m' => m'.mint_authority = m.mint_authority ∧
      m'.freeze_authority = m.freeze_authority
  | _, _ => False

/-- Only balances and supplies move, everywhere. -/
def Frame (w w' : World) : Prop :=
  ∀ k, (w' k).owner = (w k).owner ∧ DataFrame (w k).data (w' k).data

/-- The complete effect of an operation that only moves balances and supplies: the balance of every
account `k` changes by `db k`, the supply of every mint `k` by `ds k`, and accounts outside
`touched` are exactly as before. -/
structure Effect (w w' : World) (db ds : Pubkey → Int) (touched : List Pubkey) : Prop where
  frame : Frame w w'
  bal : ∀ k, bal w' k = bal w k + db k
  supply : ∀ k, supply w' k = supply w k + ds k
  same : ∀ k, k ∉ touched → w' k = w k

/-- Total of the balances in mint `m` over a finite set of accounts. -/
def total (w : World) (F : Finset Pubkey) (m : Pubkey) : Int :=
  ∑ k ∈ F, when (mintOf w k = some m) (bal w k)

/-- `a` may spend from the token account at `k`: it is its owner or its delegate. -/
def Spender (w : World) (k a : Pubkey) : Prop :=
  ∃ t, tokenAt w k = some t ∧ (t.owner = a ∨ t.delegate = some a)

/-- Between two ledgers, tokens of every mint but `pm` are neither created nor destroyed as far as
the accounts `F` go, and those of `pm` exactly as its recorded supply says. -/
def Conserved (F : Finset Pubkey) (pm : Pubkey) (w w' : World) : Prop :=
  (∀ m, total w' F m = total w F m + when (m = pm) (supply w' m - supply w m)) ∧
    ∀ m, m ≠ pm → supply w' m = supply w m

end Spec
end Verif
