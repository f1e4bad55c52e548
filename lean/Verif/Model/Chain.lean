import Verif.Model.Exec
import Mathlib.Logic.Relation

/-
Executions: the program's instructions interleaved with everything else that can happen on the
chain.  Nothing here is code of `/repo`; it is the contract of the Solana runtime and of the token
program that the properties about executions rely on (see DESIGN.md, trusted base).
-/

namespace Verif

/-- `x` is an address derived for some pool key and bump, `Pubkey::create_program_address`
(processor.rs l.57-64).  Such addresses lie off the ed25519 curve, so nobody has a key for them.
`K` is the set of addresses used as pool accounts in the execution at hand: a hash into a finite
space cannot be injective on all addresses, so the assumptions below are about these only. -/
def IsPda (env : Env) (K : Pubkey → Prop) (x : Pubkey) : Prop :=
  ∃ k b, K k ∧ env.createPda k b = some x

/-- Assumptions about address derivation and program identities. -/
structure EnvOk (env : Env) (K : Pubkey → Prop) : Prop where
  /-- `find_program_address` returns an address that `create_program_address` confirms. -/
  find : ∀ k, K k → env.createPda k (env.findPda k).2 = some (env.findPda k).1
  /-- Derived addresses of different pools differ (collision resistance of SHA-256). -/
  inj : ∀ k b k' b' x, K k → K k' → env.createPda k b = some x → env.createPda k' b' = some x →
    k = k'
  /-- This program is not the token program. -/
  ids : env.programId ≠ env.tokenProgramId

/-- Discriminator of the accounts of Anchor's built-in IDL instructions: the first eight bytes of
SHA-256 of "internal:IdlAccount".  `Cargo.toml` l.14-17 declares no feature `no-idl`, so anchor-lang
0.20.1 (not in `/repo`) compiles these instructions into the program. -/
def idlTag : List UInt8 := [24, 70, 98, 191, 58, 144, 123, 158]

/-- Contents of an IDL account. -/
def IdlData (d : Data) : Prop := ∃ t, d = .raw (idlTag ++ t)

/-- Contents an IDL instruction is willing to overwrite: those of an IDL account, or a new account
(constraint `zero`: the first eight bytes vanish). -/
def IdlWritable (d : Data) : Prop := IdlData d ∨ ∃ t, d = .raw (List.replicate 8 0 ++ t)

/-- What one step of anybody else, or one of Anchor's IDL instructions, may do to the ledger.

* Accounts of this program do not change (only the owning program may write), except that the IDL
  instructions turn new accounts into IDL accounts and rewrite those.
* An account that becomes this program's is filled with zeros (the runtime zeroes or requires zeros
  on assignment), or is an IDL account.
* A token account owned by a derived address, with no delegate and no close authority, keeps mint,
  owner and both of these, and does not lose tokens: all of that would need the owner's signature,
  which only this program can give.  It may receive tokens and be frozen or thawed.
* A mint controlled by a derived address stays so and its supply does not grow; a missing freeze
  authority cannot be added.

Everything else is unconstrained. -/
structure EnvStep (env : Env) (K : Pubkey → Prop) (w w' : World) : Prop where
  program : ∀ k, (w k).owner = env.programId → w' k = w k ∨
    (w' k).owner = env.programId ∧ IdlWritable (w k).data ∧ IdlData (w' k).data
  fresh : ∀ k, (w k).owner ≠ env.programId → (w' k).owner = env.programId →
    (∃ n, (w' k).data = .raw (List.replicate n 0)) ∨ IdlData (w' k).data
  vault : ∀ k t, (w k).owner = env.tokenProgramId → (w k).data = .token t → IsPda env K t.owner →
    t.delegate = none → t.close_authority = none →
    (w' k).owner = env.tokenProgramId ∧ ∃ t', (w' k).data = .token t' ∧ t'.mint = t.mint ∧
      t'.owner = t.owner ∧ t'.delegate = none ∧ t'.close_authority = none ∧ t.amount ≤ t'.amount
  mint : ∀ k m x, (w k).owner = env.tokenProgramId → (w k).data = .mint m →
    m.mint_authority = some x → IsPda env K x →
    (w' k).owner = env.tokenProgramId ∧ ∃ m', (w' k).data = .mint m' ∧ m'.mint_authority = some x ∧
      m'.supply ≤ m.supply ∧ (m.freeze_authority = none → m'.freeze_authority = none)

/-- One step of the chain: an instruction of this program, signed by any set of addresses that are
not derived addresses of this program, succeeds (failing ones have no effect); or anything else
happens. -/
inductive Step (env : Env) (K : Pubkey → Prop) (w w' : World) : Prop
  | instr (signers : List Pubkey) (i : Instr) (hk : K i.pool) (hs : ∀ x ∈ signers, ¬ IsPda env K x)
      (h : exec env signers i w = .ok w')
  | other (h : EnvStep env K w w')

/-- Any finite sequence of steps. -/
def Steps (env : Env) (K : Pubkey → Prop) : World → World → Prop :=
  Relation.ReflTransGen (Step env K)

end Verif
