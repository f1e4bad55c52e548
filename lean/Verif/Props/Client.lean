import Verif.Lemmas.Client
import Verif.Props.Live
import Verif.Props.Wire

/-
C62: what the TypeScript client shows.  C63: what it sends.
-/

namespace Verif
namespace Props
open Spec

/-! ### C62 -/

/-- C62.  Numbers survive the client's conversions: a buffer exists for the magnitudes below 2^64 and
only those, it is the little-endian encoding, and reading it back gives the number. -/
theorem C62_numbers (x : Int) (b : List UInt8) :
    (Client.toBuffer x = some b ↔
      x.natAbs < 18446744073709551616 ∧ b = State.leBytes (UInt64.ofNat x.natAbs)) ∧
    (Client.toBuffer x = some b → Client.fromBuffer b = some x.natAbs) := by
  refine ⟨Client.toBuffer_iff x b, fun h => ?_⟩
  obtain ⟨h1, rfl⟩ := (Client.toBuffer_iff x b).1 h
  rw [Client.fromBuffer_eq (State.leBytes_length _), State.leNat_leBytes,
    UInt64.toNat_ofNat_of_lt' h1]

/-- C62.  The client shows every pool exactly as the program stored it. -/
theorem C62_faithful (env : Env) (w : World) (k : Pubkey) (s : SwapV1) (hp : PoolAt env w k s) :
    Client.load env w k = some (view env k s) := Client.load_pool hp

/-- C62.  The authority it shows is the one that controls the pool's vaults and mint. -/
theorem C62_authority (env : Env) (K : Pubkey → Prop) (he : EnvOk env K) (w : World)
    (hr : Reachable env K w) (k : Pubkey) (s : SwapV1) (hp : PoolAt env w k s) (p : Client.Pool)
    (h : Client.load env w k = some p) : Custody env w k s p.authority := by
  rw [Client.load_pool hp] at h
  cases h
  obtain ⟨w0, h0, hs⟩ := hr
  exact (Client.pool_authority he h0 hs k s hp).2

/-- C62.  Whatever the client shows is a pool, or an account of Anchor's interface description. -/
theorem C62_origin (env : Env) (K : Pubkey → Prop) (w0 w : World) (h0 : Unused env w0)
    (hs : Steps env K w0 w) (k : Pubkey) (p : Client.Pool) (h : Client.load env w k = some p) :
    (∃ s, PoolAt env w k s ∧ p = view env k s) ∨ IdlData (w k).data := by
  rcases Client.program_accounts h0 hs k (Client.load_owner h) with ⟨n, hn⟩ | h1 | ⟨s, hp⟩
  · rw [Client.load_zeros hn] at h; cases h
  · exact Or.inr h1
  · rw [Client.load_pool hp] at h
    exact Or.inl ⟨s, hp, (Option.some.inj h).symm⟩

/-- A ledger without accounts. -/
def blank : World := fun _ => ⟨Sample.key 0, .raw []⟩

/-- The same with an interface-description account at address 1. -/
def described : World := fun k =>
  if k = Sample.key 1 then ⟨Sample.key 100, .raw (idlTag ++ List.replicate 316 7)⟩ else blank k

theorem described_step : EnvStep Sample.env samplePools blank described where
  program := fun k h => absurd h (by show Sample.key 0 ≠ Sample.key 100; decide)
  fresh := fun k _ h => by
    right
    by_cases hk : k = Sample.key 1
    · exact ⟨_, by unfold described; rw [if_pos hk]⟩
    · unfold described at h
      rw [if_neg hk] at h
      exact absurd h (by show Sample.key 0 ≠ Sample.key 100; decide)
  vault := fun k t _ h => by cases h
  mint := fun k m x _ h => by cases h

/-- C62.  The second case happens: the client does not check the version byte. -/
theorem C62_description : ∃ (env : Env) (K : Pubkey → Prop) (w0 w : World) (k : Pubkey)
    (p : Client.Pool), EnvOk env K ∧ Unused env w0 ∧ Steps env K w0 w ∧
    Client.load env w k = some p ∧ ∀ s, ¬ PoolAt env w k s := by
  have h : (Client.load Sample.env described (Sample.key 1)).isSome = true := by decide +kernel
  obtain ⟨p, hp⟩ := Option.isSome_iff_exists.1 h
  refine ⟨Sample.env, samplePools, blank, described, Sample.key 1, p, sample_ok, ?_,
    .single (.other described_step), hp, fun s => ?_⟩
  · intro k; show Sample.key 0 ≠ Sample.key 100; decide
  · exact idl_not_pool ⟨_, by unfold described; rw [if_pos rfl]⟩

/- Both sample pools, as the client shows them. -/
example : ∃ w s, Reachable Sample.env samplePools w ∧ PoolAt Sample.env w (Sample.key 1) s ∧
    Client.load Sample.env w (Sample.key 1) = some (view Sample.env (Sample.key 1) s) ∧
    (view Sample.env (Sample.key 1) s).curveType = 30 := by
  obtain ⟨w, s1, s2, hr, h1, e1, h2, e2⟩ := sample_reachable
  exact ⟨w, s1, hr, h1, C62_faithful _ _ _ _ h1, by unfold view kindNumber; rw [e1]⟩
example : Client.toBuffer 1000 = some [232, 3, 0, 0, 0, 0, 0, 0] := by
  rw [Client.toBuffer_iff]; decide +kernel
example : ∀ b, Client.toBuffer 18446744073709551616 ≠ some b := fun b h =>
  absurd ((Client.toBuffer_iff _ _).1 h).1 (by decide)

/-! ### C63 -/

/-- C63 as one would want it: what the client builds for an instruction is that instruction. -/
def C63_statement : Prop := ∀ (env : Env) (idl : List Meta → List UInt8 → World → Except Err World)
  (w : World) (i : Instr) (u : Pubkey) (ix : Client.Ix), BuiltFor i u ix →
    Wire.entry env idl ix.keys ix.data w = exec env [u] i w

/-- C63.  The program rejects every instruction the client builds. -/
theorem C63_rejected (ix : Client.Ix) (h : Built ix) (env : Env)
    (idl : List Meta → List UInt8 → World → Except Err World) (w : World) :
    Wire.entry env idl ix.keys ix.data w = .error (.anchor .InstructionFallbackNotFound) :=
  Client.built_entry h env idl w

/-- What the client builds for the sample purchase. -/
def buyAccounts : Processor.SwapAccounts :=
  ⟨Sample.key 1, Sample.key 129, Sample.key 50, Sample.key 30, Sample.key 3, Sample.key 4,
    Sample.key 31, Sample.key 5, Sample.key 6, Sample.key 101⟩

def clientBuy : Client.Ix := ⟨buyMetas, 1 :: (State.leBytes 30 ++ State.leBytes 4)⟩

theorem clientBuy_built : Client.swapIx buyAccounts none ((30 : UInt64).toNat : Int)
    ((4 : UInt64).toNat : Int) = some clientBuy := by
  unfold Client.swapIx
  rw [Client.toBuffer_nat, Client.toBuffer_nat]
  rfl

/-- C63 is false: the sample purchase succeeds, but not as built by the client. -/
theorem C63_false : ¬ C63_statement := by
  intro h
  have hw : isOk (Sample.run Sample.env [Sample.initLinear] Sample.start) = true := by
    decide +kernel
  obtain ⟨w, hw⟩ := of_isOk hw
  have h2 := h Sample.env (fun _ _ _ => .error .InvalidAccountData) w Sample.buy (Sample.key 50)
    clientBuy (.swap buyAccounts none 30 4 clientBuy_built)
  rw [C63_rejected clientBuy (.swap clientBuy_built)] at h2
  have h3 : isOk (match Sample.run Sample.env [Sample.initLinear] Sample.start with
    | .ok w => exec Sample.env [Sample.key 50] Sample.buy w
    | .error e => .error e) = true := by decide +kernel
  rw [hw] at h3
  simp only [] at h3
  rw [← h2] at h3
  cases h3

/-- C63, the part that holds: only the tag is wrong.  With the one-byte tag replaced by the program's
eight bytes, what the client builds is the instruction asked for, signed by the user alone.
(Initialisation is excepted: its arguments differ as well.) -/
theorem C63_tag_partial (env : Env) (idl : List Meta → List UInt8 → World → Except Err World)
    (w : World) (i : Instr) (u : Pubkey) (ix : Client.Ix) (h : BuiltFor i u ix) :
    Wire.entry env idl ix.keys (tag i.args ++ ix.data.drop 1) w = exec env [u] i w := by
  rw [Client.builtFor_entry h, Client.builtFor_signers h]

example : Built clientBuy := .swap clientBuy_built
example : BuiltFor Sample.buy (Sample.key 50) clientBuy := .swap buyAccounts none 30 4 clientBuy_built

end Props
end Verif
