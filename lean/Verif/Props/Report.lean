import Verif.Lemmas.Why
import Verif.Props.Consent
import Verif.Props.Limit
import Verif.Props.Wire

/-
C78: what the number reported for a failed instruction says.
-/

namespace Verif
namespace Props

open Spec Processor Wire

/-- The full property: on every ledger that can occur, the reported number tells the failure. -/
def C78_statement : Prop :=
  ∀ (env : Env) (K : Pubkey → Prop), EnvOk env K → ∀ w, Reachable env K w →
    ∀ (signers signers' : List Pubkey) (i i' : Instr) (e e' : Err) (n : Nat),
      exec env signers i w = .error e → exec env signers' i' w = .error e' →
      e.report = .custom n → e'.report = .custom n → e = e'

/-- A swap on pool 2 naming pool 1's authority, and a withdrawal of more than the user has. -/
def lost : Instr :=
  .swap ⟨Sample.key 2, Sample.key 129, Sample.key 50, Sample.key 30, Sample.key 13, Sample.key 14,
    Sample.key 31, Sample.key 15, Sample.key 16, Sample.key 101⟩ 1000 1
def poor : Instr :=
  .withdrawAll ⟨Sample.key 2, Sample.key 130, Sample.key 50, Sample.key 15, Sample.key 17,
    Sample.key 13, Sample.key 14, Sample.key 30, Sample.key 31, Sample.key 16, Sample.key 101⟩
    1001000000 1 1

/-- The error of a run. -/
def errorOf : Except Err World → Option Err
  | .error e => some e
  | .ok _ => none

theorem of_errorOf {r : Except Err World} {e : Err} (h : errorOf r = some e) : r = .error e := by
  cases r with
  | ok w => cases h
  | error e' => cases h; rfl

/-- C78.  It does not: the token program's errors come through with their own numbers, so one is
reported both for a wrong authority account and for too few tokens. -/
theorem C78_false : ¬ C78_statement := by
  intro h
  have := h Sample.env samplePools sample_ok live live_reachable [Sample.key 50] [Sample.key 50]
    lost poor (.swap .InvalidProgramAddress) (.token .InsufficientFunds) 1
    (of_errorOf (by decide +kernel)) (of_errorOf (by decide +kernel)) rfl rfl
  cases this

/-- What is proved of every failure: its number is shared or tells what it is. -/
def Tells (e : Err) : Prop := ∀ n, e.report = .custom n → n ∉ shared → sole n = some e

/-- The number in a report. -/
def number : Report → List Nat
  | .custom n => [n]
  | _ => []

theorem tells_exec {env : Env} {signers : List Pubkey} {i : Instr} {w : World} :
    Fails Tells (exec env signers i w) := by
  refine fails_exec (fun e he => ?_)
  have h : ∀ e ∈ initErrs, ∀ n ∈ number e.report, n ∉ shared → sole n = some e := by decide
  intro n hn
  exact h e he n (by rw [hn]; exact List.mem_singleton.2 rfl)

theorem tells_anchor {e : AnchorError} : Tells (.anchor e) := by
  intro n hn _
  cases e <;> cases hn <;> rfl

/-- C78, for the numbers that are not shared.  Whatever bytes and accounts are sent to the program and
whatever the ledger, a reported number other than 1, 3, 4, 5 and 17 has one meaning: below one hundred the
program's own error of that number, and the token program's overflow for 14; from one hundred on that of
the checks that come first. -/
theorem C78_sole_partial (env : Env) (idl : List Meta → List UInt8 → World → Except Err World)
    (ms : List Meta) (data : List UInt8) (hd : data.take 8 ≠ tagIdl) (w : World) (e : Err) (n : Nat)
    (h : entry env idl ms data w = .error e) (hn : e.report = .custom n)
    (hs : n ∉ shared) : sole n = some e := by
  have key : Fails Tells (entry env idl ms data w) := by
    unfold entry
    rw [if_neg hd]
    refine .bind ?_ fun args _ => .bind ?_ fun i _ => tells_exec
    · unfold parse fields
      split
      · exact .error tells_anchor
      · simp only []
        repeat' split
        all_goals first | exact .ok | exact .error tells_anchor
    · have hc : ∀ c s mu, Fails Tells (Wire.checkAccounts ms c s mu) := fun c s mu => by
        unfold Wire.checkAccounts
        exact .req tells_anchor fun _ => .req tells_anchor fun _ => .require (Or.inr tells_anchor)
      unfold bindAccounts
      simp only []
      cases args <;> exact .bind (hc _ _ _) fun _ _ => .ok
  exact key e h n hn hs

/-- C78.  In particular 16 is reported exactly when a limit was not met (C68 says when that is). -/
theorem C78_limit (env : Env) (signers : List Pubkey) (i : Instr) (w : World) :
    (∃ e, exec env signers i w = .error e ∧ e.report = .custom 16) ↔
      exec env signers i w = .error slip := by
  constructor
  · rintro ⟨e, h1, h2⟩
    have := tells_exec e h1 16 h2 (by decide)
    rw [h1, ← Option.some.inj this]
    rfl
  · exact fun h => ⟨_, h, rfl⟩

/-- C78.  And an abort is reported exactly when the program aborted: no error it returns is reported
that way (C75 says when that is). -/
theorem C78_abort (env : Env) (signers : List Pubkey) (i : Instr) (w : World) :
    (∃ e, exec env signers i w = .error e ∧ e.report = .aborted) ↔
      exec env signers i w = .error .Panic := by
  constructor
  · rintro ⟨e, h1, h2⟩
    cases e with
    | anchor e => cases h2
    | Panic => exact h1
    | swap e => cases h2
    | token e => cases e <;> cases h2
    | _ => cases h2
  · exact fun h => ⟨_, h, rfl⟩

section
variable (env : Env) (K : Pubkey → Prop) (he : EnvOk env K)
include he

/-- C78, for existing pools.  On every ledger that can occur, if an instruction names an existing pool
and its authority and fails with a number below one hundred, the number tells the failure: 1, 3, 4, 14
and 17 are the token program's, the others the program's own. -/
theorem C78_existing_partial (w : World) (hr : Reachable env K w) (signers : List Pubkey) (i : Instr)
    (ht : i.Trades) (s : SwapV1) (hp : PoolAt env w i.pool s)
    (ha : env.createPda i.pool s.bump_seed = some i.authority) (e : Err) (n : Nat)
    (h : exec env signers i w = .error e) (hn : e.report = .custom n) : meaning n = some e := by
  obtain ⟨pda, hc⟩ := C35_custody env K he w hr _ s hp
  have es : ∀ ts, unpackSwap w i.pool = .ok ts → ts = s := fun ts h' =>
    Except.ok.inj (h'.symm.trans (unpackSwap_of hp))
  have key : Fails (fun e => ∀ n, e.report = .custom n → meaning n = some e)
      (exec env signers i w) := by
    refine fails_trade (fun e he => ?_) ht ⟨fun ts h' => ?_, fun ts h' => ?_⟩
    · have h : ∀ e ∈ tradeErrs, ∀ n ∈ number e.report, meaning n = some e := by decide
      exact fun n hn => h e he n (by rw [hn]; exact List.mem_singleton.2 rfl)
    · rw [es ts h']
      exact Or.inl ha
    · rw [es ts h']
      obtain ⟨_, m, h1, h2, _⟩ := hc.minter
      exact Or.inl ⟨m, h1, by rw [h2]; nofun⟩
  exact key e h n hn

/-- C78.  What is wrong on the ledger when a swap reports 1, 3, 4 or 17: too few tokens or too small an
allowance, accounts of different mints, a signer who may not spend, a frozen account. -/
theorem C78_swap_partial (w : World) (hr : Reachable env K w) (signers : List Pubkey)
    (a : SwapAccounts) (x y : UInt64) (s : SwapV1) (hp : PoolAt env w a.swap s)
    (ha : env.createPda a.swap s.bump_seed = some a.authority) (hu : a.userAuthority ≠ a.authority)
    (e : Err) (n : Nat) (h : exec env signers (.swap a x y) w = .error e)
    (hn : e.report = .custom n) :
    SwapTrouble w a.userAuthority a.source a.swapSource a.swapDestination a.destination
      s.pool_fee_account s.pool_mint x.toNat n := by
  have hmean := C78_existing_partial env K he w hr signers (.swap a x y) trivial s hp ha e n h hn
  obtain ⟨pda, hc⟩ := C35_custody env K he w hr _ s hp
  have hpda : pda = a.authority := Option.some.inj (hc.derived.symm.trans ha)
  subst hpda
  unfold exec at h
  have hf : Fails (Trouble w a s x.toNat)
      (Verif.require (a.userAuthority ∈ signers) .MissingRequiredSignature >>= fun _ =>
        processSwap env signers x y a none w) :=
    .req ⟨nofun, nofun, nofun, nofun⟩ fun _ => swap_trouble hp hc hu
  obtain ⟨h1, h3, h4, h17⟩ := hf e h
  unfold SwapTrouble
  split
  · exact h1 (Option.some.inj hmean).symm
  · exact h3 (Option.some.inj hmean).symm
  · exact h4 (Option.some.inj hmean).symm
  · exact h17 (Option.some.inj hmean).symm
  · trivial

end

/-- A swap on pool 2 by user 50 of `x` token A from the account `src`. -/
def swapFrom (src : UInt8) (x y : UInt64) : Instr :=
  .swap ⟨Sample.key 2, Sample.key 130, Sample.key 50, Sample.key src, Sample.key 13, Sample.key 14,
    Sample.key 31, Sample.key 15, Sample.key 16, Sample.key 101⟩ x y

/-! Too high a minimum, too few tokens (account 3 holds 18), the wrong mint, another's account, and
nothing to be paid out, with the numbers reported. -/
example : errorOf (asks (swapFrom 30 1000 140)) = some slip ∧ slip.report = .custom 16 := by
  decide +kernel
example : (errorOf (asks (swapFrom 3 1000 1))).map Err.report = some (.custom 1) ∧
    (errorOf (asks (swapFrom 31 1000 1))).map Err.report = some (.custom 3) ∧
    (errorOf (asks (swapFrom 3 16 1))).map Err.report = some (.custom 4) ∧
    (errorOf (asks (swapFrom 30 1 0))).map Err.report = some (.custom 20) := by
  decide +kernel

/-- So account 3 belongs to somebody else. -/
example : ¬ Spender live (Sample.key 3) (Sample.key 50) := by
  have hx : asks (swapFrom 3 16 1) = .error (.token .OwnerMismatch) := of_errorOf (by decide +kernel)
  have h : SwapTrouble live (Sample.key 50) (Sample.key 3) (Sample.key 13) (Sample.key 14)
      (Sample.key 31) (Sample.key 16) (Sample.key 15) (16 : UInt64).toNat 4 :=
    C78_swap_partial Sample.env samplePools sample_ok live live_reachable [Sample.key 50]
      ⟨Sample.key 2, Sample.key 130, Sample.key 50, Sample.key 3, Sample.key 13, Sample.key 14,
        Sample.key 31, Sample.key 15, Sample.key 16, Sample.key 101⟩ 16 1 pool2 live_pool2
      (by decide) (by decide) (.token .OwnerMismatch) 4 hx rfl
  exact h

/-- The withdrawal of more than the user has is number 1, and the pool exists. -/
example : meaning 1 = some (.token .InsufficientFunds) :=
  C78_existing_partial Sample.env samplePools sample_ok live live_reachable [Sample.key 50] poor trivial
    pool2 live_pool2 (by decide) _ 1 (of_errorOf (by decide +kernel)) rfl

/-- The entrypoint, fed the bytes of a purchase with too high a minimum. -/
example : (errorOf (enter buyMetas (tagSwap ++ State.leBytes 30 ++ State.leBytes 50))).map
    Err.report = some (.custom 16) := by decide +kernel

end Props
end Verif
